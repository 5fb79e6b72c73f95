import Verif.Dft.CallProps
import Verif.Common.Interleave

/-!
# C77 — DFT calls with every interleaving of the stores

The iterations of the OpenMP loops and the threads of the kernels are programs whose stores interleave.  The inputs
are other arrays than the output and are only read.
-/

namespace Sdp.Dft
open Sdp.Race
noncomputable section

/-- Stores of the polarisations of a visibility, sdp_dft.cpp:86-94, 327-335 and .cu:89-96, 188-193. -/
def storeProg (D : Dims) (loc : Arr ℂ) (t c b : Nat) : List Nat → Prog ℂ
  | [] => .done
  | p :: ps => .need (loc.read p) fun x =>
    .write (index4 D.baselines D.channels D.pols t b c p) x (storeProg D loc t c b ps)

/-- One (time, channel, baseline) iteration of `dft_point_v00`, sdp_dft.cpp:43-95. -/
def iterV00 (D : Dims) (dirs : Arr ℝ) (flux : Arr ℂ) (uvw : Arr ℝ) (x : Nat × Nat × Nat) : Prog ℂ :=
  let i := index4 D.baselines D.channels 3 x.1 x.2.2 x.2.1 0
  .need (uvw.read i) fun u =>
  .need (uvw.read (i + 1)) fun v =>
  .need (uvw.read (i + 2)) fun w =>
  .need (localVis D dirs flux 1 u v w x.2.1) fun loc => storeProg D loc x.1 x.2.1 x.2.2 (List.range D.pols)

/-- One (time, channel, baseline) iteration of `dft_point_v01`, sdp_dft.cpp:279-336. -/
def iterV01 (D : Dims) (dirs : Arr ℝ) (flux : Arr ℂ) (uvw : Arr ℝ) (f0 df : ℝ) (x : Nat × Nat × Nat) : Prog ℂ :=
  let i := index3 D.baselines 3 x.1 x.2.2 0
  .need (uvw.read i) fun u =>
  .need (uvw.read (i + 1)) fun v =>
  .need (uvw.read (i + 2)) fun w =>
  .need (localVis D dirs flux ((f0 + x.2.1 * df) / 299792458) u v w x.2.1) fun loc =>
    storeProg D loc x.1 x.2.1 x.2.2 (List.range D.pols)

/-- One thread of `dft_point_v00`, sdp_dft.cu:31-97; `x` is (baseline, channel, time). -/
def kernV00 (D : Dims) (dirs : Arr ℝ) (flux : Arr ℂ) (uvw : Arr ℝ) (x : Nat × Nat × Nat) : Prog ℂ :=
  if D.pols > 4 ∨ x.1 ≥ D.baselines ∨ x.2.1 ≥ D.channels ∨ x.2.2 ≥ D.times then .done
  else
    let i := 3 * index3 D.baselines D.channels x.2.2 x.1 x.2.1
    .need (uvw.read i) fun u =>
    .need (uvw.read (i + 1)) fun v =>
    .need (uvw.read (i + 2)) fun w =>
    .need (localVisGpu D dirs flux 1 u v w x.2.1) fun loc => storeProg D loc x.2.2 x.2.1 x.1 (List.range D.pols)

/-- One thread of `dft_point_v01`, sdp_dft.cu:127-194. -/
def kernV01 (D : Dims) (dirs : Arr ℝ) (flux : Arr ℂ) (uvw : Arr ℝ) (f0 df : ℝ) (x : Nat × Nat × Nat) : Prog ℂ :=
  if D.pols > 4 ∨ x.1 ≥ D.baselines ∨ x.2.1 ≥ D.channels ∨ x.2.2 ≥ D.times then .done
  else
    let i := 3 * index2 D.baselines x.2.2 x.1
    .need (uvw.read i) fun u =>
    .need (uvw.read (i + 1)) fun v =>
    .need (uvw.read (i + 2)) fun w =>
    .need (localVisGpu D dirs flux ((f0 + x.2.1 * df) / 299792458) u v w x.2.1) fun loc =>
      storeProg D loc x.2.2 x.2.1 x.1 (List.range D.pols)

/-- What follows the checks (sdp_dft.cpp:164-243, 415-508).  `cuda`: built with CUDA; a launch without threads is
refused. -/
def Dispatch (dirs flux uvw vis : Mem) (cuda : Bool) (a : Arr ℂ) (iter kern : Nat × Nat × Nat → Prog ℂ)
    (o : Option (Status × Arr ℂ)) : Prop :=
  match vis.location with
  | .cpu =>
    if typesOk dirs flux uvw vis then
      ∃ l, Launch iter (nest3 (dimsOf dirs vis).times (dimsOf dirs vis).channels (dimsOf dirs vis).baselines) a l ∧
        o = l.map fun v => (.success, v)
    else o = some (.dataType, a)
  | .gpu =>
    if typesOk dirs flux uvw vis then
      if cuda = false ∨ threads (dimsOf dirs vis) = [] then o = some (.runtime, a)
      else ∃ l, Launch kern (threads (dimsOf dirs vis)) a l ∧ o = l.map fun v => (.success, v)
    else o = some (.dataType, a)
  | .other => o = some (.success, a)

/-- `sdp_dft_point_v00`, sdp_dft.cpp:150-243: a call on visibilities `a` can end with `o`. -/
def CallsV00 (dirs flux uvw vis : Mem) (status : Status) (cuda : Bool) (d : Arr ℝ) (f : Arr ℂ) (u : Arr ℝ) (a : Arr ℂ)
    (o : Option (Status × Arr ℂ)) : Prop :=
  if checkV00 dirs flux uvw vis status ≠ .success then o = some (checkV00 dirs flux uvw vis status, a)
  else Dispatch dirs flux uvw vis cuda a (iterV00 (dimsOf dirs vis) d f u) (kernV00 (dimsOf dirs vis) d f u) o

/-- `sdp_dft_point_v01`, sdp_dft.cpp:405-508. -/
def CallsV01 (dirs flux uvw vis : Mem) (f0 df : ℝ) (status : Status) (cuda : Bool) (d : Arr ℝ) (f : Arr ℂ) (u : Arr ℝ)
    (a : Arr ℂ) (o : Option (Status × Arr ℂ)) : Prop :=
  if checkV01 dirs flux uvw vis status ≠ .success then o = some (checkV01 dirs flux uvw vis status, a)
  else Dispatch dirs flux uvw vis cuda a (iterV01 (dimsOf dirs vis) d f u f0 df)
    (kernV01 (dimsOf dirs vis) d f u f0 df) o

/-! ## Programs against loops -/

/-- Positions of the polarisations of visibility `(t, c, b)`. -/
def cellsOf (D : Dims) (t c b : Nat) (i : Int) : Prop :=
  ∃ p < D.pols, i = index4 D.baselines D.channels D.pols t b c p

theorem storeProg_exec (D : Dims) (loc : Arr ℂ) (t c b : Nat) (l : List Nat) (a : Arr ℂ) :
    (storeProg D loc t c b l).exec a = loop (fun vis (p : Nat) => (loc.read p).bind fun x =>
      vis.write (index4 D.baselines D.channels D.pols t b c p) x) a l := by
  induction l generalizing a with
  | nil => rfl
  | cons p l ih =>
    unfold storeProg
    rw [exec_need]
    simp only [loop]
    cases loc.read (p : Int) with
    | none => rfl
    | some v =>
      simp only [Option.bind_some, Prog.exec]
      cases a.write (index4 D.baselines D.channels D.pols t b c p) v with
      | none => rfl
      | some a' => exact ih a'

theorem storeProg_within (D : Dims) (loc : Arr ℂ) (t c b : Nat) (l : List Nat) (hl : ∀ p ∈ l, p < D.pols) :
    (storeProg D loc t c b l).Within (cellsOf D t c b) := by
  induction l with
  | nil => trivial
  | cons p l ih =>
    unfold storeProg
    apply within_need
    intro v _
    exact ⟨⟨p, hl p (by simp), rfl⟩, ih fun p' h => hl p' (by simp [h])⟩

theorem iterV00_exec (D : Dims) (dirs : Arr ℝ) (flux : Arr ℂ) (uvw : Arr ℝ) (x : Nat × Nat × Nat) (a : Arr ℂ) :
    (iterV00 D dirs flux uvw x).exec a = bodyV00 D dirs flux uvw a x := by
  unfold iterV00 bodyV00
  dsimp only
  rw [exec_need]; congr 1; funext u
  rw [exec_need]; congr 1; funext v
  rw [exec_need]; congr 1; funext w
  rw [exec_need]; congr 1; funext loc
  rw [storeProg_exec]; rfl

theorem iterV01_exec (D : Dims) (dirs : Arr ℝ) (flux : Arr ℂ) (uvw : Arr ℝ) (f0 df : ℝ) (x : Nat × Nat × Nat) (a : Arr ℂ) :
    (iterV01 D dirs flux uvw f0 df x).exec a = bodyV01 D dirs flux uvw f0 df a x := by
  unfold iterV01 bodyV01
  dsimp only
  rw [exec_need]; congr 1; funext u
  rw [exec_need]; congr 1; funext v
  rw [exec_need]; congr 1; funext w
  rw [exec_need]; congr 1; funext loc
  rw [storeProg_exec]; rfl

theorem kernV00_exec (D : Dims) (dirs : Arr ℝ) (flux : Arr ℂ) (uvw : Arr ℝ) (x : Nat × Nat × Nat) (a : Arr ℂ) :
    (kernV00 D dirs flux uvw x).exec a = threadV00 D dirs flux uvw a x := by
  unfold kernV00 threadV00
  by_cases h : D.pols > 4 ∨ x.1 ≥ D.baselines ∨ x.2.1 ≥ D.channels ∨ x.2.2 ≥ D.times
  · rw [if_pos h, if_pos h]; rfl
  rw [if_neg h, if_neg h]
  dsimp only
  rw [exec_need]; congr 1; funext u
  rw [exec_need]; congr 1; funext v
  rw [exec_need]; congr 1; funext w
  rw [exec_need]; congr 1; funext loc
  rw [storeProg_exec]; rfl

theorem kernV01_exec (D : Dims) (dirs : Arr ℝ) (flux : Arr ℂ) (uvw : Arr ℝ) (f0 df : ℝ) (x : Nat × Nat × Nat) (a : Arr ℂ) :
    (kernV01 D dirs flux uvw f0 df x).exec a = threadV01 D dirs flux uvw f0 df a x := by
  unfold kernV01 threadV01
  by_cases h : D.pols > 4 ∨ x.1 ≥ D.baselines ∨ x.2.1 ≥ D.channels ∨ x.2.2 ≥ D.times
  · rw [if_pos h, if_pos h]; rfl
  rw [if_neg h, if_neg h]
  dsimp only
  rw [exec_need]; congr 1; funext u
  rw [exec_need]; congr 1; funext v
  rw [exec_need]; congr 1; funext w
  rw [exec_need]; congr 1; funext loc
  rw [storeProg_exec]; rfl

/-- Iterations that stay in their own visibility give the result of the loops under every interleaving. -/
theorem iter_yields (D : Dims) (prog : Nat × Nat × Nat → Prog ℂ) (body : Arr ℂ → Nat × Nat × Nat → Option (Arr ℂ))
    (he : ∀ x a, (prog x).exec a = body a x) (hw : ∀ x, (prog x).Within (cellsOf D x.1 x.2.1 x.2.2)) (a r : Arr ℂ)
    (hr : loop body a (nest3 D.times D.channels D.baselines) = some r) :
    Yields prog (nest3 D.times D.channels D.baselines) a r := by
  refine yields_seq prog (fun x => cellsOf D x.1 x.2.1 x.2.2) _ (nest3_nodup _ _ _) (fun x _ => hw x) ?_ a r ?_
  · rintro ⟨t, c, b⟩ hx ⟨t', c', b'⟩ hx' hne i ⟨p, hp, e⟩ ⟨p', hp', e'⟩
    obtain ⟨-, h2, h3⟩ := mem_nest3.1 hx
    obtain ⟨-, h2', h3'⟩ := mem_nest3.1 hx'
    rw [e] at e'
    obtain ⟨rfl, rfl, rfl, -⟩ := index4_inj h3 h2 hp h3' h2' hp' e'
    exact hne rfl
  · rw [← hr]
    exact loop_congr _ _ _ _ fun x _ s => he x s

/-- The same for the threads of a launch. -/
theorem kern_yields (D : Dims) (prog : Nat × Nat × Nat → Prog ℂ) (body : Arr ℂ → Nat × Nat × Nat → Option (Arr ℂ))
    (he : ∀ x a, (prog x).exec a = body a x)
    (hw : ∀ x : Nat × Nat × Nat, (x.1 < D.baselines ∧ x.2.1 < D.channels) → (prog x).Within (cellsOf D x.2.2 x.2.1 x.1))
    (h0 : ∀ x : Nat × Nat × Nat, ¬ (x.1 < D.baselines ∧ x.2.1 < D.channels) → prog x = .done) (a r : Arr ℂ)
    (hr : loop body a (threads D) = some r) : Yields prog (threads D) a r := by
  refine yields_seq prog (fun x i => (x.1 < D.baselines ∧ x.2.1 < D.channels) ∧ cellsOf D x.2.2 x.2.1 x.1 i) _
    (nest3_nodup _ _ _) ?_ ?_ a r ?_
  · intro x _
    by_cases hx : x.1 < D.baselines ∧ x.2.1 < D.channels
    · exact (hw x hx).wider fun i hi => ⟨hx, hi⟩
    · rw [h0 x hx]; trivial
  · rintro ⟨b, c, t⟩ - ⟨b', c', t'⟩ - hne i ⟨hx, p, hp, e⟩ ⟨hx', p', hp', e'⟩
    rw [e] at e'
    obtain ⟨rfl, rfl, rfl, -⟩ := index4_inj hx.1 hx.2 hp hx'.1 hx'.2 hp' e'
    exact hne rfl
  · rw [← hr]
    exact loop_congr _ _ _ _ fun x _ s => he x s

theorem iterV00_within (D : Dims) (dirs : Arr ℝ) (flux : Arr ℂ) (uvw : Arr ℝ) (x : Nat × Nat × Nat) :
    (iterV00 D dirs flux uvw x).Within (cellsOf D x.1 x.2.1 x.2.2) := by
  unfold iterV00
  dsimp only
  apply within_need; intro u _
  apply within_need; intro v _
  apply within_need; intro w _
  apply within_need; intro loc _
  exact storeProg_within D loc _ _ _ _ fun p hp => List.mem_range.1 hp

theorem iterV01_within (D : Dims) (dirs : Arr ℝ) (flux : Arr ℂ) (uvw : Arr ℝ) (f0 df : ℝ) (x : Nat × Nat × Nat) :
    (iterV01 D dirs flux uvw f0 df x).Within (cellsOf D x.1 x.2.1 x.2.2) := by
  unfold iterV01
  dsimp only
  apply within_need; intro u _
  apply within_need; intro v _
  apply within_need; intro w _
  apply within_need; intro loc _
  exact storeProg_within D loc _ _ _ _ fun p hp => List.mem_range.1 hp

theorem kernV00_within (D : Dims) (dirs : Arr ℝ) (flux : Arr ℂ) (uvw : Arr ℝ) (x : Nat × Nat × Nat) :
    (kernV00 D dirs flux uvw x).Within (cellsOf D x.2.2 x.2.1 x.1) := by
  unfold kernV00
  by_cases h : D.pols > 4 ∨ x.1 ≥ D.baselines ∨ x.2.1 ≥ D.channels ∨ x.2.2 ≥ D.times
  · rw [if_pos h]; trivial
  rw [if_neg h]
  dsimp only
  apply within_need; intro u _
  apply within_need; intro v _
  apply within_need; intro w _
  apply within_need; intro loc _
  exact storeProg_within D loc _ _ _ _ fun p hp => List.mem_range.1 hp

theorem kernV01_within (D : Dims) (dirs : Arr ℝ) (flux : Arr ℂ) (uvw : Arr ℝ) (f0 df : ℝ) (x : Nat × Nat × Nat) :
    (kernV01 D dirs flux uvw f0 df x).Within (cellsOf D x.2.2 x.2.1 x.1) := by
  unfold kernV01
  by_cases h : D.pols > 4 ∨ x.1 ≥ D.baselines ∨ x.2.1 ≥ D.channels ∨ x.2.2 ≥ D.times
  · rw [if_pos h]; trivial
  rw [if_neg h]
  dsimp only
  apply within_need; intro u _
  apply within_need; intro v _
  apply within_need; intro w _
  apply within_need; intro loc _
  exact storeProg_within D loc _ _ _ _ fun p hp => List.mem_range.1 hp

/-! ## Calls -/

/-- The call is the one of the ordered model, in the order of the loops and of the thread numbers, if that does not
fault. -/
theorem dispatch_iff (d f u v : Mem) (cuda : Bool) (a : Arr ℂ) (iter kern : Nat × Nat × Nat → Prog ℂ)
    (cpu gpu : Option (Arr ℂ)) (hl : v.location ≠ .other) (ht : threads (dimsOf d v) ≠ []) (s : Status) (r : Arr ℂ)
    (hc : ∀ x, cpu = some x →
      Yields iter (nest3 (dimsOf d v).times (dimsOf d v).channels (dimsOf d v).baselines) a x)
    (hg : ∀ x, gpu = some x → Yields kern (threads (dimsOf d v)) a x) (R : Run) (hR : R.cuda = cuda)
    (h : dispatch d f u v R a cpu gpu = some (s, r)) (o : Option (Status × Arr ℂ)) :
    Dispatch d f u v cuda a iter kern o ↔ o = some (s, r) := by
  unfold dispatch at h
  unfold Dispatch
  cases hv : v.location with
  | other => exact absurd hv hl
  | cpu =>
    rw [hv] at h
    dsimp only at h ⊢
    by_cases t : typesOk d f u v = true
    · rw [if_pos t] at h ⊢
      rw [Option.map_eq_some_iff] at h
      obtain ⟨x, x1, x2⟩ := h
      rw [← x2]
      have := hc x x1
      constructor
      · rintro ⟨l, l1, l2⟩; rw [l2, l1.eq this]; rfl
      · rintro rfl
        exact ⟨some x, (Launch.iff (nest3_nodup _ _ _) this _).2 rfl, rfl⟩
    · rw [if_neg t] at h ⊢
      rw [h]
  | gpu =>
    rw [hv] at h
    dsimp only at h ⊢
    by_cases t : typesOk d f u v = true
    · rw [if_pos t] at h ⊢
      rw [hR] at h
      by_cases hcu : cuda = true
      · rw [if_pos hcu, Option.map_eq_some_iff] at h
        rw [if_neg (by push Not; exact ⟨by simp [hcu], ht⟩)]
        obtain ⟨x, x1, x2⟩ := h
        rw [← x2]
        have := hg x x1
        constructor
        · rintro ⟨l, l1, l2⟩; rw [l2, l1.eq this]; rfl
        · rintro rfl
          exact ⟨some x, (Launch.iff (nest3_nodup _ _ _) this _).2 rfl, rfl⟩
      · rw [if_neg hcu] at h
        rw [if_pos (.inl (by simpa using hcu)), h]
    · rw [if_neg t] at h ⊢
      rw [h]

theorem threads_ne (D : Dims) (h : 0 < D.times ∧ 0 < D.baselines ∧ 0 < D.channels) : threads D ≠ [] := by
  apply List.ne_nil_of_mem (a := ((0, 0, 0) : Nat × Nat × Nat))
  unfold threads
  exact mem_nest3.2 ⟨by have := le_blocks D.baselines 128 (by decide); simp only; omega,
    by have := le_blocks D.channels 2 (by decide); simp only; omega,
    by have := le_blocks D.times 2 (by decide); simp only; omega⟩

/-- The order of the loops and of the thread numbers. -/
def inOrder (D : Dims) (cuda : Bool) : Run := ⟨nest3 D.times D.channels D.baselines, threads D, cuda⟩

theorem inOrder_ok (D : Dims) (cuda : Bool) : (inOrder D cuda).Ok D := ⟨List.Perm.refl _, List.Perm.refl _⟩

/-- **C77, `sdp_dft_point_v00`, every interleaving.**  For every set of arguments with at least one visibility, wherever the
arrays are and however the stores of loop iterations or GPU threads interleave, the call has one outcome: it does not
access memory outside the arrays; it succeeds exactly for the documented arguments (and, on the GPU, if kernels can be
launched); then every visibility is the one predicted, and otherwise none is changed. -/
theorem C77_v00_interleaved (d f u v : Mem) (dA uA : Arr ℝ) (fA vA : Arr ℂ) (hd : Holds d dA) (hf : Holds f fA)
    (hu : Holds u uA) (hv : Holds v vA) (hloc : v.location ≠ .other)
    (hsome : 0 < v.shapeDim 0 ∧ 0 < v.shapeDim 1 ∧ 0 < v.shapeDim 2) (st : Status) (cuda : Bool) :
    ∃ s a, (∀ o, CallsV00 d f u v st cuda dA fA uA vA o ↔ o = some (s, a)) ∧
      (s = .success ↔ st = .success ∧ (v.location = .cpu ∨ cuda = true) ∧
        ∃ n nt nb nc np, ArgsV00 d f u v n nt nb nc np) ∧
      (s ≠ .success → a = vA) ∧
      (s = .success → a.size = vA.size ∧
        Predicted (dimsOf d v) dA fA (fun _ => 1) (uvwV00 (dimsOf d v) uA) a) := by
  obtain ⟨s, a, h1, h2, h3, h4⟩ := C77_v00 d f u v dA uA fA vA hd hf hu hv hloc st (inOrder (dimsOf d v) cuda)
    (inOrder_ok _ _)
  refine ⟨s, a, ?_, h2, h3, h4⟩
  intro o
  unfold CallsV00
  unfold callV00 at h1
  simp only at h1
  by_cases hs : checkV00 d f u v st ≠ .success
  · rw [if_pos hs] at h1 ⊢
    rw [h1]
  · rw [if_neg hs] at h1 ⊢
    refine dispatch_iff d f u v cuda vA _ _ _ _ hloc (threads_ne _ ?_) s a ?_ ?_ _ rfl h1 o
    · unfold dimsOf; simp only; omega
    · exact fun x hx => iter_yields _ _ _ (iterV00_exec _ _ _ _) (iterV00_within _ _ _ _) _ _ hx
    · refine fun x hx => kern_yields _ _ _ (kernV00_exec _ _ _ _) (fun x _ => kernV00_within _ _ _ _ x) ?_ _ _ hx
      intro x hx
      unfold kernV00
      rw [if_pos (by omega)]

/-- **C77, `sdp_dft_point_v01`, every interleaving.**  The same for coordinates in metres and equally spaced channels,
when the directions have two dimensions (which is not checked, see `C77_dims_false`). -/
theorem C77_v01_interleaved_partial (d f u v : Mem) (dA uA : Arr ℝ) (fA vA : Arr ℂ) (hd : Holds d dA) (hf : Holds f fA)
    (hu : Holds u uA) (hv : Holds v vA) (h2 : d.numDims = 2) (hloc : v.location ≠ .other)
    (hsome : 0 < v.shapeDim 0 ∧ 0 < v.shapeDim 1 ∧ 0 < v.shapeDim 2) (f0 df : ℝ) (st : Status) (cuda : Bool) :
    ∃ s a, (∀ o, CallsV01 d f u v f0 df st cuda dA fA uA vA o ↔ o = some (s, a)) ∧
      (s = .success ↔ st = .success ∧ (v.location = .cpu ∨ cuda = true) ∧
        ∃ n nt nb nc np, ArgsV01 d f u v n nt nb nc np) ∧
      (s ≠ .success → a = vA) ∧
      (s = .success → a.size = vA.size ∧
        Predicted (dimsOf d v) dA fA (fun c => (f0 + c * df) / 299792458)
          (fun t b _ => uvwV01 (dimsOf d v) uA t b) a) := by
  obtain ⟨s, a, h1, h2, h3, h4⟩ := C77_v01_partial d f u v dA uA fA vA hd hf hu hv h2 hloc f0 df st
    (inOrder (dimsOf d v) cuda) (inOrder_ok _ _)
  refine ⟨s, a, ?_, h2, h3, h4⟩
  intro o
  unfold CallsV01
  unfold callV01 at h1
  simp only at h1
  by_cases hs : checkV01 d f u v st ≠ .success
  · rw [if_pos hs] at h1 ⊢
    rw [h1]
  · rw [if_neg hs] at h1 ⊢
    refine dispatch_iff d f u v cuda vA _ _ _ _ hloc (threads_ne _ ?_) s a ?_ ?_ _ rfl h1 o
    · unfold dimsOf; simp only; omega
    · exact fun x hx => iter_yields _ _ _ (iterV01_exec _ _ _ _ _ _) (iterV01_within _ _ _ _ _ _) _ _ hx
    · refine fun x hx => kern_yields _ _ _ (kernV01_exec _ _ _ _ _ _) (fun x _ => kernV01_within _ _ _ _ _ _ x) ?_ _ _ hx
      intro x hx
      unfold kernV01
      rw [if_pos (by omega)]

/-- The arguments of the example of C77 have visibilities. -/
example : let v := wrap .complexFloat [1, 2, 3, 4]
    0 < v.shapeDim 0 ∧ 0 < v.shapeDim 1 ∧ 0 < v.shapeDim 2 ∧ v.location ≠ .other := by decide

end
end Sdp.Dft
