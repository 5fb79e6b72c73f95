import Verif.PhaseRotate.CallProps
import Verif.Common.Interleave

/-!
# C78 — phase rotation calls with every interleaving of the GPU threads

Loads from the output array (calls in place) and stores of different threads interleave.  The loops on the CPU are
sequential (sdp_phase_rotate.cpp:27-36, 55-84).
-/

namespace Sdp.PhaseRotate
open Sdp.Race
noncomputable section

/-- Load of a value of the input, which is the output for calls in place (sdp_phase_rotate.cu:30, 81). -/
def load {α : Type} (src : Option (Arr α)) (i : Int) (k : α → Prog α) : Prog α :=
  match src with
  | some a => .need (a.read i) k
  | none => .read i k

/-- One thread of `rotate_uvw`, sdp_phase_rotate.cu:12-36. -/
def uvwKern (num : Nat) (m : Nat → ℝ) (src : Option (Arr ℝ)) (i : Nat) : Prog ℝ :=
  if i ≥ num then .done
  else
    let i3 : Int := 3 * i
    load src i3 fun x =>
    load src (i3 + 1) fun y =>
    load src (i3 + 2) fun z =>
    .write i3 (m 0 * x + m 1 * y + m 2 * z) <|
    .write (i3 + 1) (m 3 * x + m 4 * y + m 5 * z) <|
    .write (i3 + 2) (m 6 * x + m 7 * y + m 8 * z) .done

/-- The loop over polarisations of `rotate_vis`, sdp_phase_rotate.cu:75-84; `ph` is the phase. -/
def polProg (D : Dims) (ph : ℝ) (src : Option (Arr ℂ)) (x : Nat × Nat × Nat) : List Nat → Prog ℂ
  | [] => .done
  | p :: ps =>
    let j := index4 D.baselines D.channels D.pols x.2.2 x.1 x.2.1 p
    load src j fun y =>
    .write j (⟨Real.cos ph * y.re - Real.sin ph * y.im, Real.cos ph * y.im + Real.sin ph * y.re⟩ : ℂ)
      (polProg D ph src x ps)

/-- One thread of `rotate_vis`, sdp_phase_rotate.cu:42-84; `x` is (baseline, channel, time). -/
def visKern (D : Dims) (f0 df : ℝ) (d : ℝ × ℝ × ℝ) (uvw : Arr ℝ) (src : Option (Arr ℂ)) (x : Nat × Nat × Nat) : Prog ℂ :=
  if D.pols > 4 ∨ x.1 ≥ D.baselines ∨ x.2.1 ≥ D.channels ∨ x.2.2 ≥ D.times then .done
  else
    let i : Int := 3 * ((D.baselines : Int) * x.2.2 + x.1)
    .need (uvw.read i) fun u =>
    .need (uvw.read (i + 1)) fun v =>
    .need (uvw.read (i + 2)) fun w =>
      polProg D (2 * Real.pi * ((f0 + x.2.1 * df) / 299792458) * (u * d.1 + v * d.2.1 + w * d.2.2)) src x
        (List.range D.pols)

/-- What follows the checks (sdp_phase_rotate.cpp:138-201, 277-366).  A launch without threads is refused. -/
def Dispatch {α ι : Type} [DecidableEq ι] (loc : MemLocation) (types cuda : Bool) (a : Arr α) (cpu : Option (Arr α))
    (kern : ι → Prog α) (ts : List ι) (o : Option (Status × Arr α)) : Prop :=
  match loc with
  | .cpu => o = if types then cpu.map fun v => (.success, v) else some (.dataType, a)
  | .gpu =>
    if types then
      if cuda = false ∨ ts = [] then o = some (.runtime, a)
      else ∃ l, Launch kern ts a l ∧ o = l.map fun v => (.success, v)
    else o = some (.dataType, a)
  | .other => o = some (.success, a)

/-- `sdp_phase_rotate_uvw`, sdp_phase_rotate.cpp:88-202: a call on the output `out` can end with `o`. -/
def CallsUvw (orig new : Coord) (ui uo : Mem) (status : Status) (cuda : Bool) (src : Option (Arr ℝ)) (out : Arr ℝ)
    (o : Option (Status × Arr ℝ)) : Prop :=
  let c := checkUvwCall ui uo status
  if c.1 ≠ .success then o = some (c.1, out)
  else
    let num := (c.2.1 * c.2.2).toNat
    Dispatch ui.location (uvwTypes ui uo) cuda out (rotateUvw num (mat orig new) src out)
      (uvwKern num (mat orig new) src) (uvwThreads num) o

/-- `sdp_phase_rotate_vis`, sdp_phase_rotate.cpp:205-367. -/
def CallsVis (orig new : Coord) (f0 df : ℝ) (uvw vi vo : Mem) (status : Status) (cuda : Bool) (u : Arr ℝ)
    (src : Option (Arr ℂ)) (out : Arr ℂ) (o : Option (Status × Arr ℂ)) : Prop :=
  let c := checkVisCall uvw vi vo status
  if c.1 ≠ .success then o = some (c.1, out)
  else
    let D : Dims := ⟨c.2.1.toNat, c.2.2.1.toNat, c.2.2.2.1.toNat, c.2.2.2.2.toNat⟩
    Dispatch uvw.location (visTypes uvw vi vo) cuda out (rotateVis D f0 df (delta orig new) u src out)
      (visKern D f0 df (delta orig new) u src) (visThreads D) o

/-! ## Programs against loops -/

theorem load_exec {α : Type} (src : Option (Arr α)) (i : Int) (k : α → Prog α) (a : Arr α) :
    (load src i k).exec a = (readSrc src a i).bind fun v => (k v).exec a := by
  cases src with
  | none => rfl
  | some s => exact exec_need _ _ _

theorem load_within {α : Type} (S : Int → Prop) (src : Option (Arr α)) (i : Int) (hi : S i) (k : α → Prog α)
    (hk : ∀ v, (k v).Within S) : (load src i k).Within S := by
  cases src with
  | none => exact ⟨hi, hk⟩
  | some s => exact within_need _ _ fun v _ => hk v

theorem uvwKern_exec (num : Nat) (m : Nat → ℝ) (src : Option (Arr ℝ)) (i : Nat) (a : Arr ℝ) :
    (uvwKern num m src i).exec a = uvwThread num m src a i := by
  unfold uvwKern uvwThread
  by_cases h : i ≥ num
  · rw [if_pos h, if_pos h]; rfl
  rw [if_neg h, if_neg h]
  dsimp only
  rw [load_exec]; congr 1; funext x
  rw [load_exec]; congr 1; funext y
  rw [load_exec]; congr 1; funext z
  simp only [Prog.exec]
  congr 1; funext a; congr 1; funext a
  simp

theorem uvwKern_within (num : Nat) (m : Nat → ℝ) (src : Option (Arr ℝ)) (i : Nat) :
    (uvwKern num m src i).Within fun j : Int => 3 * (i : Int) ≤ j ∧ j < 3 * i + 3 := by
  unfold uvwKern
  by_cases h : i ≥ num
  · rw [if_pos h]; trivial
  rw [if_neg h]
  dsimp only
  refine load_within _ _ _ (by omega) _ fun x => load_within _ _ _ (by omega) _ fun y =>
    load_within _ _ _ (by omega) _ fun z => ⟨by omega, by omega, by omega, trivial⟩

theorem polProg_exec (D : Dims) (ph : ℝ) (src : Option (Arr ℂ)) (x : Nat × Nat × Nat) (l : List Nat) (a : Arr ℂ) :
    (polProg D ph src x l).exec a = loop (fun out (p : Nat) =>
        let j := index4 D.baselines D.channels D.pols x.2.2 x.1 x.2.1 p
        (readSrc src out j).bind fun y =>
          out.write j (⟨Real.cos ph * y.re - Real.sin ph * y.im,
            Real.cos ph * y.im + Real.sin ph * y.re⟩ : ℂ)) a l := by
  induction l generalizing a with
  | nil => rfl
  | cons p l ih =>
    unfold polProg
    dsimp only
    rw [load_exec]
    simp only [loop]
    cases readSrc src a (index4 D.baselines D.channels D.pols x.2.2 x.1 x.2.1 p) with
    | none => rfl
    | some y =>
      simp only [Option.bind_some, Prog.exec]
      congr 1; funext a'
      exact ih a'

/-- Positions of the polarisations of the visibility of a thread. -/
def cellsOf (D : Dims) (x : Nat × Nat × Nat) (i : Int) : Prop :=
  ∃ p < D.pols, i = index4 D.baselines D.channels D.pols x.2.2 x.1 x.2.1 p

theorem polProg_within (D : Dims) (ph : ℝ) (src : Option (Arr ℂ)) (x : Nat × Nat × Nat) (l : List Nat)
    (hl : ∀ p ∈ l, p < D.pols) : (polProg D ph src x l).Within (cellsOf D x) := by
  induction l with
  | nil => trivial
  | cons p l ih =>
    unfold polProg
    refine load_within _ _ _ ⟨p, hl p (by simp), rfl⟩ _ fun y => ⟨⟨p, hl p (by simp), rfl⟩, ?_⟩
    exact ih fun q hq => hl q (by simp [hq])

theorem visKern_exec (D : Dims) (f0 df : ℝ) (d : ℝ × ℝ × ℝ) (uvw : Arr ℝ) (src : Option (Arr ℂ)) (x : Nat × Nat × Nat)
    (a : Arr ℂ) : (visKern D f0 df d uvw src x).exec a = visThread D f0 df d uvw src a x := by
  unfold visKern visThread
  by_cases h : D.pols > 4 ∨ x.1 ≥ D.baselines ∨ x.2.1 ≥ D.channels ∨ x.2.2 ≥ D.times
  · rw [if_pos h, if_pos h]; rfl
  rw [if_neg h, if_neg h]
  dsimp only
  rw [exec_need]; congr 1; funext u
  rw [exec_need]; congr 1; funext v
  rw [exec_need]; congr 1; funext w
  rw [polProg_exec]

theorem visKern_within (D : Dims) (f0 df : ℝ) (d : ℝ × ℝ × ℝ) (uvw : Arr ℝ) (src : Option (Arr ℂ))
    (x : Nat × Nat × Nat) :
    (visKern D f0 df d uvw src x).Within fun i => (x.1 < D.baselines ∧ x.2.1 < D.channels) ∧ cellsOf D x i := by
  unfold visKern
  by_cases h : D.pols > 4 ∨ x.1 ≥ D.baselines ∨ x.2.1 ≥ D.channels ∨ x.2.2 ≥ D.times
  · rw [if_pos h]; trivial
  rw [if_neg h]
  dsimp only
  apply within_need; intro u _
  apply within_need; intro v _
  apply within_need; intro w _
  exact (polProg_within D _ src x _ fun p hp => List.mem_range.1 hp).wider fun i hi => ⟨by omega, hi⟩

theorem uvwKern_yields (num : Nat) (m : Nat → ℝ) (src : Option (Arr ℝ)) (a r : Arr ℝ)
    (hr : loop (uvwThread num m src) a (uvwThreads num) = some r) : Yields (uvwKern num m src) (uvwThreads num) a r := by
  refine yields_seq _ (fun (i : Nat) (j : Int) => 3 * (i : Int) ≤ j ∧ j < 3 * i + 3) _ List.nodup_range
    (fun i _ => uvwKern_within _ _ _ i) ?_ a r ?_
  · intro i _ i' _ hne j h h'
    omega
  · rw [← hr]
    exact loop_congr _ _ _ _ fun x _ s => uvwKern_exec _ _ _ x s

theorem visKern_yields (D : Dims) (f0 df : ℝ) (d : ℝ × ℝ × ℝ) (uvw : Arr ℝ) (src : Option (Arr ℂ)) (a r : Arr ℂ)
    (hr : loop (visThread D f0 df d uvw src) a (visThreads D) = some r) :
    Yields (visKern D f0 df d uvw src) (visThreads D) a r := by
  refine yields_seq _ (fun (x : Nat × Nat × Nat) i => (x.1 < D.baselines ∧ x.2.1 < D.channels) ∧ cellsOf D x i) _
    (nest3_nodup _ _ _) (fun x _ => visKern_within _ _ _ _ _ _ x) ?_ a r ?_
  · rintro ⟨b, c, t⟩ - ⟨b', c', t'⟩ - hne i ⟨hx, p, hp, e⟩ ⟨hx', p', hp', e'⟩
    rw [e] at e'
    obtain ⟨rfl, rfl, rfl, -⟩ := index4_inj hx.1 hx.2 hp hx'.1 hx'.2 hp' e'
    exact hne rfl
  · rw [← hr]
    exact loop_congr _ _ _ _ fun x _ s => visKern_exec _ _ _ _ _ _ x s

/-! ## Calls -/

theorem dispatch_iff {α ι : Type} [DecidableEq ι] (loc : MemLocation) (types cuda : Bool) (a : Arr α)
    (cpu gpu : Option (Arr α)) (kern : ι → Prog α) (ts : List ι) (hn : ts.Nodup) (ht : ts ≠ [])
    (hg : ∀ r, gpu = some r → Yields kern ts a r) (s : Status) (r : Arr α)
    (h : dispatch loc types cuda a cpu gpu = some (s, r)) (o : Option (Status × Arr α)) :
    Dispatch loc types cuda a cpu kern ts o ↔ o = some (s, r) := by
  unfold dispatch at h
  unfold Dispatch
  cases loc with
  | other => dsimp only at h ⊢; rw [h]
  | cpu => dsimp only at h ⊢; rw [h]
  | gpu =>
    dsimp only at h ⊢
    by_cases t : types = true
    · rw [if_pos t] at h ⊢
      by_cases hcu : cuda = true
      · rw [if_pos hcu, Option.map_eq_some_iff] at h
        rw [if_neg (by push Not; exact ⟨by simp [hcu], ht⟩)]
        obtain ⟨x, x1, x2⟩ := h
        rw [← x2]
        have := hg x x1
        constructor
        · rintro ⟨l, l1, l2⟩; rw [l2, l1.eq this]; rfl
        · rintro rfl
          exact ⟨some x, (Launch.iff hn this _).2 rfl, rfl⟩
      · rw [if_neg hcu] at h
        rw [if_pos (.inl (by simpa using hcu)), h]
    · rw [if_neg t] at h ⊢
      rw [h]

/-- **C78, `sdp_phase_rotate_uvw`, every interleaving.**  For every set of arguments with at least one triple, in place
or not, on either device and however the loads and stores of the GPU threads interleave, the call has one outcome: it
accesses nothing outside the arrays; it succeeds exactly for the documented arguments; then every triple of the output
is the input triple rotated about v and then about u, and otherwise the output is unchanged.  Missing: as
`C78_uvw_partial` (memory order). -/
theorem C78_uvw_interleaved_partial (orig new : Coord) (ui uo : Mem) (src : Option (Arr ℝ)) (out : Arr ℝ)
    (hi : Holds ui (src.getD out)) (ho : Holds uo out) (hloc : ui.location ≠ .other)
    (hsome : 0 < ui.shapeDim 0 ∧ 0 < ui.shapeDim 1) (st : Status) (cuda : Bool) :
    ∃ s a, (∀ o, CallsUvw orig new ui uo st cuda src out o ↔ o = some (s, a)) ∧
      (s = .success ↔ st = .success ∧ (ui.location = .cpu ∨ cuda = true) ∧ ∃ nt nb, ArgsUvw ui uo nt nb) ∧
      (s ≠ .success → a = out) ∧
      (s = .success → a.size = out.size ∧ ∀ nt nb : Nat, HasShape ui [nt, nb, 3] → ∀ k < nt * nb, ∀ i,
        triple a k i = rotU (new.dec - orig.dec) (rotV (orig.ra - new.ra) (triple (src.getD out) k)) i) := by
  obtain ⟨s, a, h1, h2, h3, h4⟩ := C78_uvw_partial orig new ui uo src out hi ho hloc st cuda _ (List.Perm.refl _)
  refine ⟨s, a, ?_, h2, h3, h4⟩
  intro o
  unfold CallsUvw
  unfold callUvw at h1
  dsimp only at h1 ⊢
  by_cases hs : (checkUvwCall ui uo st).1 ≠ .success
  · rw [if_pos hs] at h1 ⊢
    rw [h1]
  rw [if_neg hs] at h1 ⊢
  by_cases ht : uvwTypes ui uo = true
  · have hc : checkUvwCall ui uo st = (.success, (checkUvwCall ui uo st).2.1, (checkUvwCall ui uo st).2.2) := by
      rw [← not_ne_iff.1 hs]
    obtain ⟨-, ha⟩ := (checkUvw_iff ui uo st _ _).1 ⟨hc, ht⟩
    have l3 := ha.inShape.1
    simp only [List.length_cons, List.length_nil] at l3
    have s0 := shapeDim_lt ui 0 (by omega)
    have s1 := shapeDim_lt ui 1 (by omega)
    rw [ha.inShape.2 0 (by simp)] at s0
    rw [ha.inShape.2 1 (by simp)] at s1
    replace s0 : ui.shapeDim 0 = (checkUvwCall ui uo st).2.1 := s0
    replace s1 : ui.shapeDim 1 = (checkUvwCall ui uo st).2.2 := s1
    rw [s0, s1] at h1 hsome
    refine dispatch_iff _ _ _ _ _ _ _ _ List.nodup_range ?_ (fun r => uvwKern_yields _ _ _ _ r) s a h1 o
    generalize hN : ((checkUvwCall ui uo st).2.1 * (checkUvwCall ui uo st).2.2).toNat = N
    have hp : 0 < N := by
      have := mul_pos hsome.1 hsome.2
      omega
    intro e
    have := le_blocks N 256 (by decide)
    replace e : List.range (blocks N 256 * 256) = [] := e
    rw [List.range_eq_nil] at e
    omega
  · unfold dispatch at h1
    unfold Dispatch
    cases hl : ui.location with
    | other => exact absurd hl hloc
    | cpu => rw [hl] at h1; dsimp only at h1 ⊢; rw [h1]
    | gpu =>
      rw [hl] at h1; dsimp only at h1 ⊢
      rw [if_neg ht] at h1 ⊢
      rw [h1]

/-- **C78, `sdp_phase_rotate_vis`, every interleaving.**  The same for visibilities.  Missing: as `C78_vis_partial`. -/
theorem C78_vis_interleaved_partial (orig new : Coord) (f0 df : ℝ) (uvw vi vo : Mem) (u : Arr ℝ)
    (src : Option (Arr ℂ)) (out : Arr ℂ) (hu : Holds uvw u) (hi : Holds vi (src.getD out)) (ho : Holds vo out)
    (hloc : uvw.location ≠ .other) (hsome : 0 < vo.shapeDim 0 ∧ 0 < vo.shapeDim 1 ∧ 0 < vo.shapeDim 2) (st : Status)
    (cuda : Bool) :
    ∃ s a, (∀ o, CallsVis orig new f0 df uvw vi vo st cuda u src out o ↔ o = some (s, a)) ∧
      (s = .success ↔ st = .success ∧ (uvw.location = .cpu ∨ cuda = true) ∧
        ∃ nt nb nc np, ArgsVis uvw vi vo nt nb nc np) ∧
      (s ≠ .success → a = out) ∧
      (s = .success → a.size = out.size ∧ ∀ t b c p, Sample (dimsOf vo) t b c p →
        a.get (visPos (dimsOf vo) t b c p) = (src.getD out).get (visPos (dimsOf vo) t b c p) *
          Complex.exp (2 * Real.pi * ((f0 + c * df) / 299792458) *
            dot (uvwOf (dimsOf vo) u t b)
              ![dot (direction orig) (east orig) - dot (direction new) (east orig),
                dot (direction orig) (north orig) - dot (direction new) (north orig),
                dot (direction orig) (direction orig) - dot (direction new) (direction orig)]
            * Complex.I)) := by
  obtain ⟨s, a, h1, h2, h3, h4⟩ := C78_vis_partial orig new f0 df uvw vi vo u src out hu hi ho hloc st cuda _
    (List.Perm.refl _)
  refine ⟨s, a, ?_, h2, h3, h4⟩
  intro o
  unfold CallsVis
  unfold callVis at h1
  dsimp only at h1 ⊢
  generalize hcc : checkVisCall uvw vi vo st = cc at h1 ⊢
  obtain ⟨s', nt, nb, nc, np⟩ := cc
  dsimp only at h1 ⊢
  by_cases hs : s' ≠ .success
  · rw [if_pos hs] at h1 ⊢
    rw [h1]
  rw [if_neg hs] at h1 ⊢
  by_cases ht : visTypes uvw vi vo = true
  · rw [not_ne_iff.1 hs] at hcc
    obtain ⟨-, ha⟩ := (checkVis_iff uvw vi vo st nt nb nc np).1 ⟨hcc, ht⟩
    have l4 := ha.outShape.1
    simp only [List.length_cons, List.length_nil] at l4
    have s0 := shapeDim_lt vo 0 (by omega)
    have s1 := shapeDim_lt vo 1 (by omega)
    have s2 := shapeDim_lt vo 2 (by omega)
    have s3 := shapeDim_lt vo 3 (by omega)
    rw [ha.outShape.2 0 (by simp)] at s0
    rw [ha.outShape.2 1 (by simp)] at s1
    rw [ha.outShape.2 2 (by simp)] at s2
    rw [ha.outShape.2 3 (by simp)] at s3
    replace s0 : vo.shapeDim 0 = nt := s0
    replace s1 : vo.shapeDim 1 = nb := s1
    replace s2 : vo.shapeDim 2 = nc := s2
    replace s3 : vo.shapeDim 3 = np := s3
    have hD : dimsOf vo = ⟨nt.toNat, nb.toNat, nc.toNat, np.toNat⟩ := by
      unfold dimsOf; rw [s0, s1, s2, s3]
    rw [← hD] at h1 ⊢
    refine dispatch_iff _ _ _ _ _ _ _ _ (nest3_nodup _ _ _) ?_ (fun r => visKern_yields _ _ _ _ _ _ _ r) s a h1 o
    apply List.ne_nil_of_mem (a := ((0, 0, 0) : Nat × Nat × Nat))
    rw [hD]
    exact mem_nest3.2 ⟨by have := le_blocks nb.toNat 128 (by decide); simp only; omega,
      by have := le_blocks nc.toNat 2 (by decide); simp only; omega,
      by have := le_blocks nt.toNat 2 (by decide); simp only; omega⟩
  · unfold dispatch at h1
    unfold Dispatch
    cases hl : uvw.location with
    | other => exact absurd hl hloc
    | cpu => rw [hl] at h1; dsimp only at h1 ⊢; rw [h1]
    | gpu =>
      rw [hl] at h1; dsimp only at h1 ⊢
      rw [if_neg ht] at h1 ⊢
      rw [h1]

/-- Two samples that share a baseline can be rotated in place. -/
example : let m := (createWrapper (some ⟨0, 0⟩) .double .gpu [2, 1, 3] none .success).1
    ArgsUvw m m 2 1 ∧ 0 < m.shapeDim 0 ∧ 0 < m.shapeDim 1 ∧ m.location ≠ .other := by
  refine ⟨⟨⟨by decide, by decide⟩, ⟨by decide, by decide⟩, by decide, by decide, by decide, by decide, by decide⟩, by decide⟩

end
end Sdp.PhaseRotate
