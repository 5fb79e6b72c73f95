import Mathlib.Tactic.IntervalCases
import Verif.Dft.Call

/-!
# C77 — a whole DFT call, on CPU and GPU
-/

namespace Sdp.Dft
noncomputable section

/-! ## GPU threads -/

theorem localVisGpu_eq (D : Dims) (h : D.pols = 1 ∨ D.pols = 4) (dirs : Arr ℝ) (flux : Arr ℂ)
    (k u v w : ℝ) (c : Nat) : localVisGpu D dirs flux k u v w c = localVis D dirs flux k u v w c := by
  unfold localVisGpu localVis
  refine loop_congr _ _ _ _ ?_
  intro s _ loc
  congr 1; funext l
  congr 1; funext m
  congr 1; funext n
  simp only
  have hmul : ∀ (x y : ℝ) (f : ℂ), (⟨x * f.re - y * f.im, x * f.im + y * f.re⟩ : ℂ) = (⟨x, y⟩ : ℂ) * f := by
    intro x y f
    apply Complex.ext <;> simp [Complex.mul_re, Complex.mul_im]
  simp only [hmul]
  rcases h with h | h
  · rw [if_pos h, h]
    simp only [List.range_one, loop]
    cases (flux.read (index3 (D.channels : Int) ((1 : Nat) : Int) s c 0 + ((0 : Nat) : Int))) with
    | none => rfl
    | some f =>
      simp only [Option.bind_some]
      cases loc.addAt ((0 : Nat) : Int) _ <;> rfl
  · rw [if_neg (by omega), if_pos h, h]

theorem threadV00_eq (D : Dims) (h : D.pols = 1 ∨ D.pols = 4) (dirs : Arr ℝ) (flux : Arr ℂ) (uvw : Arr ℝ)
    (vis : Arr ℂ) (x : Nat × Nat × Nat) :
    threadV00 D dirs flux uvw vis x =
      if decide (x.1 < D.baselines ∧ x.2.1 < D.channels ∧ x.2.2 < D.times) then
        bodyV00 D dirs flux uvw vis (x.2.2, x.2.1, x.1) else some vis := by
  unfold threadV00
  by_cases hx : x.1 < D.baselines ∧ x.2.1 < D.channels ∧ x.2.2 < D.times
  · rw [if_neg (by omega), if_pos (by simpa using hx)]
    unfold bodyV00
    simp only [localVisGpu_eq D h]
    rw [show (3 * index3 (D.baselines : Int) D.channels x.2.2 x.1 x.2.1) =
      index4 D.baselines D.channels 3 x.2.2 x.1 x.2.1 0 by unfold index3 index4; ring]
  · rw [if_pos (by omega), if_neg (by simpa using hx)]

theorem threadV01_eq (D : Dims) (h : D.pols = 1 ∨ D.pols = 4) (dirs : Arr ℝ) (flux : Arr ℂ) (uvw : Arr ℝ)
    (f0 df : ℝ) (vis : Arr ℂ) (x : Nat × Nat × Nat) :
    threadV01 D dirs flux uvw f0 df vis x =
      if decide (x.1 < D.baselines ∧ x.2.1 < D.channels ∧ x.2.2 < D.times) then
        bodyV01 D dirs flux uvw f0 df vis (x.2.2, x.2.1, x.1) else some vis := by
  unfold threadV01
  by_cases hx : x.1 < D.baselines ∧ x.2.1 < D.channels ∧ x.2.2 < D.times
  · rw [if_neg (by omega), if_pos (by simpa using hx)]
    unfold bodyV01
    simp only [localVisGpu_eq D h]
    rw [show (3 * index2 (D.baselines : Int) x.2.2 x.1) =
      index3 D.baselines 3 x.2.2 x.1 0 by unfold index2 index3; ring]
  · rw [if_pos (by omega), if_neg (by simpa using hx)]

/-- The threads of a launch that do something, as iterations of the CPU loops. -/
theorem threads_perm (D : Dims) (order : List (Nat × Nat × Nat)) (ho : order.Perm (threads D)) :
    ((order.filter fun p : Nat × Nat × Nat =>
      decide (p.1 < D.baselines ∧ p.2.1 < D.channels ∧ p.2.2 < D.times)).map
        fun x => (x.2.2, x.2.1, x.1)).Perm (nest3 D.times D.channels D.baselines) := by
  have h := launch3 (le_blocks D.baselines 128 (by decide)) (le_blocks D.channels 2 (by decide))
    (le_blocks D.times 2 (by decide)) ho
  refine (h.map _).trans ?_
  rw [List.perm_ext_iff_of_nodup]
  · intro x
    rw [List.mem_map, mem_nest3]
    constructor
    · rintro ⟨y, hy, rfl⟩
      rw [mem_nest3] at hy
      exact ⟨hy.2.2, hy.2.1, hy.1⟩
    · rintro ⟨h1, h2, h3⟩
      exact ⟨(x.2.2, x.2.1, x.1), mem_nest3.2 ⟨h3, h2, h1⟩, rfl⟩
  · refine (nest3_nodup _ _ _).map ?_
    rintro ⟨a, b, c⟩ ⟨a', b', c'⟩ h
    simp only [Prod.mk.injEq] at h ⊢
    omega
  · exact nest3_nodup _ _ _

/-- **C77, GPU.**  The launch of `sdp_dft_point_v00` computes the same as the CPU loops, for every order of
its threads: it is a run of the CPU loops in some order. -/
theorem C77_gpu_v00 (D : Dims) (h : D.pols = 1 ∨ D.pols = 4) (dirs : Arr ℝ) (flux : Arr ℂ) (uvw : Arr ℝ)
    (vis : Arr ℂ) (order : List (Nat × Nat × Nat)) (ho : order.Perm (threads D)) :
    ∃ o, o.Perm (nest3 D.times D.channels D.baselines) ∧
      loop (threadV00 D dirs flux uvw) vis order = v00 D dirs flux uvw vis o := by
  refine ⟨_, threads_perm D order ho, ?_⟩
  rw [v00, loop_map, ← loop_filter]
  exact loop_congr _ _ _ _ fun x _ s => threadV00_eq D h dirs flux uvw s x

/-- **C77, GPU.**  The same for `sdp_dft_point_v01`. -/
theorem C77_gpu_v01 (D : Dims) (h : D.pols = 1 ∨ D.pols = 4) (dirs : Arr ℝ) (flux : Arr ℂ) (uvw : Arr ℝ)
    (f0 df : ℝ) (vis : Arr ℂ) (order : List (Nat × Nat × Nat)) (ho : order.Perm (threads D)) :
    ∃ o, o.Perm (nest3 D.times D.channels D.baselines) ∧
      loop (threadV01 D dirs flux uvw f0 df) vis order = v01 D dirs flux uvw f0 df vis o := by
  refine ⟨_, threads_perm D order ho, ?_⟩
  rw [v01, loop_map, ← loop_filter]
  exact loop_congr _ _ _ _ fun x _ s => threadV01_eq D h dirs flux uvw f0 df s x

/-! ## Checks -/

/-- The documented arguments of `sdp_dft_point_v00` for `n` sources, `nt` times, `nb` baselines, `nc`
channels and `np` polarisations. -/
structure ArgsV00 (d f u v : Mem) (n nt nb nc np : Int) : Prop where
  pols : np = 1 ∨ np = 4
  dirs : HasShape d [n, 3]
  flux : HasShape f [n, nc, np]
  uvw : HasShape u [nt, nb, nc, 3]
  vis : HasShape v [nt, nb, nc, np]
  types : d.type = .double ∧ f.type = .complexDouble ∧ u.type = .double ∧
    (v.type = .complexDouble ∨ v.type = .complexFloat)
  contiguous : d.isCContiguous = true ∧ f.isCContiguous = true ∧ u.isCContiguous = true ∧
    v.isCContiguous = true
  data : d.data ≠ none ∧ f.data ≠ none ∧ u.data ≠ none ∧ v.data ≠ none
  writeable : v.isReadOnly = false
  location : d.location = v.location ∧ f.location = v.location ∧ u.location = v.location

/-- The documented arguments of `sdp_dft_point_v01`; the directions have at least two dimensions. -/
structure ArgsV01 (d f u v : Mem) (n nt nb nc np : Int) : Prop where
  pols : np = 1 ∨ np = 4
  dirs : 2 ≤ d.numDims ∧ d.shape.getD 0 0 = n ∧ d.shape.getD 1 0 = 3
  flux : HasShape f [n, nc, np]
  uvw : HasShape u [nt, nb, 3]
  vis : HasShape v [nt, nb, nc, np]
  types : d.type = .double ∧ f.type = .complexDouble ∧ u.type = .double ∧
    (v.type = .complexDouble ∨ v.type = .complexFloat)
  contiguous : d.isCContiguous = true ∧ f.isCContiguous = true ∧ u.isCContiguous = true ∧
    v.isCContiguous = true
  data : d.data ≠ none ∧ f.data ≠ none ∧ u.data ≠ none ∧ v.data ≠ none
  writeable : v.isReadOnly = false
  location : d.location = v.location ∧ f.location = v.location ∧ u.location = v.location

/-- The checks of `v00`. -/
theorem checkV00_iff (d f u v : Mem) (st : Status) :
    checkV00 d f u v st = .success ∧ typesOk d f u v = true ↔
      st = .success ∧ ArgsV00 d f u v (d.shapeDim 0) (v.shapeDim 0) (v.shapeDim 1) (v.shapeDim 2)
        (v.shapeDim 3) := by
  obtain ⟨m1, -⟩ := C09_vis_metadata { type := false } v st
  have hm := meta_ok { type := false } ⟨rfl, rfl, rfl, rfl, rfl⟩ v st
  unfold checkV00
  by_cases h0 : st = .success
  swap
  · rw [if_pos h0]; simp [h0]
  rw [if_neg (by simpa using h0)]
  simp only
  by_cases hr : (getVisMetadata { type := false } v st).2 = .success
  swap
  · -- the query failed
    constructor
    · rintro ⟨h, -⟩
      exfalso
      split_ifs at h with h1 h2
      · simp only [checkShape_iff, checkWriteable_iff, checkContig_iff] at h
        exact hr h.1.1.1.1.1.1.1.1
    · rintro ⟨-, h⟩
      exfalso
      apply hr
      refine m1.2 ⟨h0, h.data.2.2.2, ?_, h.vis.1, fun _ => ?_⟩
      · rcases h.types.2.2.2 with e | e
        · exact Or.inr (Or.inr e)
        · exact Or.inr (Or.inl e)
      · rw [h.vis.2 3 (by simp)]
        exact h.pols
  · obtain ⟨l1, l2, l3, l4, l5⟩ := hm hr
    obtain ⟨-, hvd, -, hv4, hp⟩ := m1.1 hr
    have hp := hp rfl
    rw [l1, l2, l3, l4, l5]
    have s0 := shapeDim_lt v 0 (by omega)
    have s1 := shapeDim_lt v 1 (by omega)
    have s2 := shapeDim_lt v 2 (by omega)
    have s3 := shapeDim_lt v 3 (by omega)
    simp only [Nat.cast_zero, Nat.cast_one, Nat.cast_ofNat] at s0 s1 s2 s3
    constructor
    · rintro ⟨h, ht⟩
      unfold typesOk at ht
      rw [decide_eq_true_iff] at ht
      split_ifs at h with h1 h2
      · simp only [checkShape_iff, checkWriteable_iff, checkContig_iff] at h
        push Not at h1
        obtain ⟨⟨⟨⟨⟨⟨⟨⟨-, a1⟩, a2⟩, a3⟩, a4⟩, a5⟩, a6⟩, a7⟩, a8⟩ := h
        refine ⟨h0, ⟨by rw [s3]; exact hp, a6, a7, a8, ⟨hv4, ?_⟩, ht, ⟨a1.2, a2.2, a3.2, a4.2⟩,
          ⟨a1.1, a2.1, a3.1, a4.1⟩, a5.2, ⟨h1.2.1, h1.1, h1.2.2⟩⟩⟩
        intro k hk
        simp only [List.length_cons, List.length_nil] at hk
        interval_cases k <;> simp [s0, s1, s2, s3]
    · rintro ⟨-, h⟩
      have hc : f.queryComplex = true :=
        (queryComplex_iff f).2 ⟨h.data.2.1, Or.inr (Or.inr h.types.2.1)⟩
      refine ⟨?_, ?_⟩
      · rw [if_neg (by rw [h.location.1, h.location.2.1, h.location.2.2]; simp), if_neg (by simp [hc])]
        simp only [checkShape_iff, checkWriteable_iff, checkContig_iff]
        exact ⟨⟨⟨⟨⟨⟨⟨⟨hr, h.data.1, h.contiguous.1⟩, h.data.2.1, h.contiguous.2.1⟩, h.data.2.2.1,
          h.contiguous.2.2.1⟩, h.data.2.2.2, h.contiguous.2.2.2⟩, h.data.2.2.2, h.writeable⟩, h.dirs⟩,
          h.flux⟩, h.uvw⟩
      · unfold typesOk
        rw [decide_eq_true_iff]
        exact h.types

/-- The checks of `v01`. -/
theorem checkV01_iff (d f u v : Mem) (st : Status) :
    checkV01 d f u v st = .success ∧ typesOk d f u v = true ↔
      st = .success ∧ ArgsV01 d f u v (d.shapeDim 0) (v.shapeDim 0) (v.shapeDim 1) (v.shapeDim 2)
        (v.shapeDim 3) := by
  obtain ⟨m1, -⟩ := C09_vis_metadata {} v st
  have hm := meta_ok {} ⟨rfl, rfl, rfl, rfl, rfl⟩ v st
  unfold checkV01
  by_cases h0 : st = .success
  swap
  · rw [if_pos h0]; simp [h0]
  rw [if_neg (by simpa using h0)]
  simp only
  have hdim : d.shapeDim 1 = 3 ↔ 2 ≤ d.numDims ∧ d.shape.getD 1 0 = 3 := by
    unfold Mem.shapeDim
    split_ifs with h
    · constructor
      · intro h; omega
      · intro h'; omega
    · constructor
      · intro h'; exact ⟨by omega, h'⟩
      · intro h'; exact h'.2
  have hdim0 : 2 ≤ d.numDims → d.shapeDim 0 = d.shape.getD 0 0 := by
    intro h
    have := shapeDim_lt d 0 (by omega)
    simpa using this
  by_cases hr : (getVisMetadata {} v st).2 = .success
  swap
  · constructor
    · rintro ⟨h, -⟩
      exfalso
      split_ifs at h with h1 h2
      · exact h1 h
      · simp only [not_not, checkDimSize_iff, checkContig_iff, checkLocation_iff, C09_check_uvw,
          checkWriteable_iff] at h1
        exact hr h1.1.1.1.1.1.1
    · rintro ⟨-, h⟩
      exfalso
      apply hr
      refine m1.2 ⟨h0, h.data.2.2.2, ?_, h.vis.1, fun _ => ?_⟩
      · rcases h.types.2.2.2 with e | e
        · exact Or.inr (Or.inr e)
        · exact Or.inr (Or.inl e)
      · rw [h.vis.2 3 (by simp)]
        exact h.pols
  · obtain ⟨l1, l2, l3, l4, l5⟩ := hm hr
    obtain ⟨-, hvd, -, hv4, hp⟩ := m1.1 hr
    have hp := hp rfl
    rw [l1, l2, l3, l4, l5]
    have s0 := shapeDim_lt v 0 (by omega)
    have s1 := shapeDim_lt v 1 (by omega)
    have s2 := shapeDim_lt v 2 (by omega)
    have s3 := shapeDim_lt v 3 (by omega)
    simp only [Nat.cast_zero, Nat.cast_one, Nat.cast_ofNat] at s0 s1 s2 s3
    constructor
    · rintro ⟨h, ht⟩
      unfold typesOk at ht
      rw [decide_eq_true_iff] at ht
      split_ifs at h with h1 h2
      · exact absurd h h1
      · simp only [checkShape_iff, checkContig_iff, checkLocation_iff] at h
        simp only [not_not, checkDimSize_iff, checkContig_iff, checkLocation_iff, C09_check_uvw,
          checkWriteable_iff] at h1
        obtain ⟨⟨⟨⟨⟨⟨-, a1⟩, a2⟩, a3⟩, a4⟩, a5⟩, a6⟩ := h1
        obtain ⟨⟨⟨-, b1⟩, b2⟩, b3⟩ := h
        obtain ⟨c1, c2⟩ := hdim.1 a6
        refine ⟨h0, ⟨by rw [s3]; exact hp, ⟨c1, (hdim0 c1).symm, c2⟩, b3, a3.2.2.1, ⟨hv4, ?_⟩, ht,
          ⟨a5.2, b2.2, a3.2.2.2.2.2, a2.2⟩, ⟨a5.1, b2.1, a3.1, a2.1⟩, a1.2, ⟨a4, b1, a3.2.2.2.1⟩⟩⟩
        intro k hk
        simp only [List.length_cons, List.length_nil] at hk
        interval_cases k <;> simp [s0, s1, s2, s3]
    · rintro ⟨-, h⟩
      have hc : f.queryComplex = true :=
        (queryComplex_iff f).2 ⟨h.data.2.1, Or.inr (Or.inr h.types.2.1)⟩
      refine ⟨?_, ?_⟩
      · have hfirst : checkDimSize d 1 3 (checkCContiguity d (checkLocation d v.location (checkUvw u .void
            v.location (v.shapeDim 0) (v.shapeDim 1) (checkCContiguity v (checkWriteable v
              (getVisMetadata {} v st).2))))) = .success := by
          simp only [checkDimSize_iff, checkContig_iff, checkLocation_iff, C09_check_uvw,
            checkWriteable_iff]
          exact ⟨⟨⟨⟨⟨⟨hr, h.data.2.2.2, h.writeable⟩, h.data.2.2.2, h.contiguous.2.2.2⟩, h.data.2.2.1,
            Or.inr h.types.2.2.1, h.uvw, h.location.2.2, Or.inl trivial, h.contiguous.2.2.1⟩, h.location.1⟩,
            h.data.1, h.contiguous.1⟩, hdim.2 ⟨h.dirs.1, h.dirs.2.2⟩⟩
        rw [if_neg (by rw [hfirst]; simp), if_neg (by simp [hc])]
        simp only [checkShape_iff, checkContig_iff, checkLocation_iff]
        exact ⟨⟨⟨hfirst, h.location.2.1⟩, h.data.2.1, h.contiguous.2.1⟩, h.flux⟩
      · unfold typesOk
        rw [decide_eq_true_iff]
        exact h.types

/-! ## Calls -/

/-- The visibilities a call must leave: the measurement equation in every sample, `k c` the factor of
channel `c` and `uvw t b c` the coordinates. -/
def Predicted (D : Dims) (d : Arr ℝ) (f : Arr ℂ) (k : Nat → ℝ) (uvw : Nat → Nat → Nat → Fin 3 → ℝ)
    (r : Arr ℂ) : Prop :=
  ∀ t < D.times, ∀ b < D.baselines, ∀ c < D.channels, ∀ p < D.pols,
    r.get (visPos D t b c p) = predict D.comps (dirOf d) (fun s => f.get (fluxPos D s c p)) (k c) (uvw t b c)

/-- The sizes that the checks establish. -/
theorem sizes_v00 {d f u v : Mem} {dA uA : Arr ℝ} {fA vA : Arr ℂ} (hd : Holds d dA) (hf : Holds f fA)
    (hu : Holds u uA) (hv : Holds v vA)
    (h : ArgsV00 d f u v (d.shapeDim 0) (v.shapeDim 0) (v.shapeDim 1) (v.shapeDim 2) (v.shapeDim 3)) :
    Sizes (dimsOf d v) dA fA vA ∧
      uA.size = (dimsOf d v).times * (dimsOf d v).baselines * (dimsOf d v).channels * 3 ∧
      ((dimsOf d v).pols = 1 ∨ (dimsOf d v).pols = 4) := by
  have p := h.pols
  obtain ⟨d1, d2⟩ := hd.of_shape h.dirs
  obtain ⟨f1, f2⟩ := hf.of_shape h.flux
  obtain ⟨u1, u2⟩ := hu.of_shape h.uvw
  obtain ⟨v1, v2⟩ := hv.of_shape h.vis
  simp only [List.prod_cons, List.prod_nil, mul_one] at d2 f2 u2 v2
  unfold dimsOf
  generalize d.shapeDim 0 = n at *
  generalize v.shapeDim 0 = nt at *
  generalize v.shapeDim 1 = nb at *
  generalize v.shapeDim 2 = nc at *
  generalize v.shapeDim 3 = np at *
  simp only [List.mem_cons, List.not_mem_nil, or_false, forall_eq_or_imp, forall_eq] at d1 v1
  lift n to ℕ using d1.1
  lift nt to ℕ using v1.1
  lift nb to ℕ using v1.2.1
  lift nc to ℕ using v1.2.2.1
  lift np to ℕ using v1.2.2.2
  simp only [Int.toNat_natCast]
  refine ⟨⟨by simp only; omega, ?_, ?_, ?_⟩, ?_, by omega⟩
  · zify; rw [d2]
  · zify; rw [f2]; ring
  · zify; rw [v2]; ring
  · zify; rw [u2]; ring

/-- **C77, `sdp_dft_point_v00`.**  For every set of arguments, wherever the arrays are and in whatever
order loop iterations or GPU threads run, the call does not access memory outside the arrays; it
succeeds exactly for the documented arguments (and, for arrays on the GPU, if kernels can be
launched); then every visibility is the one predicted, and otherwise none is changed. -/
theorem C77_v00 (d f u v : Mem) (dA uA : Arr ℝ) (fA vA : Arr ℂ) (hd : Holds d dA) (hf : Holds f fA)
    (hu : Holds u uA) (hv : Holds v vA) (hloc : v.location ≠ .other) (st : Status) (r : Run)
    (hr : r.Ok (dimsOf d v)) :
    ∃ s a, callV00 d f u v st r dA fA uA vA = some (s, a) ∧
      (s = .success ↔ st = .success ∧ (v.location = .cpu ∨ r.cuda = true) ∧
        ∃ n nt nb nc np, ArgsV00 d f u v n nt nb nc np) ∧
      (s ≠ .success → a = vA) ∧
      (s = .success → a.size = vA.size ∧
        Predicted (dimsOf d v) dA fA (fun _ => 1) (uvwV00 (dimsOf d v) uA) a) := by
  have hargs : (∃ n nt nb nc np, ArgsV00 d f u v n nt nb nc np) ↔
      ArgsV00 d f u v (d.shapeDim 0) (v.shapeDim 0) (v.shapeDim 1) (v.shapeDim 2) (v.shapeDim 3) := by
    constructor
    · rintro ⟨n, nt, nb, nc, np, h⟩
      have e : d.shapeDim 0 = n ∧ v.shapeDim 0 = nt ∧ v.shapeDim 1 = nb ∧ v.shapeDim 2 = nc ∧
          v.shapeDim 3 = np := by
        have l4 := h.vis.1
        have l2 := h.dirs.1
        simp only [List.length_cons, List.length_nil] at l4 l2
        have t0 := shapeDim_lt d 0 (by omega)
        have s0 := shapeDim_lt v 0 (by omega)
        have s1 := shapeDim_lt v 1 (by omega)
        have s2 := shapeDim_lt v 2 (by omega)
        have s3 := shapeDim_lt v 3 (by omega)
        rw [h.dirs.2 0 (by simp)] at t0
        rw [h.vis.2 0 (by simp)] at s0
        rw [h.vis.2 1 (by simp)] at s1
        rw [h.vis.2 2 (by simp)] at s2
        rw [h.vis.2 3 (by simp)] at s3
        exact ⟨t0, s0, s1, s2, s3⟩
      rw [e.1, e.2.1, e.2.2.1, e.2.2.2.1, e.2.2.2.2]
      exact h
    · intro h; exact ⟨_, _, _, _, _, h⟩
  have hiff := checkV00_iff d f u v st
  rw [hargs]
  unfold callV00
  simp only
  by_cases hs : checkV00 d f u v st = .success
  swap
  · rw [if_pos hs]
    refine ⟨_, _, rfl, ⟨fun h => absurd h hs, fun h => absurd (hiff.2 ⟨h.1, h.2.2⟩).1 hs⟩, fun _ => rfl,
      fun h => absurd h hs⟩
  rw [if_neg (by simpa using hs)]
  unfold dispatch
  by_cases ht : typesOk d f u v = true
  · obtain ⟨h0, ha⟩ := hiff.1 ⟨hs, ht⟩
    obtain ⟨z1, z2, z3⟩ := sizes_v00 hd hf hu hv ha
    obtain ⟨o, o1, o2⟩ := C77_gpu_v00 (dimsOf d v) z3 dA fA uA vA r.gpu hr.2
    rw [o2, if_pos ht, if_pos ht]
    cases hl : v.location with
    | other => exact absurd hl hloc
    | cpu =>
      obtain ⟨w, w1, w2, w3⟩ := C18_v00 (dimsOf d v) z1 uA z2 r.cpu hr.1
      simp only [w1, Option.map_some]
      exact ⟨_, _, rfl, by simp [h0, ha], fun h => absurd rfl h, fun _ => ⟨w2, w3⟩⟩
    | gpu =>
      obtain ⟨w, w1, w2, w3⟩ := C18_v00 (dimsOf d v) z1 uA z2 o o1
      simp only
      by_cases hc : r.cuda = true
      · rw [if_pos hc, w1]
        exact ⟨_, _, rfl, by simp [h0, ha, hc], fun h => absurd rfl h, fun _ => ⟨w2, w3⟩⟩
      · rw [if_neg hc]
        exact ⟨_, _, rfl, by simp [hc], fun _ => rfl, fun h => by simp at h⟩
  · rw [if_neg ht, if_neg ht]
    have hna : ¬ (st = .success ∧ ArgsV00 d f u v (d.shapeDim 0) (v.shapeDim 0) (v.shapeDim 1)
        (v.shapeDim 2) (v.shapeDim 3)) := fun h => ht (hiff.2 h).2
    cases hl : v.location with
    | other => exact absurd hl hloc
    | cpu => exact ⟨_, _, rfl, ⟨fun h => by simp at h, fun h => absurd ⟨h.1, h.2.2⟩ hna⟩, fun _ => rfl,
        fun h => by simp at h⟩
    | gpu => exact ⟨_, _, rfl, ⟨fun h => by simp at h, fun h => absurd ⟨h.1, h.2.2⟩ hna⟩, fun _ => rfl,
        fun h => by simp at h⟩

/-- The sizes that the checks of `v01` establish, for directions with two dimensions. -/
theorem sizes_v01 {d f u v : Mem} {dA uA : Arr ℝ} {fA vA : Arr ℂ} (hd : Holds d dA) (hf : Holds f fA)
    (hu : Holds u uA) (hv : Holds v vA) (h2 : d.numDims = 2)
    (h : ArgsV01 d f u v (d.shapeDim 0) (v.shapeDim 0) (v.shapeDim 1) (v.shapeDim 2) (v.shapeDim 3)) :
    Sizes (dimsOf d v) dA fA vA ∧
      uA.size = (dimsOf d v).times * (dimsOf d v).baselines * 3 ∧
      ((dimsOf d v).pols = 1 ∨ (dimsOf d v).pols = 4) := by
  have p := h.pols
  have hds : HasShape d [d.shapeDim 0, 3] := by
    refine ⟨h2, fun k hk => ?_⟩
    simp only [List.length_cons, List.length_nil] at hk
    interval_cases k
    · exact h.dirs.2.1
    · exact h.dirs.2.2
  obtain ⟨d1, d2⟩ := hd.of_shape hds
  obtain ⟨f1, f2⟩ := hf.of_shape h.flux
  obtain ⟨u1, u2⟩ := hu.of_shape h.uvw
  obtain ⟨v1, v2⟩ := hv.of_shape h.vis
  clear hds h
  simp only [List.prod_cons, List.prod_nil, mul_one] at d2 f2 u2 v2
  unfold dimsOf
  generalize d.shapeDim 0 = n at *
  generalize v.shapeDim 0 = nt at *
  generalize v.shapeDim 1 = nb at *
  generalize v.shapeDim 2 = nc at *
  generalize v.shapeDim 3 = np at *
  simp only [List.mem_cons, List.not_mem_nil, or_false, forall_eq_or_imp, forall_eq] at d1 v1
  lift n to ℕ using d1.1
  lift nt to ℕ using v1.1
  lift nb to ℕ using v1.2.1
  lift nc to ℕ using v1.2.2.1
  lift np to ℕ using v1.2.2.2
  simp only [Int.toNat_natCast]
  refine ⟨⟨by simp only; omega, ?_, ?_, ?_⟩, ?_, by omega⟩
  · zify; rw [d2]
  · zify; rw [f2]; ring
  · zify; rw [v2]; ring
  · zify; rw [u2]; ring

/-- **C77, `sdp_dft_point_v01`.**  The same for coordinates in metres and equally spaced channels, when
the directions have two dimensions (which is not checked, see `C77_dims_false`). -/
theorem C77_v01_partial (d f u v : Mem) (dA uA : Arr ℝ) (fA vA : Arr ℂ) (hd : Holds d dA) (hf : Holds f fA)
    (hu : Holds u uA) (hv : Holds v vA) (h2 : d.numDims = 2) (hloc : v.location ≠ .other) (f0 df : ℝ)
    (st : Status) (r : Run) (hr : r.Ok (dimsOf d v)) :
    ∃ s a, callV01 d f u v f0 df st r dA fA uA vA = some (s, a) ∧
      (s = .success ↔ st = .success ∧ (v.location = .cpu ∨ r.cuda = true) ∧
        ∃ n nt nb nc np, ArgsV01 d f u v n nt nb nc np) ∧
      (s ≠ .success → a = vA) ∧
      (s = .success → a.size = vA.size ∧
        Predicted (dimsOf d v) dA fA (fun c => (f0 + c * df) / 299792458)
          (fun t b _ => uvwV01 (dimsOf d v) uA t b) a) := by
  have hargs : (∃ n nt nb nc np, ArgsV01 d f u v n nt nb nc np) ↔
      ArgsV01 d f u v (d.shapeDim 0) (v.shapeDim 0) (v.shapeDim 1) (v.shapeDim 2) (v.shapeDim 3) := by
    constructor
    · rintro ⟨n, nt, nb, nc, np, h⟩
      have e : d.shapeDim 0 = n ∧ v.shapeDim 0 = nt ∧ v.shapeDim 1 = nb ∧ v.shapeDim 2 = nc ∧
          v.shapeDim 3 = np := by
        have l4 := h.vis.1
        simp only [List.length_cons, List.length_nil] at l4
        have t0 := shapeDim_lt d 0 (by omega)
        have s0 := shapeDim_lt v 0 (by omega)
        have s1 := shapeDim_lt v 1 (by omega)
        have s2 := shapeDim_lt v 2 (by omega)
        have s3 := shapeDim_lt v 3 (by omega)
        rw [h.dirs.2.1] at t0
        rw [h.vis.2 0 (by simp)] at s0
        rw [h.vis.2 1 (by simp)] at s1
        rw [h.vis.2 2 (by simp)] at s2
        rw [h.vis.2 3 (by simp)] at s3
        exact ⟨t0, s0, s1, s2, s3⟩
      rw [e.1, e.2.1, e.2.2.1, e.2.2.2.1, e.2.2.2.2]
      exact h
    · intro h; exact ⟨_, _, _, _, _, h⟩
  have hiff := checkV01_iff d f u v st
  rw [hargs]
  unfold callV01
  simp only
  by_cases hs : checkV01 d f u v st = .success
  swap
  · rw [if_pos hs]
    refine ⟨_, _, rfl, ⟨fun h => absurd h hs, fun h => absurd (hiff.2 ⟨h.1, h.2.2⟩).1 hs⟩, fun _ => rfl,
      fun h => absurd h hs⟩
  rw [if_neg (by simpa using hs)]
  unfold dispatch
  by_cases ht : typesOk d f u v = true
  · obtain ⟨h0, ha⟩ := hiff.1 ⟨hs, ht⟩
    obtain ⟨z1, z2, z3⟩ := sizes_v01 hd hf hu hv h2 ha
    obtain ⟨o, o1, o2⟩ := C77_gpu_v01 (dimsOf d v) z3 dA fA uA f0 df vA r.gpu hr.2
    rw [o2, if_pos ht, if_pos ht]
    cases hl : v.location with
    | other => exact absurd hl hloc
    | cpu =>
      obtain ⟨w, w1, w2, w3⟩ := C18_v01 (dimsOf d v) z1 uA f0 df z2 r.cpu hr.1
      simp only [w1, Option.map_some]
      exact ⟨_, _, rfl, by simp [h0, ha], fun h => absurd rfl h, fun _ => ⟨w2, w3⟩⟩
    | gpu =>
      obtain ⟨w, w1, w2, w3⟩ := C18_v01 (dimsOf d v) z1 uA f0 df z2 o o1
      simp only
      by_cases hc : r.cuda = true
      · rw [if_pos hc, w1]
        exact ⟨_, _, rfl, by simp [h0, ha, hc], fun h => absurd rfl h, fun _ => ⟨w2, w3⟩⟩
      · rw [if_neg hc]
        exact ⟨_, _, rfl, by simp [hc], fun _ => rfl, fun h => by simp at h⟩
  · rw [if_neg ht, if_neg ht]
    have hna : ¬ (st = .success ∧ ArgsV01 d f u v (d.shapeDim 0) (v.shapeDim 0) (v.shapeDim 1)
        (v.shapeDim 2) (v.shapeDim 3)) := fun h => ht (hiff.2 h).2
    cases hl : v.location with
    | other => exact absurd hl hloc
    | cpu => exact ⟨_, _, rfl, ⟨fun h => by simp at h, fun h => absurd ⟨h.1, h.2.2⟩ hna⟩, fun _ => rfl,
        fun h => by simp at h⟩
    | gpu => exact ⟨_, _, rfl, ⟨fun h => by simp at h, fun h => absurd ⟨h.1, h.2.2⟩ hna⟩, fun _ => rfl,
        fun h => by simp at h⟩

/-- **C77 is false for directions of more dimensions**: a wrapped array of shape (1, 3, 0), which has
no values, passes the checks of `sdp_dft_point_v01` as one direction, which is then read. -/
theorem C77_dims_false (fA vA : Arr ℂ) (uA : Arr ℝ) (f0 df : ℝ) (hf : fA.size = 1) (hv : vA.size = 1)
    (hu : uA.size = 3) :
    ∃ d f u v : Mem, Holds d (⟨0, fun _ => 0⟩ : Arr ℝ) ∧ Holds f fA ∧ Holds u uA ∧ Holds v vA ∧
      ∀ g, callV01 d f u v f0 df .success ⟨[(0, 0, 0)], g, false⟩ ⟨0, fun _ => 0⟩ fA uA vA = none := by
  refine ⟨wrap .double [1, 3, 0], wrap .complexDouble [1, 1, 1], wrap .double [1, 1, 3],
    wrap .complexDouble [1, 1, 1, 1], ⟨by decide, by decide, by decide⟩, ⟨by decide, by decide, ?_⟩,
    ⟨by decide, by decide, ?_⟩, ⟨by decide, by decide, ?_⟩, fun g => ?_⟩
  · rw [hf]; decide
  · rw [hu]; decide
  · rw [hv]; decide
  · unfold callV01
    have hc : checkV01 (wrap .double [1, 3, 0]) (wrap .complexDouble [1, 1, 1]) (wrap .double [1, 1, 3])
        (wrap .complexDouble [1, 1, 1, 1]) .success = .success := by decide
    have ht : typesOk (wrap .double [1, 3, 0]) (wrap .complexDouble [1, 1, 1]) (wrap .double [1, 1, 3])
        (wrap .complexDouble [1, 1, 1, 1]) = true := by decide
    simp only [hc, ne_eq, not_true_eq_false, if_false]
    unfold dispatch
    rw [show (wrap .complexDouble [1, 1, 1, 1]).location = .cpu from rfl]
    simp only [ht, if_true]
    have hD : dimsOf (wrap .double [1, 3, 0]) (wrap .complexDouble [1, 1, 1, 1]) = ⟨1, 1, 1, 1, 1⟩ := by
      decide
    rw [hD]
    have hl : ∀ k u v w, localVis ⟨1, 1, 1, 1, 1⟩ ⟨0, fun _ => 0⟩ fA k u v w 0 = none := by
      intro k u v w
      unfold localVis
      simp only [List.range_one, loop]
      rfl
    unfold v01
    simp only [loop]
    unfold bodyV01
    simp only [hl]
    cases uA.read (index3 ((1 : Nat) : Int) 3 ((0 : Nat) : Int) ((0 : Nat) : Int) 0) <;>
    cases uA.read (index3 ((1 : Nat) : Int) 3 ((0 : Nat) : Int) ((0 : Nat) : Int) 0 + 1) <;>
    cases uA.read (index3 ((1 : Nat) : Int) 3 ((0 : Nat) : Int) ((0 : Nat) : Int) 0 + 2) <;> rfl

/-- Two sources, one time, two baselines, three channels, four polarisations: the arguments are
accepted, and the conditions on the data can be met. -/
example : ArgsV00 (wrap .double [2, 3]) (wrap .complexDouble [2, 3, 4]) (wrap .double [1, 2, 3, 3])
    (wrap .complexFloat [1, 2, 3, 4]) 2 1 2 3 4 ∧ Holds (wrap .double [2, 3]) (⟨6, fun _ => 0⟩ : Arr ℝ) :=
  ⟨⟨by decide, ⟨by decide, by decide⟩, ⟨by decide, by decide⟩, ⟨by decide, by decide⟩,
    ⟨by decide, by decide⟩, by decide, by decide, by decide, by decide, by decide⟩,
    ⟨by decide, by decide, by decide⟩⟩

end
end Sdp.Dft
