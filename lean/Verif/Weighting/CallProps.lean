import Mathlib.Tactic.IntervalCases
import Verif.Weighting.Call

/-!
# C79 — whole weighting calls, on CPU and GPU
-/

set_option linter.unusedSectionVars false

namespace Sdp.Weighting

section
variable {F : Type} [Field F] [LinearOrder F] [FloorRing F]

/-! ## GPU kernels -/

theorem ops_perm (D : Dims) {o : List (Nat × Nat × Nat × Nat)} (h : o.Perm (ops D)) :
    ((o.filter fun x : Nat × Nat × Nat × Nat =>
      decide (x.1 < D.baselines ∧ x.2.1 < D.channels ∧ x.2.2.1 < D.times)).map
        fun x => (x.2.2.1, x.1, x.2.1, x.2.2.2)).Perm (samples D) := by
  have hb := le_blocks D.baselines 128 (by decide)
  have hc := le_blocks D.channels 2 (by decide)
  have ht := le_blocks D.times 2 (by decide)
  have hnd : (o.filter fun x : Nat × Nat × Nat × Nat =>
      decide (x.1 < D.baselines ∧ x.2.1 < D.channels ∧ x.2.2.1 < D.times)).Nodup :=
    ((h.nodup_iff.2 (nest4_nodup _ _ _ _))).filter _
  rw [List.perm_ext_iff_of_nodup]
  · rintro ⟨t, b, c, p⟩
    unfold samples
    rw [List.mem_map, mem_nest4]
    constructor
    · rintro ⟨y, hy, e⟩
      rw [List.mem_filter, decide_eq_true_iff, h.mem_iff, ops, mem_nest4] at hy
      simp only [Prod.mk.injEq] at e
      obtain ⟨rfl, rfl, rfl, rfl⟩ := e
      exact ⟨hy.2.2.2, hy.2.1, hy.2.2.1, hy.1.2.2.2⟩
    · rintro ⟨h1, h2, h3, h4⟩
      refine ⟨(b, c, t, p), ?_, rfl⟩
      rw [List.mem_filter, decide_eq_true_iff, h.mem_iff, ops, mem_nest4]
      simp only at h1 h2 h3 h4 ⊢
      exact ⟨⟨by omega, by omega, by omega, h4⟩, h2, h3, h1⟩
  · refine hnd.map ?_
    rintro ⟨a, b, c, d⟩ ⟨a', b', c', d'⟩ h
    simp only [Prod.mk.injEq] at h ⊢
    omega
  · exact nest4_nodup _ _ _ _

/-- A launch runs the body once for every sample, in some order. -/
theorem launch_eq {σ : Type} (D : Dims) (body : σ → Nat × Nat × Nat × Nat → Option σ) (s : σ)
    {o : List (Nat × Nat × Nat × Nat)} (h : o.Perm (ops D)) :
    ∃ L : List Sample, L.Perm (samples D) ∧ loop (gpuOp D body) s o = loop body s L := by
  refine ⟨_, ops_perm D h, ?_⟩
  rw [loop_map, ← loop_filter]
  refine loop_congr _ _ _ _ fun x _ s => ?_
  unfold gpuOp
  by_cases hx : x.1 < D.baselines ∧ x.2.1 < D.channels ∧ x.2.2.1 < D.times
  · rw [if_neg (by omega), if_pos (by simpa using hx)]
  · rw [if_pos (by omega), if_neg (by simpa using hx)]

theorem gpuWrite_eq (D : Dims) (maxUv : F) (uvw freq win : Arr F) :
    gpuWrite D maxUv uvw freq win = gpuOp D (writeBody D maxUv uvw freq win) := by
  unfold gpuWrite
  congr 1
  funext g x
  simp only [writeBody, tested, visIdx, gridIdx, decide_eq_true_iff]

theorem gpuSum_eq (D : Dims) (maxUv : F) (uvw freq grid : Arr F) :
    gpuSum D maxUv uvw freq grid = gpuOp D (sumBody D maxUv uvw freq grid) := by
  unfold gpuSum
  congr 1
  funext g x
  simp only [sumBody, tested, gridIdx, decide_eq_true_iff]

theorem gpuBriggs_eq (D : Dims) (maxUv rob : F) (uvw freq grid win : Arr F) :
    gpuBriggs D maxUv rob uvw freq grid win = gpuOp D (briggsBody D maxUv rob uvw freq grid win) := by
  unfold gpuBriggs
  congr 1
  funext g x
  simp only [briggsBody, tested, visIdx, gridIdx, decide_eq_true_iff]

theorem gpuUniform_eq (D : Dims) (maxUv : F) (uvw freq grid : Arr F) :
    gpuUniform D maxUv uvw freq grid = gpuOp D (uniformBody D maxUv uvw freq grid) := by
  unfold gpuUniform
  congr 1
  funext g x
  simp only [uniformBody, tested, visIdx, gridIdx, decide_eq_true_iff]

/-! ## Checks -/

/-- What the entry points check. -/
structure Accepted (uM fM gM wM oM : Mem) : Prop where
  input : wM.numDims = 4 ∧ (wM.data = none ∨ ¬ ComplexType wM.type)
  output : oM.numDims = 4 ∧ ¬ ComplexType oM.type ∧ oM.data ≠ none ∧ oM.isReadOnly = false
  coords : HasShape uM [oM.shapeDim 0, oM.shapeDim 1, 3] ∧ uM.data ≠ none ∧ RealType uM.type ∧
    uM.isCContiguous = true
  location : uM.location = oM.location ∧ fM.location = oM.location ∧ gM.location = oM.location
  grid : gM.numDims = 3 ∧ gM.shapeDim 1 = gM.shapeDim 0 ∧ gM.data ≠ none ∧ gM.isReadOnly = false

theorem weightsMeta_iff (w : Mem) (st : Status) :
    (getWeightsMetadata {} w st).2 = .success ↔
      st = .success ∧ w.numDims = 4 ∧ (w.data = none ∨ ¬ ComplexType w.type) := by
  unfold getWeightsMetadata
  have hq := queryComplex_iff w
  by_cases h1 : st = .success
  swap
  · rw [if_pos h1]
    exact ⟨fun h => absurd h h1, fun h => absurd h.1 h1⟩
  rw [if_neg (by simpa using h1)]
  by_cases h2 : (w.numDims : Int) = 4
  swap
  · rw [if_pos h2]
    exact ⟨fun h => by simp at h, fun h => absurd (by exact_mod_cast h.2.1) h2⟩
  rw [if_neg (by simpa using h2)]
  by_cases h3 : w.queryComplex = true
  · rw [if_pos h3]
    refine ⟨fun h => by simp at h, fun h => ?_⟩
    obtain ⟨a, b⟩ := hq.1 h3
    rcases h.2.2 with c | c
    · exact absurd c a
    · exact absurd b c
  · rw [if_neg h3]
    refine ⟨fun h => ⟨h, by exact_mod_cast h2, ?_⟩, fun h => h.1⟩
    by_cases hd : w.data = none
    · exact Or.inl hd
    · exact Or.inr fun hc => h3 (hq.2 ⟨hd, hc⟩)

theorem weightsMeta_val (w : Mem) (st : Status) (h : (getWeightsMetadata {} w st).2 = .success) :
    (getWeightsMetadata {} w st).1.location.getD w.location = w.location ∧
    (getWeightsMetadata {} w st).1.numTimes.getD 0 = w.shapeDim 0 ∧
    (getWeightsMetadata {} w st).1.numBaselines.getD 0 = w.shapeDim 1 := by
  obtain ⟨h1, h2, h3⟩ := (weightsMeta_iff w st).1 h
  have hq : ¬ w.queryComplex = true := by
    rw [queryComplex_iff]
    rintro ⟨a, b⟩
    rcases h3 with c | c
    · exact a c
    · exact c b
  unfold getWeightsMetadata
  rw [if_neg (by simpa using h1), if_neg (by simp [h2]), if_neg hq]
  exact ⟨rfl, rfl, rfl⟩

theorem checkCall_iff (uM fM gM wM oM : Mem) (st : Status) :
    checkCall uM fM gM wM oM st = .success ↔ st = .success ∧ Accepted uM fM gM wM oM := by
  unfold checkCall
  by_cases hst : st = .success
  swap
  · rw [if_pos hst]; simp [hst]
  rw [if_neg (by simpa using hst)]
  simp only
  rw [checkDimSize_iff, checkNumDims_iff, checkWriteable_iff, checkWriteable_iff, checkLocation_iff,
    checkLocation_iff, C09_check_uvw]
  set s := (getWeightsMetadata {} wM st).2 with hs
  have hv := weightsMeta_val oM s
  constructor
  · rintro ⟨⟨⟨⟨⟨⟨⟨h0, hd, hr, hsh, hl, -, hc⟩, hf⟩, hg⟩, hw⟩, hgw⟩, hgn⟩, hgs⟩
    obtain ⟨v1, v2, v3⟩ := hv h0
    rw [v1] at hl hf hg
    rw [v2, v3] at hsh
    obtain ⟨h1, h2, h3⟩ := (weightsMeta_iff oM s).1 h0
    rw [hs, weightsMeta_iff] at h1
    refine ⟨h1.1, h1.2, ⟨h2, ?_, hw.1, hw.2⟩, ⟨hsh, hd, hr, hc⟩, ⟨hl, hf, hg⟩,
      ⟨by exact_mod_cast hgn, hgs, hgw.1, hgw.2⟩⟩
    rcases h3 with h3 | h3
    · exact absurd h3 hw.1
    · exact h3
  · rintro ⟨-, h⟩
    have h0 : (getWeightsMetadata {} oM s).2 = .success := by
      rw [weightsMeta_iff, hs, weightsMeta_iff]
      exact ⟨⟨hst, h.input⟩, h.output.1, Or.inr h.output.2.1⟩
    obtain ⟨v1, v2, v3⟩ := hv h0
    rw [v1, v2, v3]
    exact ⟨⟨⟨⟨⟨⟨⟨h0, h.coords.2.1, h.coords.2.2.1, h.coords.1, h.location.1, Or.inl rfl, h.coords.2.2.2⟩,
      h.location.2.1⟩, h.location.2.2⟩, h.output.2.2.1, h.output.2.2.2⟩, h.grid.2.2.1, h.grid.2.2.2⟩,
      by exact_mod_cast h.grid.1⟩, h.grid.2.1⟩

/-- The documented arguments, for `nt` times, `nb` baselines, `nc` channels, `np` polarisations and a grid
of side `ng`. -/
structure Args (uM fM gM wM oM : Mem) (nt nb nc np ng : Int) : Prop where
  coords : HasShape uM [nt, nb, 3]
  freqs : HasShape fM [nc]
  gridShape : HasShape gM [ng, ng, np]
  inShape : HasShape wM [nt, nb, nc, np]
  outShape : HasShape oM [nt, nb, nc, np]
  types : uM.type = .double ∧ fM.type = .double ∧ wM.type = oM.type ∧
    (oM.type = .double ∧ gM.type = .double ∨ oM.type = .float ∧ gM.type = .float)
  data : uM.data ≠ none ∧ fM.data ≠ none ∧ gM.data ≠ none ∧ wM.data ≠ none ∧ oM.data ≠ none
  location : uM.location = oM.location ∧ fM.location = oM.location ∧ gM.location = oM.location ∧
    wM.location = oM.location
  contiguous : uM.isCContiguous = true
  writeable : gM.isReadOnly = false ∧ oM.isReadOnly = false

theorem Args.dims {uM fM gM wM oM : Mem} {nt nb nc np ng : Int} (h : Args uM fM gM wM oM nt nb nc np ng) :
    oM.shapeDim 0 = nt ∧ oM.shapeDim 1 = nb ∧ oM.shapeDim 2 = nc ∧ oM.shapeDim 3 = np ∧
      gM.shapeDim 0 = ng ∧ gM.shapeDim 1 = ng := by
  have l4 := h.outShape.1
  have l3 := h.gridShape.1
  simp only [List.length_cons, List.length_nil] at l4 l3
  have s0 := shapeDim_lt oM 0 (by omega)
  have s1 := shapeDim_lt oM 1 (by omega)
  have s2 := shapeDim_lt oM 2 (by omega)
  have s3 := shapeDim_lt oM 3 (by omega)
  have g0 := shapeDim_lt gM 0 (by omega)
  have g1 := shapeDim_lt gM 1 (by omega)
  rw [h.outShape.2 0 (by simp)] at s0
  rw [h.outShape.2 1 (by simp)] at s1
  rw [h.outShape.2 2 (by simp)] at s2
  rw [h.outShape.2 3 (by simp)] at s3
  rw [h.gridShape.2 0 (by simp)] at g0
  rw [h.gridShape.2 1 (by simp)] at g1
  exact ⟨s0, s1, s2, s3, g0, g1⟩

theorem Args.accepted {uM fM gM wM oM : Mem} {nt nb nc np ng : Int}
    (h : Args uM fM gM wM oM nt nb nc np ng) : Accepted uM fM gM wM oM ∧ typesOk uM fM gM oM = true := by
  obtain ⟨d0, d1, d2, d3, g0, g1⟩ := h.dims
  have l4 := h.inShape.1
  have o4 := h.outShape.1
  have g3 := h.gridShape.1
  simp only [List.length_cons, List.length_nil] at l4 o4 g3
  obtain ⟨t1, t2, t3, t4⟩ := h.types
  have ho : ¬ ComplexType oM.type := by
    rcases t4 with t | t <;> simp [ComplexType, t.1]
  refine ⟨⟨⟨l4, Or.inr (t3 ▸ ho)⟩, ⟨o4, ho, h.data.2.2.2.2, h.writeable.2⟩,
    ⟨by rw [d0, d1]; exact h.coords, h.data.1, by simp [RealType, t1], h.contiguous⟩,
    ⟨h.location.1, h.location.2.1, h.location.2.2.1⟩, ⟨g3, by rw [g0, g1], h.data.2.2.1, h.writeable.1⟩⟩, ?_⟩
  unfold typesOk
  rw [decide_eq_true_iff]
  exact ⟨t1, t2, t4⟩

theorem Args.sizes {uM fM gM wM oM : Mem} {nt nb nc np ng : Int} (h : Args uM fM gM wM oM nt nb nc np ng)
    {uvw freq grid win out : Arr F} (hu : Holds uM uvw) (hf : Holds fM freq) (hg : Holds gM grid)
    (hw : Holds wM win) (ho : Holds oM out) : Sizes (dimsOf oM gM) uvw freq win grid out := by
  obtain ⟨d0, d1, d2, d3, g0, g1⟩ := h.dims
  obtain ⟨n1, z1⟩ := hu.of_shape h.coords
  obtain ⟨n2, z2⟩ := hf.of_shape h.freqs
  obtain ⟨n3, z3⟩ := hg.of_shape h.gridShape
  obtain ⟨n4, z4⟩ := hw.of_shape h.inShape
  obtain ⟨n5, z5⟩ := ho.of_shape h.outShape
  simp only [List.prod_cons, List.prod_nil, mul_one] at z1 z2 z3 z4 z5
  have p0 := n5 nt (by simp)
  have p1 := n5 nb (by simp)
  have p2 := n5 nc (by simp)
  have p3 := n5 np (by simp)
  have p4 := n3 ng (by simp)
  unfold dimsOf
  rw [d0, d1, d2, d3, g0]
  lift nt to ℕ using p0
  lift nb to ℕ using p1
  lift nc to ℕ using p2
  lift np to ℕ using p3
  lift ng to ℕ using p4
  simp only [Int.toNat_natCast]
  constructor
  · zify; rw [z1]; ring
  · zify; rw [z2]
  · zify; rw [z4]; ring
  · zify; rw [z3]; ring
  · zify; rw [z5]; ring

/-! ## Calls -/

/-- **C79, uniform weighting.**  For documented arguments with no visibility below the grid, on the CPU, or
on the GPU in any order of its atomic operations: the call succeeds, the grid gains the total input weight
of every cell, every sample inside the grid gets one over the value of its cell, and the other samples keep
their output value.  Missing: negative cells (`C16_negative_false`); arguments that are accepted although
not as documented (`C79_unchecked_false`). -/
theorem C79_uniform_partial (maxUv : F) (uM fM gM wM oM : Mem) {nt nb nc np ng : Int}
    (h : Args uM fM gM wM oM nt nb nc np ng) (r : Run F) (uvw freq grid win out : Arr F)
    (hu : Holds uM uvw) (hf : Holds fM freq) (hg : Holds gM grid) (hw : Holds wM win) (ho : Holds oM out)
    (hloc : oM.location = .cpu ∨ oM.location = .gpu ∧ r.cuda = true)
    (h1 : r.first.Perm (ops (dimsOf oM gM))) (h2 : r.second.Perm (ops (dimsOf oM gM)))
    (hN : NonNeg (dimsOf oM gM) maxUv uvw freq) :
    ∃ g o, callUniform maxUv uM fM gM wM oM .success r uvw freq grid win out = some (.success, g, o) ∧
      o.size = out.size ∧
      (∀ k, InGrid (dimsOf oM gM) k → ∀ p < (dimsOf oM gM).pols,
        g.get (cellPos (dimsOf oM gM) k p) = grid.get (cellPos (dimsOf oM gM) k p) +
          cellTotal (dimsOf oM gM) (cellOf (dimsOf oM gM) maxUv uvw freq) k p
            (fun x => win.get (pos (dimsOf oM gM) x))) ∧
      (∀ x ∈ samples (dimsOf oM gM), InGrid (dimsOf oM gM) (cellOf (dimsOf oM gM) maxUv uvw freq x) →
        o.get (pos (dimsOf oM gM) x) = 1 / cellW (dimsOf oM gM) maxUv uvw freq win grid x) ∧
      (∀ x ∈ samples (dimsOf oM gM), ¬ InGrid (dimsOf oM gM) (cellOf (dimsOf oM gM) maxUv uvw freq x) →
        o.get (pos (dimsOf oM gM) x) = out.get (pos (dimsOf oM gM) x)) := by
  have hS := h.sizes hu hf hg hw ho
  obtain ⟨ha, ht⟩ := h.accepted
  have hwl := h.location.2.2.2
  set D := dimsOf oM gM with hD
  unfold callUniform
  simp only
  rw [(checkCall_iff uM fM gM wM oM .success).2 ⟨rfl, ha⟩, if_neg (by simp), ← hD, ht, if_pos rfl]
  rcases hloc with hl | ⟨hl, hcu⟩
  · rw [hl]
    obtain ⟨g, o, e, x1, x2, x3, x4⟩ := C16_uniform_partial D maxUv hS hN
    refine ⟨g, o, ?_, x1, x2, x3, x4⟩
    simp only [e, Option.map_some]
  · rw [hwl, hl, hcu]
    simp only [ne_eq, not_true_eq_false, false_and, if_false, if_true]
    rw [gpuWrite_eq]
    obtain ⟨L1, p1, e1⟩ := launch_eq D (writeBody D maxUv uvw freq win) grid h1
    obtain ⟨g, y1, y2, y3⟩ := gridWrite_perm D maxUv hS hN L1 p1
    rw [e1, y1, Option.bind_some, gpuUniform_eq]
    obtain ⟨L2, p2, e2⟩ := launch_eq D (uniformBody D maxUv uvw freq g) out h2
    have hS' : Sizes D uvw freq win g out := ⟨hS.uvw, hS.freq, hS.win, by rw [y2, hS.grid], hS.out⟩
    obtain ⟨o, w1, w2, w3, w4⟩ := uniformRead_perm D maxUv hS' hN L2 p2
    rw [e2, w1, Option.bind_some]
    refine ⟨g, o, rfl, w2, y3, ?_, w4⟩
    intro x hx hin
    rw [w3 x hx hin, y3 _ hin _ (mem_nest4.1 hx).2.2.2]
    rfl

/-- **C79, Briggs weighting.**  The same, with `w / (1 + R W)` for a sample of weight `w` in a cell of
value `W`.  Missing, besides the cases of `C79_uniform_partial`: on the GPU the sums in `R` are accumulated
onto whatever the newly allocated memory holds, so that the documented `R` needs zeros there
(`C79_fresh_false`). -/
theorem C79_briggs_partial (maxUv tenPow : F) (uM fM gM wM oM : Mem) {nt nb nc np ng : Int}
    (h : Args uM fM gM wM oM nt nb nc np ng) (r : Run F) (uvw freq grid win out : Arr F)
    (hu : Holds uM uvw) (hf : Holds fM freq) (hg : Holds gM grid) (hw : Holds wM win) (ho : Holds oM out)
    (hloc : oM.location = .cpu ∨ oM.location = .gpu ∧ r.cuda = true ∧ r.fresh = (0, 0))
    (h1 : r.first.Perm (ops (dimsOf oM gM))) (h2 : r.second.Perm (ops (dimsOf oM gM)))
    (h3 : r.third.Perm (ops (dimsOf oM gM)))
    (hN : NonNeg (dimsOf oM gM) maxUv uvw freq) :
    ∃ g o, callBriggs maxUv tenPow uM fM gM wM oM .success r uvw freq grid win out =
        some (.success, g, o) ∧ o.size = out.size ∧
      (∀ x ∈ samples (dimsOf oM gM), InGrid (dimsOf oM gM) (cellOf (dimsOf oM gM) maxUv uvw freq x) →
        o.get (pos (dimsOf oM gM) x) = win.get (pos (dimsOf oM gM) x) /
          (1 + briggsR (dimsOf oM gM) maxUv tenPow uvw freq win grid *
            cellW (dimsOf oM gM) maxUv uvw freq win grid x)) ∧
      (∀ x ∈ samples (dimsOf oM gM), ¬ InGrid (dimsOf oM gM) (cellOf (dimsOf oM gM) maxUv uvw freq x) →
        o.get (pos (dimsOf oM gM) x) = out.get (pos (dimsOf oM gM) x)) := by
  have hS := h.sizes hu hf hg hw ho
  obtain ⟨ha, ht⟩ := h.accepted
  have hwl := h.location.2.2.2
  set D := dimsOf oM gM with hD
  obtain ⟨g', o', e, x1, x2, x3⟩ := C17_formula_partial D maxUv tenPow hS hN
  unfold callBriggs
  simp only
  rw [(checkCall_iff uM fM gM wM oM .success).2 ⟨rfl, ha⟩, if_neg (by simp), ← hD, ht]
  rcases hloc with hl | ⟨hl, hcu, hfr⟩
  · rw [hl]
    refine ⟨g', o', ?_, x1, x2, x3⟩
    simp only [e, if_true, Option.map_some]
  · rw [hwl, hl, hcu, hfr]
    simp only [ne_eq, not_true_eq_false, false_and, not_false_eq_true, true_and, if_true]
    rw [gpuWrite_eq]
    obtain ⟨L1, p1, e1⟩ := launch_eq D (writeBody D maxUv uvw freq win) grid h1
    obtain ⟨g, y1, y2, y3⟩ := gridWrite_perm D maxUv hS hN L1 p1
    rw [e1, y1, Option.bind_some, gpuSum_eq]
    obtain ⟨L2, p2, e2⟩ := launch_eq D (sumBody D maxUv uvw freq g) (0, 0) h2
    have hS' : Sizes D uvw freq win g out := ⟨hS.uvw, hS.freq, hS.win, by rw [y2, hS.grid], hS.out⟩
    have hW : ∀ x ∈ samples D, InGrid D (cellOf D maxUv uvw freq x) →
        g.get (cellPos D (cellOf D maxUv uvw freq x) x.2.2.2) = cellW D maxUv uvw freq win grid x := by
      intro x hx hin
      rw [y3 _ hin _ (mem_nest4.1 hx).2.2.2]; rfl
    have htot : ∀ (φ : F → F), gridTotal D (cellOf D maxUv uvw freq)
          (fun x => φ (g.get (cellPos D (cellOf D maxUv uvw freq x) x.2.2.2))) =
        gridTotal D (cellOf D maxUv uvw freq) (fun x => φ (cellW D maxUv uvw freq win grid x)) := by
      intro φ
      unfold gridTotal
      congr 1
      apply List.map_congr_left
      intro x hx
      by_cases hin : InGrid D (cellOf D maxUv uvw freq x)
      · rw [if_pos hin, if_pos hin]; simp only; rw [hW x hx hin]
      · rw [if_neg hin, if_neg hin]
    have t1 := htot id
    have t2 := htot (fun y => y ^ 2)
    simp only [id] at t1
    rw [e2, sumWeights_perm D maxUv hS' hN (0, 0) L2 p2, Option.bind_some, t1, t2, gpuBriggs_eq]
    simp only [zero_add]
    have hR : robustness (gridTotal D (cellOf D maxUv uvw freq)
          (fun x => cellW D maxUv uvw freq win grid x ^ 2))
        (gridTotal D (cellOf D maxUv uvw freq) (fun x => cellW D maxUv uvw freq win grid x)) tenPow =
        briggsR D maxUv tenPow uvw freq win grid := by
      unfold robustness briggsR
      rw [mul_one]
    rw [hR]
    obtain ⟨L3, p3, e3⟩ := launch_eq D
      (briggsBody D maxUv (briggsR D maxUv tenPow uvw freq win grid) uvw freq g win) out h3
    obtain ⟨o, w1, w2, w3, w4⟩ := briggsRead_perm D maxUv (briggsR D maxUv tenPow uvw freq win grid) hS' hN L3 p3
    rw [e3, w1, Option.bind_some]
    refine ⟨g, o, rfl, w2, ?_, w4⟩
    intro x hx hin
    rw [w3 x hx hin, hW x hx hin]

/-- **C79, refusal.**  A call that returns an error leaves the grid and the output as they were, and one that
returns success had all that `Accepted` lists, and supported types unless it was for neither device. -/
theorem C79_refused (maxUv tenPow : F) (uM fM gM wM oM : Mem) (st : Status) (r : Run F)
    (uvw freq grid win out : Arr F) (s : Status) (g o : Arr F)
    (h : callUniform maxUv uM fM gM wM oM st r uvw freq grid win out = some (s, g, o) ∨
      callBriggs maxUv tenPow uM fM gM wM oM st r uvw freq grid win out = some (s, g, o)) :
    (s ≠ .success → g = grid ∧ o = out) ∧
    (s = .success → st = .success ∧ Accepted uM fM gM wM oM ∧
      (oM.location ≠ .other → typesOk uM fM gM oM = true)) := by
  have hiff := checkCall_iff uM fM gM wM oM st
  have key : (s = .success ∧ checkCall uM fM gM wM oM st = .success ∧
      (oM.location ≠ .other → typesOk uM fM gM oM = true)) ∨ (s ≠ .success ∧ g = grid ∧ o = out) := by
    by_cases hc : checkCall uM fM gM wM oM st = .success
    swap
    · unfold callUniform callBriggs at h
      simp only at h
      rw [if_pos hc, if_pos hc, or_self] at h
      simp only [Option.some.injEq, Prod.mk.injEq] at h
      exact Or.inr ⟨h.1 ▸ hc, h.2.1.symm, h.2.2.symm⟩
    unfold callUniform callBriggs at h
    simp only at h
    have hne : ¬ (checkCall uM fM gM wM oM st ≠ .success) := by simpa using hc
    rw [if_neg hne, if_neg hne] at h
    by_cases ht : typesOk uM fM gM oM = true
    swap
    · cases hl : oM.location with
      | other =>
        rw [hl] at h
        simp only [or_self, Option.some.injEq, Prod.mk.injEq] at h
        exact Or.inl ⟨h.1.symm, hc, fun h => absurd rfl h⟩
      | cpu =>
        rw [hl] at h
        simp only [ht, if_false, Bool.false_eq_true, or_self, Option.some.injEq, Prod.mk.injEq] at h
        exact Or.inr ⟨by rw [← h.1]; simp, h.2.1.symm, h.2.2.symm⟩
      | gpu =>
        rw [hl] at h
        simp only [ht, if_false, Bool.false_eq_true, false_and, reduceCtorEq, or_false, Option.some.injEq,
          Prod.mk.injEq] at h
        exact Or.inr ⟨by rw [← h.1]; simp, h.2.1.symm, h.2.2.symm⟩
    · have fin : s = .success → s = .success ∧ checkCall uM fM gM wM oM st = .success ∧
        (oM.location ≠ .other → typesOk uM fM gM oM = true) := fun e => ⟨e, hc, fun _ => ht⟩
      cases hl : oM.location with
      | other =>
        rw [hl] at h
        simp only [or_self, Option.some.injEq, Prod.mk.injEq] at h
        exact Or.inl ⟨h.1.symm, hc, fun _ => ht⟩
      | cpu =>
        rw [hl] at h
        simp only [ht, if_true, Option.map_eq_some_iff, Prod.mk.injEq] at h
        refine Or.inl ⟨?_, hc, fun _ => ht⟩
        rcases h with ⟨x, -, e, -⟩ | ⟨x, -, e, -⟩ <;> exact e.symm
      | gpu =>
        rw [hl] at h
        simp only [ht, if_true, true_and] at h
        rcases h with h | h
        · split_ifs at h with h1 h2
          · simp only [Option.some.injEq, Prod.mk.injEq] at h
            exact Or.inr ⟨by rw [← h.1]; simp, h.2.1.symm, h.2.2.symm⟩
          · obtain ⟨x, -, hx⟩ := Option.bind_eq_some_iff.1 h
            obtain ⟨y, -, hy⟩ := Option.bind_eq_some_iff.1 hx
            simp only [Option.some.injEq, Prod.mk.injEq] at hy
            exact Or.inl ⟨hy.1.symm, hc, fun _ => ht⟩
          · simp only [Option.some.injEq, Prod.mk.injEq] at h
            exact Or.inr ⟨by rw [← h.1]; simp, h.2.1.symm, h.2.2.symm⟩
        · split_ifs at h with h1
          obtain ⟨x, -, hx⟩ := Option.bind_eq_some_iff.1 h
          obtain ⟨y, -, hy⟩ := Option.bind_eq_some_iff.1 hx
          obtain ⟨z, -, hz⟩ := Option.bind_eq_some_iff.1 hy
          simp only [Option.some.injEq, Prod.mk.injEq] at hz
          exact Or.inl ⟨hz.1.symm, hc, fun _ => ht⟩
  rcases key with ⟨h1, h2, h3⟩ | ⟨h1, h2⟩
  · exact ⟨fun h => absurd h1 h, fun _ => ⟨(hiff.1 h2).1, (hiff.1 h2).2, h3⟩⟩
  · exact ⟨fun _ => h2, fun h => absurd h h1⟩

end

/-! ## Violations -/

/-- A wrapper of GPU memory. -/
def wrapGpu (t : MemType) (shape : List Int) : Mem := (createWrapper (some ⟨0, 0⟩) t .gpu shape none .success).1

/-- One time, three baselines, one channel, one polarisation, a 4 x 4 grid. -/
theorem exArgs : Args (wrapGpu .double [1, 3, 3]) (wrapGpu .double [1]) (wrapGpu .double [4, 4, 1])
    (wrapGpu .double [1, 3, 1, 1]) (wrapGpu .double [1, 3, 1, 1]) 1 3 1 1 4 :=
  ⟨⟨by decide, by decide⟩, ⟨by decide, by decide⟩, ⟨by decide, by decide⟩, ⟨by decide, by decide⟩,
    ⟨by decide, by decide⟩, by decide, by decide, by decide, by decide, by decide⟩

example : NonNeg (dimsOf (wrapGpu .double [1, 3, 1, 1]) (wrapGpu .double [4, 4, 1])) 2 exUvw exFreq ∧
    Holds (wrapGpu .double [1, 3, 3]) exUvw ∧ Holds (wrapGpu .double [1]) exFreq ∧
    Holds (wrapGpu .double [4, 4, 1]) exGrid ∧ Holds (wrapGpu .double [1, 3, 1, 1]) exWin :=
  ⟨by unfold NonNeg; decide +kernel, ⟨by decide, by decide, by decide⟩, ⟨by decide, by decide, by decide⟩,
    ⟨by decide, by decide, by decide⟩, ⟨by decide, by decide, by decide⟩⟩

/-- The run of the violations below: operations in their natural order, given contents of fresh memory. -/
def exRun (fresh : ℚ × ℚ) : Run ℚ :=
  ⟨true, ops exD, ops exD, ops exD, fresh⟩

/-- **C79 is false for Briggs weighting on the GPU**: two calls with the same documented arguments and the
same schedule succeed with different output weights, because the sums start from the contents of newly
allocated memory. -/
theorem C79_fresh_false : ∃ (uM fM gM wM oM : Mem) (uvw freq grid win out : Arr ℚ) (r r' : Run ℚ)
    (g o g' o' : Arr ℚ),
    Args uM fM gM wM oM 1 3 1 1 4 ∧ Holds uM uvw ∧ Holds fM freq ∧ Holds gM grid ∧ Holds wM win ∧
    Holds oM out ∧ NonNeg (dimsOf oM gM) 2 uvw freq ∧
    r.first = r'.first ∧ r.second = r'.second ∧ r.third = r'.third ∧
    callBriggs 2 1 uM fM gM wM oM .success r uvw freq grid win out = some (.success, g, o) ∧
    callBriggs 2 1 uM fM gM wM oM .success r' uvw freq grid win out = some (.success, g', o') ∧
    o.get 0 ≠ o'.get 0 := by
  have h : ∀ f ∈ [((0 : ℚ), (0 : ℚ)), (1, 0)], (callBriggs 2 1 (wrapGpu .double [1, 3, 3]) (wrapGpu .double [1])
      (wrapGpu .double [4, 4, 1]) (wrapGpu .double [1, 3, 1, 1]) (wrapGpu .double [1, 3, 1, 1]) .success
      (exRun f) exUvw exFreq exGrid exWin exWin).map (fun r => (r.1, r.2.2.get 0)) =
      some (.success, 1 / (1 + 25 / (27 / (9 + f.1)) * 3)) := by
    decide +kernel
  obtain ⟨⟨s, g, o⟩, hr, ho⟩ := Option.map_eq_some_iff.1 (h (0, 0) (by simp))
  obtain ⟨⟨s', g', o'⟩, hr', ho'⟩ := Option.map_eq_some_iff.1 (h (1, 0) (by simp))
  simp only [Prod.mk.injEq] at ho ho'
  rw [ho.1] at hr
  rw [ho'.1] at hr'
  refine ⟨_, _, _, _, _, exUvw, exFreq, exGrid, exWin, exWin, exRun (0, 0), exRun (1, 0), g, o, g', o', exArgs,
    ⟨by decide, by decide, by decide⟩, ⟨by decide, by decide, by decide⟩, ⟨by decide, by decide, by decide⟩,
    ⟨by decide, by decide, by decide⟩, ⟨by decide, by decide, by decide⟩,
    by unfold NonNeg; decide +kernel, rfl, rfl, rfl, hr, hr', ?_⟩
  rw [ho.2, ho'.2]
  norm_num

/-- **C79 is false for the errors of Briggs weighting on the GPU**: for every call with accepted arguments in
GPU memory, an unsupported combination of types or the absence of a CUDA device is not reported: the host
copies of the sums have no data and are dereferenced. -/
theorem C79_briggs_crash_false (maxUv tenPow : ℚ) (uM fM gM wM oM : Mem) (h : Accepted uM fM gM wM oM)
    (hl : oM.location = .gpu) (r : Run ℚ) (hb : typesOk uM fM gM oM = false ∨ r.cuda = false)
    (uvw freq grid win out : Arr ℚ) :
    callBriggs maxUv tenPow uM fM gM wM oM .success r uvw freq grid win out = none := by
  unfold callBriggs
  simp only
  rw [(checkCall_iff uM fM gM wM oM .success).2 ⟨rfl, h⟩, if_neg (by simp), hl]
  simp only
  rw [if_neg]
  rintro ⟨h1, -, h2⟩
  rcases hb with hb | hb
  · rw [hb] at h1; simp at h1
  · rw [hb] at h2; simp at h2

/-- **C79 is false for input weights of another shape than the output weights**: accepted, and read out of
bounds. -/
theorem C79_unchecked_false : ∃ (uM fM gM wM oM : Mem) (uvw freq grid win out : Arr ℚ),
    Accepted uM fM gM wM oM ∧ typesOk uM fM gM oM = true ∧ Holds uM uvw ∧ Holds fM freq ∧ Holds gM grid ∧
    Holds wM win ∧ Holds oM out ∧ NonNeg (dimsOf oM gM) 2 uvw freq ∧
    wM = wrap .double [1, 1, 1, 1] ∧ oM = wrap .double [1, 3, 1, 1] ∧
    callUniform 2 uM fM gM wM oM .success (exRun (0, 0)) uvw freq grid win out = none :=
  ⟨wrap .double [1, 3, 3], wrap .double [1], wrap .double [4, 4, 1], _, _, exUvw, exFreq, exGrid,
    ⟨1, fun _ => 1⟩, exWin,
    ((checkCall_iff _ _ _ _ _ .success).1 (by decide)).2, by decide,
    ⟨by decide, by decide, by decide⟩, ⟨by decide, by decide, by decide⟩, ⟨by decide, by decide, by decide⟩,
    ⟨by decide, by decide, by decide⟩, ⟨by decide, by decide, by decide⟩,
    by unfold NonNeg; decide +kernel, rfl, rfl, by decide +kernel⟩

end Sdp.Weighting
