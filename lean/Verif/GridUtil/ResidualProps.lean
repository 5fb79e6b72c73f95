import Verif.GridUtil.Residual
import Verif.GridUtil.ScaleProps
import Mathlib.RingTheory.RootsOfUnity.Complex
import Mathlib.Algebra.BigOperators.Fin

/-!
# C83: residuals, RMS differences, and kernels from windows
-/

namespace Sdp.GridUtil
open Sdp.Race

/-! ## Inputs -/

/-- An input of a call: in the memory of the CPU, or in that of a device with its elements among the first
`num_elements` values (as for every contiguous array); `none` is the output array itself. -/
structure Input (cuda : Bool) (m : Mem) (src : Option (Arr ℂ)) (out : Arr ℂ) (n0 n1 : Nat)
    (pos posO : Nat → Nat → Nat) : Prop where
  place : m.location = .cpu ∨ m.location = .gpu ∧ cuda = true ∧ src.isSome ∧
    m.numElements ≤ (src.getD out).size ∧ ∀ i j, i < n0 → j < n1 → (pos i j : Int) < m.numElements
  plane : Plane m (src.getD out).size n0 n1 pos
  same : src = none → ∀ i j, pos i j = posO i j

theorem plane_cpu {m : Mem} {size n0 n1 : Nat} {pos : Nat → Nat → Nat} (h : Plane m size n0 n1 pos)
    {size' : Nat} (hs : ∀ i j, i < n0 → j < n1 → pos i j < size') :
    Plane { m with location := .cpu } size' n0 n1 pos :=
  ⟨h.dims, h.rows, h.cols, h.strides, hs⟩

theorem fetch_ok {cuda : Bool} {m : Mem} {src : Option (Arr ℂ)} {out : Arr ℂ} {n0 n1 : Nat}
    {pos posO : Nat → Nat → Nat} (h : Input cuda m src out n0 n1 pos posO) :
    ∃ src', fetch cuda m src .success = some ({ m with location := .cpu }, src', .success) ∧
      Plane { m with location := .cpu } (src'.getD out).size n0 n1 pos ∧
      (src' = none → ∀ i j, pos i j = posO i j) ∧ (src.isSome → src'.isSome) ∧
      (src'.getD out).get = (src.getD out).get := by
  unfold fetch
  rcases h.place with hl | ⟨hl, hc, hs, hn, hp⟩
  · rw [if_pos hl]
    refine ⟨src, ?_, plane_cpu h.plane h.plane.fits, h.same, id, rfl⟩
    rw [← hl]
  · rw [if_neg (by simp [hl]), if_neg (by simp), if_pos ⟨hl, hc⟩]
    cases src with
    | none => simp at hs
    | some a =>
      simp only [Option.getD_some] at hn ⊢
      rw [if_pos hn]
      refine ⟨some ⟨m.numElements.toNat, a.get⟩, rfl, ?_, by simp, by simp, rfl⟩
      refine plane_cpu h.plane fun i j hi hj => ?_
      have := hp i j hi hj
      simp only [Option.getD_some]
      omega

/-! ## Residuals -/

theorem residualBody_spec {mo ma mb : Mem} {out : Arr ℂ} {a b : Option (Arr ℂ)} {n0 n1 : Nat}
    {pos posA posB : Nat → Nat → Nat} (ho : Plane mo out.size n0 n1 pos)
    (ha : Plane ma (a.getD out).size n0 n1 posA) (hb : Plane mb (b.getD out).size n0 n1 posB)
    (sa : a = none → ∀ i j, posA i j = pos i j) (sb : b = none → ∀ i j, posB i j = pos i j)
    (i j : Nat) (hi : i < n0) (hj : j < n1) :
    (residualBody (mkView mo 2 .success) (mkView ma 2 .success) (mkView mb 2 .success) a b (i, j)).Within
        (fun x : Int => x = (pos i j : Nat)) ∧
      (residualBody (mkView mo 2 .success) (mkView ma 2 .success) (mkView mb 2 .success) a b (i, j)).exec out =
        some (out.put (pos i j) ((a.getD out).get (posA i j) - (b.getD out).get (posB i j))) := by
  unfold residualBody
  rw [plane_addr ho hi hj, plane_addr ha hi hj, plane_addr hb hi hj]
  constructor
  · refine source_within _ _ _ _ (fun hs => by rw [sa hs i j]) fun x => ?_
    exact source_within _ _ _ _ (fun hs => by rw [sb hs i j]) fun y => ⟨rfl, trivial⟩
  · rw [source_exec _ _ _ _ (ha.fits i j hi hj), source_exec _ _ _ _ (hb.fits i j hi hj)]
    simp only [Prog.exec]
    rw [Arr.write_nat, if_pos (ho.fits i j hi hj)]
    rfl

/-- Types for which differences are implemented. -/
def DiffTypes (ta tb : MemType) : Prop :=
  (ta, tb) ∈ [(MemType.complexDouble, MemType.complexDouble), (.complexDouble, .complexFloat),
    (.complexFloat, .complexFloat), (.double, .double), (.double, .float), (.float, .float)]

theorem diffTypes_iff (ta tb : MemType) : diffTypes ta tb = true ↔ DiffTypes ta tb := by
  unfold diffTypes DiffTypes
  rw [decide_eq_true_iff]
  cases ta <;> cases tb <;> decide

theorem residualCheck_iff (ma mb mo : Mem) (st : Status) : residualCheck ma mb mo st = .success ↔
    st = .success ∧ ma.numDims = 2 ∧ mb.numDims = 2 ∧ mo.numDims = 2 ∧ ma.shapeDim 0 = mb.shapeDim 0 ∧
      ma.shapeDim 1 = mb.shapeDim 1 ∧ ma.shapeDim 0 = mo.shapeDim 0 ∧ ma.shapeDim 1 = mo.shapeDim 1 ∧
      ma.type = mo.type ∧ mo.location = .cpu := by
  unfold residualCheck
  by_cases h0 : st ≠ .success
  · rw [if_pos h0]; constructor
    · intro h; exact absurd h h0
    · intro h; exact absurd h.1 h0
  · rw [if_neg h0]
    rw [not_not] at h0
    by_cases h1 : ma.numDims ≠ 2 ∨ mb.numDims ≠ 2 ∨ mo.numDims ≠ 2
    · rw [if_pos h1]; constructor
      · intro h; cases h
      · intro h; omega
    · rw [if_neg h1]
      by_cases h2 : ma.shapeDim 0 ≠ mb.shapeDim 0 ∨ ma.shapeDim 1 ≠ mb.shapeDim 1 ∨
          ma.shapeDim 0 ≠ mo.shapeDim 0 ∨ ma.shapeDim 1 ≠ mo.shapeDim 1
      · rw [if_pos h2]; constructor
        · intro h; cases h
        · intro h; omega
      · rw [if_neg h2]
        by_cases h3 : ma.type ≠ mo.type
        · rw [if_pos h3]; constructor
          · intro h; cases h
          · intro h; exact absurd h.2.2.2.2.2.2.2.2.1 h3
        · rw [if_neg h3]
          by_cases h4 : mo.location ≠ .cpu
          · rw [if_pos h4]; constructor
            · intro h; cases h
            · intro h; exact absurd h.2.2.2.2.2.2.2.2.2 h4
          · rw [if_neg h4]
            simp only [true_iff]
            rw [not_not] at h3 h4
            refine ⟨h0, ?_, ?_, ?_, ?_, ?_, ?_, ?_, h3, h4⟩ <;> omega

/-- **C83, residuals.**  For arrays of one shape, the first input and the output of one type, every schedule
gives `out = a - b`, whether inputs are on the device or are the output itself, and nothing else changes. -/
theorem C83_residual_partial (cuda : Bool) (ma mb mo : Mem) (a b : Option (Arr ℂ)) (out : Arr ℂ) (n0 n1 : Nat)
    (pos posA posB : Nat → Nat → Nat) (ho : Plane mo out.size n0 n1 pos) (hd : Distinct n0 n1 pos)
    (hl : mo.location = .cpu) (hdata : mo.data ≠ none) (hw : mo.isReadOnly = false) (ht : ma.type = mo.type)
    (htt : DiffTypes ma.type mb.type) (ha : Input cuda ma a out n0 n1 posA pos)
    (hb : Input cuda mb b out n0 n1 posB pos) :
    ∃ run, residualCall cuda ma mb mo .success a b = some run ∧ run.status = .success ∧
      ∃ r, Yields run.prog run.threads out r ∧ r.size = out.size ∧
        (∀ i j, i < n0 → j < n1 →
          r.get (pos i j) = (a.getD out).get (posA i j) - (b.getD out).get (posB i j)) ∧
        ∀ x, (∀ i j, i < n0 → j < n1 → pos i j ≠ x) → r.get x = out.get x := by
  have hc : residualCheck ma mb mo .success = .success := by
    rw [residualCheck_iff]
    exact ⟨rfl, ha.plane.dims, hb.plane.dims, ho.dims, by rw [ha.plane.rows, hb.plane.rows],
      by rw [ha.plane.cols, hb.plane.cols], by rw [ha.plane.rows, ho.rows], by rw [ha.plane.cols, ho.cols], ht, hl⟩
  obtain ⟨a', fa1, fa2, fa3, -, fa4⟩ := fetch_ok ha
  obtain ⟨b', fb1, fb2, fb3, -, fb4⟩ := fetch_ok hb
  unfold residualCall
  simp only
  rw [hc, if_neg (by simp), fa1]
  simp only [Option.bind_some]
  rw [fb1]
  simp only [Option.bind_some]
  rw [if_pos ((diffTypes_iff _ _).2 htt), if_neg (by simp), viewConst_ok (t := ma.type) fa2.dims rfl rfl]
  simp only
  rw [viewConst_ok (t := mb.type) fb2.dims rfl rfl]
  simp only
  rw [view_ok (t := mo.type) ho.dims rfl hl hdata hw]
  simp only
  rw [if_neg (by simp)]
  refine ⟨_, rfl, ?_⟩
  have hsame : rows (mkView { ma with location := .cpu } 2 .success) = rows (mkView mo 2 .success) ∧
      cols (mkView { ma with location := .cpu } 2 .success) = cols (mkView mo 2 .success) := by
    rw [(plane_rows fa2).1, (plane_rows fa2).2, (plane_rows ho).1, (plane_rows ho).2]
    exact ⟨rfl, rfl⟩
  rw [hsame.1, hsame.2, ← fa4, ← fb4]
  exact run_yields false false (by simp) mo out ho hd _ _ (residualBody_spec ho fa2 fb2 fa3 fb3) _ (by rfl)

theorem fetch_refused {cuda : Bool} {ma mb mo : Mem} {st : Status} {a b : Option (Arr ℂ)} {run : Run ℂ}
    (h : residualCall cuda ma mb mo st a b = some run) (hf : run.status ≠ .success) (out : Arr ℂ) :
    Yields run.prog run.threads out out := by
  unfold residualCall at h
  simp only at h
  by_cases h0 : residualCheck ma mb mo st ≠ .success
  · rw [if_pos h0] at h
    cases h
    exact run_none _ _
  · rw [if_neg h0] at h
    obtain ⟨fa, -, h⟩ := Option.bind_eq_some_iff.1 h
    obtain ⟨fb, -, h⟩ := Option.bind_eq_some_iff.1 h
    by_cases h1 : diffTypes ma.type mb.type = true
    · rw [if_pos h1] at h
      by_cases h2 : fb.2.2 ≠ .success
      · rw [if_pos h2] at h
        cases h
        exact run_none _ _
      · rw [if_neg h2] at h
        generalize checkAndViewConst fa.1 ma.type 2 .cpu fb.2.2 = va at h
        generalize checkAndViewConst fb.1 mb.type 2 .cpu va.2 = vb at h
        generalize hvo : checkAndView mo mo.type 2 .cpu vb.2 = vo at h
        by_cases h3 : vo.2 ≠ .success
        · rw [if_pos h3] at h
          cases h
          exact run_none _ _
        · rw [if_neg h3] at h
          cases h
          exact absurd rfl hf
    · rw [if_neg h1] at h
      cases h
      exact run_none _ _

/-- **C83, residuals, errors.**  Every call that returns an error has changed nothing; and a call returns
success only for two-dimensional arrays of one shape and a supported combination of types, with the output
writeable and in the memory of the CPU. -/
theorem C83_residual_refused (cuda : Bool) (ma mb mo : Mem) (st : Status) (a b : Option (Arr ℂ)) (out : Arr ℂ)
    (run : Run ℂ) (h : residualCall cuda ma mb mo st a b = some run) :
    (run.status ≠ .success → Yields run.prog run.threads out out) ∧
    (run.status = .success → st = .success ∧ ma.numDims = 2 ∧ mb.numDims = 2 ∧ mo.numDims = 2 ∧
      (ma.shapeDim 0, ma.shapeDim 1) = (mb.shapeDim 0, mb.shapeDim 1) ∧
      (ma.shapeDim 0, ma.shapeDim 1) = (mo.shapeDim 0, mo.shapeDim 1) ∧ DiffTypes ma.type mb.type ∧
      ma.type = mo.type ∧ mo.location = .cpu ∧ mo.data ≠ none ∧ mo.isReadOnly = false) := by
  refine ⟨fun hf => fetch_refused h hf out, fun hs => ?_⟩
  unfold residualCall at h
  simp only at h
  by_cases h0 : residualCheck ma mb mo st ≠ .success
  · rw [if_pos h0] at h
    cases h
    exact absurd hs h0
  · rw [if_neg h0] at h
    rw [not_not] at h0
    obtain ⟨c1, c2, c3, c4, c5, c6, c7, c8, c9, c10⟩ := (residualCheck_iff _ _ _ _).1 h0
    obtain ⟨fa, -, h⟩ := Option.bind_eq_some_iff.1 h
    obtain ⟨fb, -, h⟩ := Option.bind_eq_some_iff.1 h
    by_cases h1 : diffTypes ma.type mb.type = true
    · rw [if_pos h1] at h
      by_cases h2 : fb.2.2 ≠ .success
      · rw [if_pos h2] at h
        cases h
        exact absurd hs h2
      · rw [if_neg h2] at h
        generalize checkAndViewConst fa.1 ma.type 2 .cpu fb.2.2 = va at h
        generalize checkAndViewConst fb.1 mb.type 2 .cpu va.2 = vb at h
        generalize hvo : checkAndView mo mo.type 2 .cpu vb.2 = vo at h
        by_cases h3 : vo.2 ≠ .success
        · rw [if_pos h3] at h
          cases h
          exact absurd hs h3
        · rw [not_not, ← hvo] at h3
          obtain ⟨-, -, -, -, q1, q2⟩ := (view_status _ _ _ _ _).1 h3
          exact ⟨c1, c2, c3, c4, by rw [c5, c6], by rw [c7, c8], (diffTypes_iff _ _).1 h1, c9, c10, q1, q2⟩
    · rw [if_neg h1] at h
      cases h
      cases hs

/-! ## RMS -/

theorem rmsDiff_spec {ma mb : Mem} {a b : Arr ℂ} {n0 n1 : Nat} {posA posB : Nat → Nat → Nat}
    (ha : Plane ma a.size n0 n1 posA) (hb : Plane mb b.size n0 n1 posB) (hn : n0 * n1 < 2 ^ 31)
    (order : List (Nat × Nat)) (ho : order.Perm (nest2 n0 n1)) :
    rmsDiff (mkView ma 2 .success) (mkView mb 2 .success) a b order =
      some (if n0 * n1 = 0 then .nan else .value (Real.sqrt
        ((∑ i ∈ Finset.range n0, ∑ j ∈ Finset.range n1,
          Complex.normSq (a.get (posA i j) - b.get (posB i j))) / (n0 * n1 : Nat)))) := by
  unfold rmsDiff
  rw [(plane_rows ha).1, (plane_rows ha).2, if_neg (by exact_mod_cast (by omega : ¬ n0 * n1 > 2147483647))]
  have hloop : ∀ (l : List (Nat × Nat)) (acc : ℝ), (∀ p ∈ l, p.1 < n0 ∧ p.2 < n1) →
      loop (fun acc p => (a.read (addr (mkView ma 2 .success) p)).bind fun x =>
        (b.read (addr (mkView mb 2 .success) p)).bind fun y => some (acc + Complex.normSq (x - y))) acc l =
      some (acc + (l.map fun p => Complex.normSq (a.get (posA p.1 p.2) - b.get (posB p.1 p.2))).sum) := by
    intro l
    induction l with
    | nil => intro acc _; simp [loop]
    | cons p l ih =>
      intro acc hl
      obtain ⟨hp1, hp2⟩ := hl p (by simp)
      simp only [loop]
      have e : p = (p.1, p.2) := rfl
      rw [e, plane_addr ha hp1 hp2, plane_addr hb hp1 hp2, Arr.read_nat, if_pos (ha.fits _ _ hp1 hp2)]
      simp only [Option.bind_some]
      rw [Arr.read_nat, if_pos (hb.fits _ _ hp1 hp2)]
      simp only [Option.bind_some]
      rw [ih _ fun q hq => hl q (by simp [hq]), List.map_cons, List.sum_cons, add_assoc]
  rw [hloop order 0 fun p hp => mem_nest2.1 (ho.mem_iff.1 hp)]
  simp only [Option.bind_some, zero_add]
  rw [(ho.map _).sum_eq]
  have hsum : ∀ f : Nat → Nat → ℝ, ((nest2 n0 n1).map fun p => f p.1 p.2).sum =
      ∑ i ∈ Finset.range n0, ∑ j ∈ Finset.range n1, f i j := by
    intro f
    unfold nest2
    rw [List.map_flatMap, ← list_sum_range]
    induction (List.range n0) with
    | nil => simp
    | cons i l ih =>
      rw [List.flatMap_cons, List.sum_append, ih, List.map_cons, List.sum_cons, ← list_sum_range, List.map_map]
      rfl
  rw [hsum fun i j => Complex.normSq (a.get (posA i j) - b.get (posB i j))]

/-- **C83, RMS differences** of arrays of one shape with at least one and fewer than 2³¹ elements: the root of
the mean of the squared moduli, whatever the order of the terms and wherever the arrays are. -/
theorem C83_rms_partial (cuda : Bool) (ma mb : Mem) (a b : Arr ℂ) (n0 n1 : Nat) (posA posB : Nat → Nat → Nat)
    (htt : DiffTypes ma.type mb.type) (ha : Input cuda ma (some a) a n0 n1 posA posA)
    (hb : Input cuda mb (some b) b n0 n1 posB posB) (h0 : 0 < n0 * n1) (hn : n0 * n1 < 2 ^ 31)
    (order : List (Nat × Nat)) (ho : order.Perm (nest2 n0 n1)) :
    rmsCall cuda ma mb .success a b order = some (.success, .value (Real.sqrt
      ((∑ i ∈ Finset.range n0, ∑ j ∈ Finset.range n1,
        Complex.normSq (a.get (posA i j) - b.get (posB i j))) / (n0 * n1 : Nat)))) := by
  obtain ⟨a', fa1, fa2, -, fa3, fa4⟩ := fetch_ok ha
  obtain ⟨b', fb1, fb2, -, fb3, fb4⟩ := fetch_ok hb
  unfold rmsCall
  rw [if_neg (by simp), if_neg (by have := ha.plane.dims; have := hb.plane.dims; omega),
    if_neg (by have := ha.plane.rows; have := hb.plane.rows; have := ha.plane.cols; have := hb.plane.cols; omega),
    fa1]
  simp only [Option.bind_some]
  rw [fb1]
  simp only [Option.bind_some]
  rw [if_pos ((diffTypes_iff _ _).2 htt), if_neg (by simp), viewConst_ok (t := ma.type) fa2.dims rfl rfl]
  simp only
  rw [viewConst_ok (t := mb.type) fb2.dims rfl rfl]
  simp only
  rw [if_neg (by simp), rmsDiff_spec fa2 fb2 hn order ho, if_neg (by omega)]
  rw [fa4, fb4]
  rfl

/-- So it is zero exactly for equal arrays. -/
theorem C83_rms_zero (f : Nat → Nat → ℂ) (n0 n1 : Nat) (h0 : 0 < n0 * n1) :
    Real.sqrt ((∑ i ∈ Finset.range n0, ∑ j ∈ Finset.range n1, Complex.normSq (f i j)) / (n0 * n1 : Nat)) = 0 ↔
      ∀ i < n0, ∀ j < n1, f i j = 0 := by
  have hpos : (0 : ℝ) < (n0 * n1 : Nat) := by exact_mod_cast h0
  have hnn : ∀ i, 0 ≤ ∑ j ∈ Finset.range n1, Complex.normSq (f i j) := fun i =>
    Finset.sum_nonneg fun j _ => Complex.normSq_nonneg _
  rw [Real.sqrt_eq_zero (div_nonneg (Finset.sum_nonneg fun i _ => hnn i) hpos.le), div_eq_zero_iff,
    or_iff_left hpos.ne', Finset.sum_eq_zero_iff_of_nonneg fun i _ => hnn i]
  constructor
  · intro h i hi j hj
    have := (Finset.sum_eq_zero_iff_of_nonneg fun j _ => Complex.normSq_nonneg (f i j)).1
      (h i (Finset.mem_range.2 hi)) j (Finset.mem_range.2 hj)
    exact Complex.normSq_eq_zero.1 this
  · intro h i hi
    apply Finset.sum_eq_zero
    intro j hj
    rw [h i (Finset.mem_range.1 hi) j (Finset.mem_range.1 hj)]
    simp

/-- **C83 fails** for images of 2³¹ pixels or more, for example 65536 x 32768: the number of elements does not
fit an `int`. -/
theorem C83_rms_size_false (ma mb : Mem) (a b : Arr ℂ) (posA posB : Nat → Nat → Nat)
    (ha : Plane ma a.size 65536 32768 posA) (hb : Plane mb b.size 65536 32768 posB) (htt : DiffTypes ma.type mb.type)
    (hla : ma.location = .cpu) (hlb : mb.location = .cpu) (order : List (Nat × Nat)) :
    rmsCall false ma mb .success a b order = none := by
  obtain ⟨a', fa1, fa2, -, -, -⟩ := fetch_ok (cuda := false) (posO := posA)
    (⟨Or.inl hla, ha, by simp⟩ : Input false ma (some a) a 65536 32768 posA posA)
  obtain ⟨b', fb1, fb2, -, -, -⟩ := fetch_ok (cuda := false) (posO := posB)
    (⟨Or.inl hlb, hb, by simp⟩ : Input false mb (some b) b 65536 32768 posB posB)
  unfold rmsCall
  rw [if_neg (by simp), if_neg (by have := ha.dims; have := hb.dims; omega),
    if_neg (by have := ha.rows; have := hb.rows; have := ha.cols; have := hb.cols; omega), fa1]
  simp only [Option.bind_some]
  rw [fb1]
  simp only [Option.bind_some]
  rw [if_pos ((diffTypes_iff _ _).2 htt), if_neg (by simp), viewConst_ok (t := ma.type) fa2.dims rfl rfl]
  simp only
  rw [viewConst_ok (t := mb.type) fb2.dims rfl rfl]
  simp only
  rw [if_neg (by simp)]
  unfold rmsDiff
  rw [(plane_rows fa2).1, (plane_rows fa2).2, if_pos (by norm_num)]
  rfl

/-- **C83 fails** for arrays without elements: the result is not a number, and no error. -/
theorem C83_rms_empty_false (ma mb : Mem) (a b : Arr ℂ) (posA posB : Nat → Nat → Nat) (n1 : Nat)
    (ha : Plane ma a.size 0 n1 posA) (hb : Plane mb b.size 0 n1 posB) (htt : DiffTypes ma.type mb.type)
    (hla : ma.location = .cpu) (hlb : mb.location = .cpu) :
    rmsCall false ma mb .success a b [] = some (.success, .nan) := by
  obtain ⟨a', fa1, fa2, -, -, -⟩ := fetch_ok (cuda := false) (posO := posA)
    (⟨Or.inl hla, ha, by simp⟩ : Input false ma (some a) a 0 n1 posA posA)
  obtain ⟨b', fb1, fb2, -, -, -⟩ := fetch_ok (cuda := false) (posO := posB)
    (⟨Or.inl hlb, hb, by simp⟩ : Input false mb (some b) b 0 n1 posB posB)
  unfold rmsCall
  rw [if_neg (by simp), if_neg (by have := ha.dims; have := hb.dims; omega),
    if_neg (by have := ha.rows; have := hb.rows; have := ha.cols; have := hb.cols; omega), fa1]
  simp only [Option.bind_some]
  rw [fb1]
  simp only [Option.bind_some]
  rw [if_pos ((diffTypes_iff _ _).2 htt), if_neg (by simp), viewConst_ok (t := ma.type) fa2.dims rfl rfl]
  simp only
  rw [viewConst_ok (t := mb.type) fb2.dims rfl rfl]
  simp only
  rw [if_neg (by simp), rmsDiff_spec (plane_cpu ha (by omega)) (plane_cpu hb (by omega)) (by simp) []
    (by simp [nest2]), if_pos (by simp)]
  rfl

end Sdp.GridUtil
