import Verif.DataModel.Model
import Verif.Mem.Props2

/-!
# C09 — the data-model checks and metadata queries

Spec: an array *is* a `(d₀,…,dₙ₋₁)` array when it has rank `n` and those
dimensions.
-/

namespace Sdp

/-- "the array has exactly this shape", read off its dimension table. -/
def HasShape (m : Mem) (dims : List Int) : Prop :=
  m.numDims = dims.length ∧ ∀ d : Nat, d < dims.length → m.shape.getD d 0 = dims.getD d 0

def RealType (t : MemType) : Prop := t = .float ∨ t = .double
def ComplexType (t : MemType) : Prop :=
  t = .complexBit ∨ t = .complexFloat ∨ t = .complexDouble

theorem shapeDim_lt (m : Mem) (d : Nat) (h : d < m.numDims) :
    m.shapeDim d = m.shape.getD d 0 := by
  unfold Mem.shapeDim
  rw [if_neg (by omega)]; simp

theorem checkShape_iff (m : Mem) (e : List Int) (st : Status) :
    checkShape m e st = .success ↔ st = .success ∧ HasShape m e := by
  have h := Check.run_success_iff (.shape m e) st
  simp only [Check.run, Check.Holds] at h
  rw [h, HasShape]
  constructor
  · rintro ⟨a, b, c⟩
    exact ⟨a, b, fun d hd => by rw [← shapeDim_lt m d (by omega)]; exact c d hd⟩
  · rintro ⟨a, b, c⟩
    exact ⟨a, b, fun d hd => by rw [shapeDim_lt m d (by omega)]; exact c d hd⟩

theorem checkLocation_iff (m : Mem) (l : MemLocation) (st : Status) :
    checkLocation m l st = .success ↔ st = .success ∧ m.location = l :=
  Check.run_success_iff (.location m l) st

theorem checkType_iff (m : Mem) (t : MemType) (st : Status) :
    checkType m t st = .success ↔ st = .success ∧ m.type = t :=
  Check.run_success_iff (.type m t) st

theorem checkNumDims_iff (m : Mem) (n : Int) (st : Status) :
    checkNumDims m n st = .success ↔ st = .success ∧ (m.numDims : Int) = n :=
  Check.run_success_iff (.numDims m n) st

theorem checkDimSize_iff (m : Mem) (d s : Int) (st : Status) :
    checkDimSize m d s st = .success ↔ st = .success ∧ m.shapeDim d = s :=
  Check.run_success_iff (.dimSize m d s) st

theorem checkContig_iff (m : Mem) (st : Status) :
    checkCContiguity m st = .success ↔
      st = .success ∧ m.data ≠ none ∧ m.isCContiguous = true :=
  Check.run_success_iff (.contiguous m) st

theorem queryFloatingPoint_iff (m : Mem) :
    m.queryFloatingPoint = true ↔ m.data ≠ none ∧ RealType m.type := by
  cases h : m.data <;> simp [Mem.queryFloatingPoint, RealType, h]

theorem queryComplex_iff (m : Mem) :
    m.queryComplex = true ↔ m.data ≠ none ∧ ComplexType m.type := by
  cases h : m.data <;> simp [Mem.queryComplex, ComplexType, h]

theorem real_not_complex (m : Mem) (h : m.queryFloatingPoint = true) :
    m.queryComplex = false := by
  rw [queryFloatingPoint_iff] at h
  rw [Bool.eq_false_iff]
  intro hc
  rw [queryComplex_iff] at hc
  rcases h.2 with e | e <;> rcases hc.2 with f | f | f <;> simp_all

theorem typeCheck_iff (m : Mem) (t : MemType) (s : Status) :
    (if t ≠ .void then checkType m t s else s) = .success ↔
      s = .success ∧ (t = .void ∨ m.type = t) := by
  by_cases h : t = .void
  · simp [h]
  · simp [h, checkType_iff]

/-- The uvw check succeeds exactly on non-empty, real, C-contiguous arrays of shape
(times, baselines, 3) in the expected place and (if one was given) of the
expected type. -/
theorem C09_check_uvw (uvw : Mem) (type : MemType) (loc : MemLocation) (nt nb : Int)
    (st : Status) :
    checkUvw uvw type loc nt nb st = .success ↔
      st = .success ∧ uvw.data ≠ none ∧ RealType uvw.type ∧ HasShape uvw [nt, nb, 3] ∧
      uvw.location = loc ∧ (type = .void ∨ uvw.type = type) ∧ uvw.isCContiguous = true := by
  unfold checkUvw
  by_cases h : st = .success
  · subst h
    simp only [ne_eq, not_true_eq_false, if_false]
    rw [checkContig_iff, typeCheck_iff, checkLocation_iff, checkShape_iff]
    by_cases hf : uvw.queryFloatingPoint = true
    · have hc := real_not_complex uvw hf
      have hf' := (queryFloatingPoint_iff uvw).1 hf
      simp only [hf, hc, hf'.1, hf'.2]
      simp only [Bool.not_true, Bool.or_self, Bool.false_eq_true, if_false, ne_eq, not_false_eq_true,
        true_and]
      constructor
      · rintro ⟨⟨⟨a, b⟩, c⟩, d⟩; exact ⟨a, b, c, d.2⟩
      · rintro ⟨a, b, c, d⟩; exact ⟨⟨⟨a, b⟩, c⟩, hf'.1, d⟩
    · constructor
      · rintro ⟨⟨⟨⟨a, _⟩, _⟩, _⟩, _⟩
        simp [hf] at a
      · rintro ⟨_, a, b, _⟩
        exact absurd ((queryFloatingPoint_iff uvw).2 ⟨a, b⟩) hf
  · simp [h]

/-- The visibility check. -/
theorem C09_check_vis (vis : Mem) (type : MemType) (loc : MemLocation) (nt nb nc np : Int)
    (st : Status) :
    checkVis vis type loc nt nb nc np st = .success ↔
      st = .success ∧ vis.data ≠ none ∧ ComplexType vis.type ∧
      HasShape vis [nt, nb, nc, np] ∧
      vis.location = loc ∧ (type = .void ∨ vis.type = type) ∧ vis.isCContiguous = true := by
  unfold checkVis
  by_cases h : st = .success
  · subst h
    simp only [ne_eq, not_true_eq_false, if_false]
    by_cases hf : vis.queryComplex = true
    · have hf' := (queryComplex_iff vis).1 hf
      simp only [hf, Bool.not_true, Bool.false_eq_true, if_false]
      rw [checkContig_iff, typeCheck_iff, checkLocation_iff, checkShape_iff]
      simp only [hf'.1, hf'.2, ne_eq, not_false_eq_true, true_and]
      constructor
      · rintro ⟨⟨⟨a, b⟩, c⟩, d⟩; exact ⟨a, b, c, d⟩
      · rintro ⟨a, b, c, d⟩; exact ⟨⟨⟨a, b⟩, c⟩, d⟩
    · constructor
      · intro a; simp [hf] at a
      · rintro ⟨_, a, b, _⟩
        exact absurd ((queryComplex_iff vis).2 ⟨a, b⟩) hf
  · simp [h]

/-- The weights check (any non-complex type is accepted if none was given). -/
theorem C09_check_weights (wts : Mem) (type : MemType) (loc : MemLocation)
    (nt nb nc np : Int) (st : Status) :
    checkWeights wts type loc nt nb nc np st = .success ↔
      st = .success ∧ wts.data ≠ none ∧ ¬ ComplexType wts.type ∧
      HasShape wts [nt, nb, nc, np] ∧
      wts.location = loc ∧ (type = .void ∨ wts.type = type) ∧ wts.isCContiguous = true := by
  unfold checkWeights
  by_cases h : st = .success
  · subst h
    simp only [ne_eq, not_true_eq_false, if_false]
    by_cases hf : wts.queryComplex = true
    · have hf' := (queryComplex_iff wts).1 hf
      simp [hf, hf'.2]
    · have hf' := (not_congr (queryComplex_iff wts)).1 hf
      simp only [hf, Bool.false_eq_true, if_false]
      rw [checkContig_iff, typeCheck_iff, checkLocation_iff, checkShape_iff]
      constructor
      · rintro ⟨⟨⟨⟨a, b⟩, c⟩, d⟩, e, f⟩
        exact ⟨trivial, e, fun hc => hf' ⟨e, hc⟩, b, c, d, f⟩
      · rintro ⟨a, e, _, b, c, d, f⟩; exact ⟨⟨⟨⟨rfl, b⟩, c⟩, d⟩, e, f⟩
  · simp [h]

/-- The uvw metadata query: a clean status means a non-empty real array of rank 3
with last dimension 3, and the values handed out are the array's. (Neither
location nor contiguity is established by this function.) -/
theorem C09_uvw_metadata (w : DWant) (uvw : Mem) (st : Status) :
    ((getUvwMetadata w uvw st).2 = .success ↔
      st = .success ∧ uvw.data ≠ none ∧ RealType uvw.type ∧ uvw.numDims = 3 ∧
      uvw.shape.getD 2 0 = 3) ∧
    ((getUvwMetadata w uvw st).2 = .success →
      (∀ t, (getUvwMetadata w uvw st).1.type = some t → t = uvw.type) ∧
      (∀ l, (getUvwMetadata w uvw st).1.location = some l → l = uvw.location) ∧
      (w.type → (getUvwMetadata w uvw st).1.type = some uvw.type) ∧
      (w.location → (getUvwMetadata w uvw st).1.location = some uvw.location) ∧
      (w.numTimes → (getUvwMetadata w uvw st).1.numTimes = some (uvw.shape.getD 0 0)) ∧
      (w.numBaselines →
        (getUvwMetadata w uvw st).1.numBaselines = some (uvw.shape.getD 1 0))) := by
  have key : (getUvwMetadata w uvw st).2 = .success ↔
      st = .success ∧ uvw.data ≠ none ∧ RealType uvw.type ∧ uvw.numDims = 3 ∧
      uvw.shape.getD 2 0 = 3 := by
    unfold getUvwMetadata
    by_cases h : st = .success
    · subst h
      simp only [ne_eq, not_true_eq_false, if_false]
      rw [checkDimSize_iff, checkNumDims_iff]
      by_cases hf : uvw.queryFloatingPoint = true
      · have hc := real_not_complex uvw hf
        have hf' := (queryFloatingPoint_iff uvw).1 hf
        simp only [hf, hc, hf'.1, hf'.2, Bool.not_true, Bool.or_self, Bool.false_eq_true, if_false,
          not_false_eq_true, true_and]
        constructor
        · rintro ⟨a, b⟩
          have ha : uvw.numDims = 3 := by omega
          exact ⟨ha, by rw [← shapeDim_lt uvw 2 (by omega)]; exact b⟩
        · rintro ⟨a, b⟩
          exact ⟨by omega, by
            have := shapeDim_lt uvw 2 (by omega)
            rw [b] at this; exact this⟩
      · constructor
        · rintro ⟨⟨a, _⟩, _⟩
          simp [hf] at a
        · rintro ⟨_, a, b, _⟩
          exact absurd ((queryFloatingPoint_iff uvw).2 ⟨a, b⟩) hf
    · simp [h]
  refine ⟨key, fun hs => ?_⟩
  obtain ⟨rfl, -, -, hn, -⟩ := key.1 hs
  have h0 := shapeDim_lt uvw 0 (by omega)
  have h1 := shapeDim_lt uvw 1 (by omega)
  simp only [Nat.cast_zero, Nat.cast_one] at h0 h1
  unfold getUvwMetadata
  simp only [ne_eq, not_true_eq_false, if_false]
  refine ⟨?_, ?_, ?_, ?_, ?_, ?_⟩
  · intro t ht; split at ht <;> simp_all
  · intro t ht; split at ht <;> simp_all
  all_goals intro hw; simp only [hw, if_true, h0, h1]

/-- The visibility metadata query: a clean status means a non-empty complex
array of rank 4 which, when the polarisation count was asked for, has 1 or 4
polarisations; the values handed out are the array's. -/
theorem C09_vis_metadata (w : DWant) (vis : Mem) (st : Status) :
    ((getVisMetadata w vis st).2 = .success ↔
      st = .success ∧ vis.data ≠ none ∧ ComplexType vis.type ∧ vis.numDims = 4 ∧
      (w.numPols = true → vis.shape.getD 3 0 = 1 ∨ vis.shape.getD 3 0 = 4)) ∧
    ((getVisMetadata w vis st).2 = .success →
      (w.type → (getVisMetadata w vis st).1.type = some vis.type) ∧
      (w.location → (getVisMetadata w vis st).1.location = some vis.location) ∧
      (w.numTimes → (getVisMetadata w vis st).1.numTimes = some (vis.shape.getD 0 0)) ∧
      (w.numBaselines →
        (getVisMetadata w vis st).1.numBaselines = some (vis.shape.getD 1 0)) ∧
      (w.numChannels →
        (getVisMetadata w vis st).1.numChannels = some (vis.shape.getD 2 0)) ∧
      (w.numPols → (getVisMetadata w vis st).1.numPols = some (vis.shape.getD 3 0))) := by
  have key : (getVisMetadata w vis st).2 = .success ↔
      st = .success ∧ vis.data ≠ none ∧ ComplexType vis.type ∧ vis.numDims = 4 ∧
      (w.numPols = true → vis.shape.getD 3 0 = 1 ∨ vis.shape.getD 3 0 = 4) := by
    unfold getVisMetadata
    by_cases h : st = .success
    · subst h
      simp only [ne_eq, not_true_eq_false, if_false]
      by_cases hf : vis.queryComplex = true
      · have hf' := (queryComplex_iff vis).1 hf
        simp only [hf, hf'.1, hf'.2, Bool.not_true, Bool.false_eq_true, if_false,
          not_false_eq_true, true_and]
        by_cases hn : vis.numDims = 4
        · have hn' : (vis.numDims : Int) = 4 := by omega
          have h3 : vis.shapeDim 3 = vis.shape.getD 3 0 := shapeDim_lt vis 3 (by omega)
          rw [h3]
          have hs : checkNumDims vis 4 .success = .success :=
            (checkNumDims_iff vis 4 .success).2 ⟨rfl, hn'⟩
          simp only [hs, hn, true_and]
          split
          · rename_i hx
            simp only [reduceCtorEq, false_iff]
            intro hh
            rcases hh hx.1 with e | e <;> simp_all
          · rename_i hx
            simp only [true_iff]
            intro hw
            by_contra hh
            push Not at hh
            exact hx ⟨hw, hh.2, hh.1⟩
        · have hn' : (vis.numDims : Int) ≠ 4 := by omega
          simp [hn', hn, checkNumDims]
      · constructor
        · intro a; simp [hf] at a
        · rintro ⟨_, a, b, _⟩
          exact absurd ((queryComplex_iff vis).2 ⟨a, b⟩) hf
    · simp [h]
  refine ⟨key, fun hs => ?_⟩
  obtain ⟨rfl, hd, hc, hn, hp⟩ := key.1 hs
  have h0 : vis.shapeDim 0 = _ := shapeDim_lt vis 0 (by omega)
  have h1 : vis.shapeDim 1 = _ := shapeDim_lt vis 1 (by omega)
  have h2 : vis.shapeDim 2 = _ := shapeDim_lt vis 2 (by omega)
  have h3 : vis.shapeDim 3 = _ := shapeDim_lt vis 3 (by omega)
  have hq := (queryComplex_iff vis).2 ⟨hd, hc⟩
  unfold getVisMetadata
  simp only [ne_eq, not_true_eq_false, if_false, hq, Bool.not_true, Bool.false_eq_true]
  split
  · rename_i hx
    rcases hp hx.1 with e | e <;> simp_all
  · refine ⟨?_, ?_, ?_, ?_, ?_, ?_⟩ <;> intro hw <;> simp only [hw, if_true, h0, h1, h2, h3]

/-- The weights metadata query, for arrays that have storage: a clean status
means a non-complex array of rank 4 and the values handed out are the array's.
Missing from the full claim: arrays without storage, see
`C09_weights_metadata_false`. -/
theorem C09_weights_metadata_partial (w : DWant) (wts : Mem) (st : Status)
    (hd : wts.data ≠ none) :
    ((getWeightsMetadata w wts st).2 = .success ↔
      st = .success ∧ ¬ ComplexType wts.type ∧ wts.numDims = 4) ∧
    ((getWeightsMetadata w wts st).2 = .success →
      (w.type → (getWeightsMetadata w wts st).1.type = some wts.type) ∧
      (w.location → (getWeightsMetadata w wts st).1.location = some wts.location) ∧
      (w.numTimes → (getWeightsMetadata w wts st).1.numTimes = some (wts.shape.getD 0 0)) ∧
      (w.numBaselines →
        (getWeightsMetadata w wts st).1.numBaselines = some (wts.shape.getD 1 0)) ∧
      (w.numChannels →
        (getWeightsMetadata w wts st).1.numChannels = some (wts.shape.getD 2 0)) ∧
      (w.numPols → (getWeightsMetadata w wts st).1.numPols = some (wts.shape.getD 3 0))) := by
  have hq : wts.queryComplex = true ↔ ComplexType wts.type := by
    rw [queryComplex_iff]; simp [hd]
  have key : (getWeightsMetadata w wts st).2 = .success ↔
      st = .success ∧ ¬ ComplexType wts.type ∧ wts.numDims = 4 := by
    unfold getWeightsMetadata
    rw [← hq]
    by_cases h : st = .success
    · subst h
      by_cases hn : wts.numDims = 4
      · by_cases hc : wts.queryComplex = true <;> simp [hn, hc]
      · have : (wts.numDims : Int) ≠ 4 := by omega
        simp [hn, this]
    · simp [h]
  refine ⟨key, fun hs => ?_⟩
  obtain ⟨rfl, hc, hn⟩ := key.1 hs
  have h0 : wts.shapeDim 0 = _ := shapeDim_lt wts 0 (by omega)
  have h1 : wts.shapeDim 1 = _ := shapeDim_lt wts 1 (by omega)
  have h2 : wts.shapeDim 2 = _ := shapeDim_lt wts 2 (by omega)
  have h3 : wts.shapeDim 3 = _ := shapeDim_lt wts 3 (by omega)
  rw [← hq] at hc
  unfold getWeightsMetadata
  simp only [ne_eq, not_true_eq_false, if_false, hc, hn]
  refine ⟨?_, ?_, ?_, ?_, ?_, ?_⟩ <;> intro hw <;>
    simp [hw, h0, h1, h2, h3]

/-- An empty (hence storage-less) complex array passes the weights query
although "the weights array cannot be complex". -/
theorem C09_weights_metadata_false :
    ∃ (h : Heap) (shape : List Int) (h' : Heap) (m : Mem),
      memCreate h true .complexDouble .cpu shape .success = (h', m, .success) ∧
      ComplexType m.type ∧ (getWeightsMetadata {} m .success).2 = .success :=
  ⟨⟨0, fun _ => none⟩, [0, 1, 1, 1], _, _, rfl, Or.inr (Or.inr rfl), by decide⟩

/-- Non-vacuity: a created (2 times, 3 baselines, 3) double array passes the uvw
check; a (2,3,4,4) complex array passes the visibility check and query. -/
example : (checkUvw (createWrapper (some ⟨0, 0⟩) .double .cpu [2, 3, 3] none .success).1
    .double .cpu 2 3 .success) = .success := by decide

example : (checkVis (createWrapper (some ⟨0, 0⟩) .complexFloat .cpu [2, 3, 4, 4] none
    .success).1 .void .cpu 2 3 4 4 .success) = .success ∧
    (getVisMetadata {} (createWrapper (some ⟨0, 0⟩) .complexFloat .cpu [2, 3, 4, 4] none
    .success).1 .success).1.numPols = some 4 := by decide

example : (checkWeights (createWrapper (some ⟨0, 0⟩) .float .cpu [2, 3, 4, 1] none
    .success).1 .void .cpu 2 3 4 1 .success) = .success := by decide

end Sdp
