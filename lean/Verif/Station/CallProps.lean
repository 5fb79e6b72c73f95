import Verif.Station.CallSpec
import Verif.Element.CallProps
import Mathlib.Tactic.Common

/-
C123: what the station beam call does with the arrays it is given.
-/
namespace Sdp.StationCall

open Sdp.BeamCall (points mem_points)

theorem allRight_points (loc : MemLocation) (A : Which → Mem) (n : Int) (f : Int → List Use) :
    AllRight loc A ((points n).flatMap f) ↔ ∀ i, 0 ≤ i → i < n → AllRight loc A (f i) := by
  simp only [AllRight, List.mem_flatMap, mem_points]
  constructor
  · intro h i h0 h1 u hu; exact h u ⟨i, ⟨h0, h1⟩, hu⟩
  · rintro h u ⟨i, ⟨h0, h1⟩, hu⟩; exact h i h0 h1 u hu

theorem allRight_append (loc : MemLocation) (A : Which → Mem) (a b : List Use) :
    AllRight loc A (a ++ b) ↔ AllRight loc A a ∧ AllRight loc A b := by
  simp only [AllRight, List.mem_append]
  exact ⟨fun h => ⟨fun u hu => h u (Or.inl hu), fun u hu => h u (Or.inr hu)⟩,
    fun h u hu => hu.elim (h.1 u) (h.2 u)⟩

theorem allRight_cons (loc : MemLocation) (A : Which → Mem) (a : Use) (b : List Use) :
    AllRight loc A (a :: b) ↔ Right loc (A a.arr) a ∧ AllRight loc A b := by
  simp only [AllRight, List.mem_cons]
  exact ⟨fun h => ⟨h a (Or.inl rfl), fun u hu => h u (Or.inr hu)⟩,
    fun h u hu => hu.elim (fun e => e ▸ h.1) (h.2 u)⟩

theorem allRight_nil (loc : MemLocation) (A : Which → Mem) : AllRight loc A [] :=
  fun u hu => by cases hu

theorem allRight_opt (loc : MemLocation) (A : Which → Mem) (b : Bool) (l : List Use) :
    AllRight loc A (if b then l else []) ↔ (b = true → AllRight loc A l) := by
  cases b
  · exact ⟨fun _ h => (by cases h), fun _ => allRight_nil loc A⟩
  · exact ⟨fun h _ => h, fun h => h rfl⟩

/-- Reads at consecutive positions. -/
theorem reads (loc : MemLocation) (m : Mem) (w : Which) (t : MemType) (n off : Int) (hn : 0 < n) :
    (∀ i, 0 ≤ i → i < n → Right loc m ⟨w, t, i + off, false⟩) ↔ Has loc m t off (off + n) := by
  unfold Right Has
  dsimp only
  constructor
  · intro h
    obtain ⟨a, b, c, d, e, _⟩ := h 0 (by omega) (by omega)
    obtain ⟨_, _, _, _, _, f, _⟩ := h (n - 1) (by omega) (by omega)
    exact ⟨a, b, c, d, by omega, by omega⟩
  · rintro ⟨a, b, c, d, e, f⟩ i h0 h1
    exact ⟨a, b, c, d, by omega, by omega, fun h => by cases h⟩

theorem reads0 (loc : MemLocation) (m : Mem) (w : Which) (t : MemType) (n : Int) (hn : 0 < n) :
    (∀ i, 0 ≤ i → i < n → Right loc m ⟨w, t, i, false⟩) ↔ Has loc m t 0 n := by
  have := reads loc m w t n 0 hn
  simpa using this

/-- The computed values of `n` points, written or read. -/
theorem values (a : Args) (loc : MemLocation) (w : Which) (t : MemType) (wr : Bool) (start : Int)
    (hn : 0 < a.n) :
    (∀ o, 0 ≤ o → o < a.n → AllRight loc a.mem
      (a.enabled.map fun k => ⟨w, t, a.pols * (start + o) + k, wr⟩)) ↔
    (RowFits loc (a.mem w) t a.pols start a.n
        (computed (a.mem .out).queryComplex4 a.evalX a.evalY) ∧
      (computed (a.mem .out).queryComplex4 a.evalX a.evalY ≠ none → wr = true →
        (a.mem w).isReadOnly = false)) := by
  obtain ⟨mem, value, offPoints, n, offOut, evalX, evalY⟩ := a
  unfold Args.enabled Args.pols RowFits
  dsimp only at hn ⊢
  have nil := allRight_nil loc mem
  have two : ∀ (P lo hi : Int), 0 < P → lo ≤ hi →
      ((∀ o, 0 ≤ o → o < n → Right loc (mem w) ⟨w, t, P * (start + o) + lo, wr⟩ ∧
          Right loc (mem w) ⟨w, t, P * (start + o) + hi, wr⟩) ↔
        (Has loc (mem w) t (P * start + lo) (P * (start + n - 1) + hi + 1) ∧
          (wr = true → (mem w).isReadOnly = false))) := by
    intro P lo hi hP hl
    unfold Right Has
    dsimp only
    constructor
    · intro h
      obtain ⟨⟨a, b, c, d, e, _, g⟩, _⟩ := h 0 (by omega) (by omega)
      obtain ⟨_, _, _, _, _, _, f, _⟩ := h (n - 1) (by omega) (by omega)
      rw [Int.add_zero] at e
      rw [show start + (n - 1) = start + n - 1 by omega] at f
      exact ⟨⟨a, b, c, d, e, by omega⟩, g⟩
    · rintro ⟨⟨a, b, c, d, e, f⟩, g⟩ o h0 h1
      have l1 : P * start ≤ P * (start + o) := Int.mul_le_mul_of_nonneg_left (by omega) (by omega)
      have l2 : P * (start + o) ≤ P * (start + n - 1) :=
        Int.mul_le_mul_of_nonneg_left (by omega) (by omega)
      exact ⟨⟨a, b, c, d, by omega, by omega, g⟩, a, b, c, d, by omega, by omega, g⟩
  have mid : ∀ (P lo hi : Int), 0 < P → lo ≤ hi →
      (∀ o, 0 ≤ o → o < n → Right loc (mem w) ⟨w, t, P * (start + o) + lo, wr⟩ ∧
          Right loc (mem w) ⟨w, t, P * (start + o) + hi, wr⟩) →
      ∀ k, lo ≤ k → k ≤ hi → ∀ o, 0 ≤ o → o < n →
        Right loc (mem w) ⟨w, t, P * (start + o) + k, wr⟩ := by
    intro P lo hi hP hl h k h1 h2 o h3 h4
    obtain ⟨⟨a, b, c, d, e, _, g⟩, ⟨_, _, _, _, _, f, _⟩⟩ := h o h3 h4
    dsimp only at e f
    exact ⟨a, b, c, d, by dsimp only; omega, by dsimp only; omega, g⟩
  have fin : ∀ (P lo hi : Int), 0 < P → lo ≤ hi →
      ((Has loc (mem w) t (P * start + lo) (P * (start + n - 1) + hi + 1) ∧
          (wr = true → (mem w).isReadOnly = false)) ↔
        ((∀ first last, some (lo, hi) = some (first, last) →
          Has loc (mem w) t (P * start + first) (P * (start + n - 1) + last + 1)) ∧
        (some (lo, hi) ≠ none → wr = true → (mem w).isReadOnly = false))) := by
    intro P lo hi _ _
    constructor
    · rintro ⟨h, g⟩
      refine ⟨fun f l e => ?_, fun _ => g⟩
      injection e with e
      injection e with e1 e2
      subst e1 e2
      exact h
    · rintro ⟨h, g⟩
      exact ⟨h _ _ rfl, g (by simp)⟩
  cases (mem .out).queryComplex4
  · simp only [Bool.false_eq_true, if_false, computed, List.map_cons, List.map_nil, allRight_cons, nil]
    rw [← fin 1 0 0 (by omega) (by omega), ← two 1 0 0 (by omega) (by omega)]
    simp only [and_true, and_self]
  · simp only [if_true]
    cases evalX <;> cases evalY
    · simp [computed, nil]
    · simp only [Bool.false_eq_true, if_false, if_true, computed, List.nil_append, List.map_cons,
        List.map_nil, allRight_cons, nil]
      rw [← fin 4 2 3 (by omega) (by omega), ← two 4 2 3 (by omega) (by omega)]
      simp only [and_true]
    · simp only [Bool.false_eq_true, if_false, if_true, computed, List.append_nil, List.map_cons,
        List.map_nil, allRight_cons, nil]
      rw [← fin 4 0 1 (by omega) (by omega), ← two 4 0 1 (by omega) (by omega)]
      simp only [and_true]
    · simp only [if_true, computed, List.map_cons, List.cons_append, List.nil_append,
        List.map_nil, allRight_cons, nil]
      rw [← fin 4 0 3 (by omega) (by omega), ← two 4 0 3 (by omega) (by omega)]
      constructor
      · intro h o h0 h1
        exact ⟨(h o h0 h1).1, (h o h0 h1).2.2.2.1⟩
      · intro h o h0 h1
        have m := mid 4 0 3 (by omega) (by omega) h
        exact ⟨(h o h0 h1).1, m 1 (by omega) (by omega) o h0 h1, m 2 (by omega) (by omega) o h0 h1,
          (h o h0 h1).2, trivial⟩

theorem point_right (a : Args) (loc : MemLocation) (real : MemType) (hn : 0 < a.n) :
    (∀ o, 0 ≤ o → o < a.n → AllRight loc a.mem (a.pointUses real o)) ↔
      PointsFit loc a.mem real a.offPoints a.n := by
  unfold Args.pointUses PointsFit
  have nil := allRight_nil loc a.mem
  rw [← reads loc (a.mem .pointX) .pointX real a.n a.offPoints hn,
    ← reads loc (a.mem .pointY) .pointY real a.n a.offPoints hn,
    ← reads loc (a.mem .pointZ) .pointZ real a.n a.offPoints hn]
  simp only [allRight_append, allRight_opt, allRight_cons, nil, and_true]
  constructor
  · intro h
    exact ⟨fun i h0 h1 => (h i h0 h1).1.1, fun i h0 h1 => (h i h0 h1).1.2,
      fun hz i h0 h1 => (h i h0 h1).2 hz⟩
  · rintro ⟨h1, h2, h3⟩ i hi0 hi1
    exact ⟨⟨h1 i hi0 hi1, h2 i hi0 hi1⟩, fun hz => h3 hz i hi0 hi1⟩

theorem element_right (a : Args) (loc : MemLocation) (real cplx : MemType) (hk : 0 < a.numIn) :
    (∀ i, 0 ≤ i → i < a.numIn → AllRight loc a.mem (Args.elementUses real cplx i)) ↔
      ElementsFit loc a.mem real cplx a.numIn := by
  unfold Args.elementUses ElementsFit
  have nil := allRight_nil loc a.mem
  rw [← reads0 loc (a.mem .x) .x real a.numIn hk, ← reads0 loc (a.mem .y) .y real a.numIn hk,
    ← reads0 loc (a.mem .z) .z real a.numIn hk, ← reads0 loc (a.mem .weights) .weights cplx a.numIn hk]
  simp only [allRight_cons, nil, and_true]
  constructor
  · intro h
    exact ⟨fun i h0 h1 => (h i h0 h1).1, fun i h0 h1 => (h i h0 h1).2.1,
      fun i h0 h1 => (h i h0 h1).2.2.1, fun i h0 h1 => (h i h0 h1).2.2.2⟩
  · rintro ⟨h1, h2, h3, h4⟩ i a b
    exact ⟨h1 i a b, h2 i a b, h3 i a b, h4 i a b⟩

/-- The values of the beams of all elements. -/
theorem data_right (a : Args) (loc : MemLocation) (cplx : MemType) (hn : 0 < a.n) (i : Int) :
    (∀ o, 0 ≤ o → o < a.n → AllRight loc a.mem (a.dataUses cplx o i)) ↔
      RowFits loc (a.mem .data) cplx a.pols (a.row i * a.n) a.n
        (computed (a.mem .out).queryComplex4 a.evalX a.evalY) := by
  have h := values a loc .data cplx false (a.row i * a.n) hn
  unfold Args.dataUses
  rw [h]
  exact ⟨fun h => h.1, fun h => ⟨h, fun _ e => by cases e⟩⟩

theorem out_right (a : Args) (loc : MemLocation) (cplx : MemType) (hn : 0 < a.n) :
    (∀ o, 0 ≤ o → o < a.n → AllRight loc a.mem (a.outUses cplx o)) ↔
      (RowFits loc (a.mem .out) cplx a.pols a.offOut a.n
        (computed (a.mem .out).queryComplex4 a.evalX a.evalY) ∧
      (computed (a.mem .out).queryComplex4 a.evalX a.evalY ≠ none →
        (a.mem .out).isReadOnly = false)) := by
  have h := values a loc .out cplx true a.offOut hn
  unfold Args.outUses
  simp only [Int.add_comm _ a.offOut]
  rw [h]
  exact ⟨fun h => ⟨h.1, fun e => h.2 e rfl⟩, fun h => ⟨h.1, fun e _ => h.2 e⟩⟩

theorem index_right (a : Args) (loc : MemLocation) (hk : 0 < a.numIn) :
    (∀ i, 0 ≤ i → i < a.numIn → AllRight loc a.mem [⟨.index, .int, i, false⟩]) ↔
      Has loc (a.mem .index) .int 0 a.numIn := by
  have nil := allRight_nil loc a.mem
  rw [← reads0 loc (a.mem .index) .index .int a.numIn hk]
  simp only [allRight_cons, nil, and_true]

theorem cpu_right (a : Args) (loc : MemLocation) (real cplx : MemType) (hn : 0 < a.n) :
    AllRight loc a.mem (a.cpuUses real cplx) ↔ Fits loc a false real cplx := by
  unfold Args.cpuUses Fits
  rw [allRight_points]
  simp only [allRight_append, allRight_points, allRight_opt]
  have p := point_right a loc real hn
  have o := out_right a loc cplx hn
  unfold Args.pols at o
  rw [← p, ← o]
  constructor
  · intro h
    refine ⟨fun o h0 h1 => (h o h0 h1).1.1, fun hk => ⟨?_, fun hi hd => ?_, fun hd i hi0 hi1 => ?_⟩,
      fun o h0 h1 => (h o h0 h1).2⟩
    · exact (element_right a loc real cplx hk).1 fun i hi0 hi1 => ((h 0 (by omega) hn).1.2 i hi0 hi1).1
    · have hd : a.has .data = true := by
        rcases hd with hd | hd
        · cases hd
        · exact hd
      exact (index_right a loc hk).1 fun i hi0 hi1 => (((h 0 (by omega) hn).1.2 i hi0 hi1).2 hd).1 hi
    · exact (data_right a loc cplx hn i).1 fun o h0 h1 => (((h o h0 h1).1.2 i hi0 hi1).2 hd).2
  · rintro ⟨h1, h2, h3⟩ o ho0 ho1
    refine ⟨⟨h1 o ho0 ho1, fun i hi0 hi1 => ?_⟩, h3 o ho0 ho1⟩
    have hk : 0 < a.numIn := by omega
    obtain ⟨e1, e2, e3⟩ := h2 hk
    exact ⟨(element_right a loc real cplx hk).2 e1 i hi0 hi1, fun hd =>
      ⟨fun hi => (index_right a loc hk).2 (e2 hi (Or.inr hd)) i hi0 hi1,
        (data_right a loc cplx hn i).2 (e3 hd i hi0 hi1) o ho0 ho1⟩⟩

theorem gpu_right (a : Args) (loc : MemLocation) (real cplx : MemType) (hn : 0 < a.n) :
    AllRight loc a.mem (a.gpuUses real cplx) ↔ Fits loc a true real cplx := by
  unfold Args.gpuUses Fits
  simp only [allRight_append, allRight_points, allRight_opt]
  have p := point_right a loc real hn
  have o := out_right a loc cplx hn
  unfold Args.pols at o
  rw [← p, ← o]
  constructor
  · rintro ⟨⟨h1, h2⟩, h3⟩
    refine ⟨h1, fun hk => ⟨?_, fun hi _ => ?_, fun hd i hi0 hi1 => ?_⟩, fun o h0 h1 => (h3 o h0 h1).2⟩
    · exact (element_right a loc real cplx hk).1 fun i hi0 hi1 => (h2 i hi0 hi1).1
    · exact (index_right a loc hk).1 fun i hi0 hi1 => (h2 i hi0 hi1).2 hi
    · exact (data_right a loc cplx hn i).1 fun o h0 h1 => (h3 o h0 h1).1 i hi0 hi1 hd
  · rintro ⟨h1, h2, h3⟩
    refine ⟨⟨h1, fun i hi0 hi1 => ?_⟩, fun o ho0 ho1 => ⟨fun i hi0 hi1 hd => ?_, h3 o ho0 ho1⟩⟩
    · have hk : 0 < a.numIn := by omega
      obtain ⟨e1, e2, e3⟩ := h2 hk
      exact ⟨(element_right a loc real cplx hk).2 e1 i hi0 hi1,
        fun hi => (index_right a loc hk).2 (e2 hi (Or.inl trivial)) i hi0 hi1⟩
    · have hk : 0 < a.numIn := by omega
      obtain ⟨e1, e2, e3⟩ := h2 hk
      exact (data_right a loc cplx hn i).2 (e3 hd i hi0 hi1) o ho0 ho1

/-- The complex type of the same precision, as the English claim says it: complex float for
float coordinates, complex double for double ones. -/
def SamePrecision (t c : MemType) : Prop :=
  (t = .float ∧ c = .complexFloat) ∨ (t = .double ∧ c = .complexDouble)

theorem complexOf_same {t c : MemType} (h : complexOf t = some c) : SamePrecision t c := by
  unfold SamePrecision
  cases t <;> simp_all [complexOf]

theorem complexOf_some (t : MemType) :
    (∃ c, complexOf t = some c) ↔ ¬ (t ≠ .float ∧ t ≠ .double) := by
  cases t <;> simp [complexOf]

/-- C123: a call in main memory is refused exactly if there is an earlier error or a type is
wrong; otherwise its uses are right exactly if there are no points or all arrays
are in main memory and hold what the call needs. -/
theorem C123_station_cpu (cuda : Bool) (a : Args) (st : Status)
    (hb : (a.mem .out).location = .cpu) :
    ((∃ e, stationCall cuda a st = .refused e) ↔ (st ≠ .success ∨ BadTypes a)) ∧
    (∀ l, stationCall cuda a st = .ran l → ∃ cplx, SamePrecision (a.mem .x).type cplx ∧
      (AllRight .cpu a.mem l ↔ (a.n ≤ 0 ∨ Fits .cpu a false (a.mem .x).type cplx))) := by
  unfold stationCall
  rw [hb]
  by_cases h1 : st = .success
  swap
  · rw [if_pos h1]
    exact ⟨⟨fun _ => Or.inl h1, fun _ => ⟨_, rfl⟩⟩, fun l h => by cases h⟩
  rw [if_neg (not_not.2 h1)]
  by_cases h2 : (a.mem .weights).queryComplex = false
  · rw [if_pos h2]
    exact ⟨⟨fun _ => Or.inr (Or.inl h2), fun _ => ⟨_, rfl⟩⟩, fun l h => by cases h⟩
  rw [if_neg h2]
  by_cases h3 : a.has .data = true ∧ (a.mem .data).queryComplex = false
  · rw [if_pos h3]
    exact ⟨⟨fun _ => Or.inr (Or.inr (Or.inl h3)), fun _ => ⟨_, rfl⟩⟩, fun l h => by cases h⟩
  rw [if_neg h3]
  by_cases h4 : a.has .index = true ∧ (a.mem .index).type ≠ .int
  · rw [if_pos h4]
    exact ⟨⟨fun _ => Or.inr (Or.inr (Or.inr (Or.inl h4))), fun _ => ⟨_, rfl⟩⟩, fun l h => by cases h⟩
  rw [if_neg h4]
  by_cases h5 : (a.mem .out).queryComplex = false
  · rw [if_pos h5]
    exact ⟨⟨fun _ => Or.inr (Or.inr (Or.inr (Or.inr (Or.inl h5)))), fun _ => ⟨_, rfl⟩⟩,
      fun l h => by cases h⟩
  rw [if_neg h5]
  dsimp only
  cases hc : complexOf (a.mem .x).type with
  | none =>
    refine ⟨⟨fun _ => Or.inr (Or.inr (Or.inr (Or.inr (Or.inr ?_)))), fun _ => ⟨_, rfl⟩⟩,
      fun l h => by cases h⟩
    by_contra h
    obtain ⟨c, hc'⟩ := (complexOf_some _).2 h
    rw [hc] at hc'
    cases hc'
  | some cplx =>
    refine ⟨⟨fun h => (by obtain ⟨e, h⟩ := h; cases h), fun h => ?_⟩, 
      fun l h => ⟨cplx, complexOf_same hc, ?_⟩⟩
    · exfalso
      have h6 := (complexOf_some (a.mem .x).type).1 ⟨cplx, hc⟩
      rcases h with h | h | h | h | h | h
      · exact h h1
      · exact h2 h
      · exact h3 h
      · exact h4 h
      · exact h5 h
      · exact h6 h
    · have e : a.cpuUses (a.mem .x).type cplx = l := by injection h
      subst e
      by_cases hn : 0 < a.n
      · rw [cpu_right a .cpu _ cplx hn]
        exact ⟨Or.inr, fun h => h.elim (fun h => by omega) id⟩
      · refine ⟨fun _ => Or.inl (by omega), fun _ => ?_⟩
        unfold Args.cpuUses
        rw [allRight_points]
        intro i h0 h1
        omega

/-- C123: a call on the GPU is refused exactly if there is an earlier error, a type is wrong,
an array that is not of type VOID is elsewhere, there is no CUDA support or no
point; otherwise its uses are right exactly if all arrays hold what it needs. -/
theorem C123_station_gpu (cuda : Bool) (a : Args) (st : Status)
    (hb : (a.mem .out).location = .gpu) :
    ((∃ e, stationCall cuda a st = .refused e) ↔ (st ≠ .success ∨ BadTypes a ∨
      (∃ w, (a.mem w).location ≠ .gpu ∧ (a.mem w).type ≠ .void) ∨ cuda = false ∨ a.n ≤ 0)) ∧
    (∀ l, stationCall cuda a st = .ran l → ∃ cplx, SamePrecision (a.mem .x).type cplx ∧
      (AllRight .gpu a.mem l ↔ Fits .gpu a true (a.mem .x).type cplx)) := by
  unfold stationCall
  rw [hb]
  by_cases h1 : st = .success
  swap
  · rw [if_pos h1]
    exact ⟨⟨fun _ => Or.inl h1, fun _ => ⟨_, rfl⟩⟩, fun l h => by cases h⟩
  rw [if_neg (not_not.2 h1)]
  by_cases h2 : (a.mem .weights).queryComplex = false
  · rw [if_pos h2]
    exact ⟨⟨fun _ => Or.inr (Or.inl (Or.inl h2)), fun _ => ⟨_, rfl⟩⟩, fun l h => by cases h⟩
  rw [if_neg h2]
  by_cases h3 : a.has .data = true ∧ (a.mem .data).queryComplex = false
  · rw [if_pos h3]
    exact ⟨⟨fun _ => Or.inr (Or.inl (Or.inr (Or.inl h3))), fun _ => ⟨_, rfl⟩⟩, fun l h => by cases h⟩
  rw [if_neg h3]
  by_cases h4 : a.has .index = true ∧ (a.mem .index).type ≠ .int
  · rw [if_pos h4]
    exact ⟨⟨fun _ => Or.inr (Or.inl (Or.inr (Or.inr (Or.inl h4)))), fun _ => ⟨_, rfl⟩⟩,
      fun l h => by cases h⟩
  rw [if_neg h4]
  by_cases h5 : (a.mem .out).queryComplex = false
  · rw [if_pos h5]
    exact ⟨⟨fun _ => Or.inr (Or.inl (Or.inr (Or.inr (Or.inr (Or.inl h5))))), fun _ => ⟨_, rfl⟩⟩,
      fun l h => by cases h⟩
  rw [if_neg h5]
  dsimp only
  cases hc : complexOf (a.mem .x).type with
  | none =>
    refine ⟨⟨fun _ => Or.inr (Or.inl (Or.inr (Or.inr (Or.inr (Or.inr ?_))))), fun _ => ⟨_, rfl⟩⟩,
      fun l h => by cases h⟩
    by_contra h
    obtain ⟨c, hc'⟩ := (complexOf_some _).2 h
    rw [hc] at hc'
    cases hc'
  | some cplx =>
    have h6 := (complexOf_some (a.mem .x).type).1 ⟨cplx, hc⟩
    have types : ¬ BadTypes a := by
      rintro (h | h | h | h | h)
      · exact h2 h
      · exact h3 h
      · exact h4 h
      · exact h5 h
      · exact h6 h
    have places : (buffers.all (fun w => gpuBuffer (a.mem w)) = false) ↔
        ∃ w, (a.mem w).location ≠ .gpu ∧ (a.mem w).type ≠ .void := by
      rw [List.all_eq_false]
      constructor
      · rintro ⟨w, _, h⟩
        refine ⟨w, ?_⟩
        unfold gpuBuffer at h
        rw [decide_eq_true_iff, not_or] at h
        exact h
      · rintro ⟨w, h⟩
        refine ⟨w, by cases w <;> decide, ?_⟩
        unfold gpuBuffer
        rw [decide_eq_true_iff, not_or]
        exact h
    dsimp only
    by_cases h7 : buffers.all (fun w => gpuBuffer (a.mem w)) = false
    · rw [if_pos h7]
      exact ⟨⟨fun _ => Or.inr (Or.inr (Or.inl (places.1 h7))), fun _ => ⟨_, rfl⟩⟩, fun l h => by cases h⟩
    rw [if_neg h7]
    by_cases h8 : cuda = false ∨ a.n ≤ 0
    · rw [if_pos h8]
      exact ⟨⟨fun _ => Or.inr (Or.inr (Or.inr h8)), fun _ => ⟨_, rfl⟩⟩, fun l h => by cases h⟩
    rw [if_neg h8]
    refine ⟨⟨fun h => (by obtain ⟨e, h⟩ := h; cases h), fun h => ?_⟩, 
      fun l h => ⟨cplx, complexOf_same hc, ?_⟩⟩
    · exfalso
      rcases h with h | h | h | h
      · exact h h1
      · exact types h
      · exact h7 (places.2 h)
      · exact h8 h
    · have e : a.gpuUses (a.mem .x).type cplx = l := by injection h
      subst e
      exact gpu_right a .gpu _ cplx (by have := not_or.1 h8; omega)

end Sdp.StationCall
