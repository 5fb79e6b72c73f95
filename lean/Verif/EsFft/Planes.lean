import Mathlib.Algebra.Order.Field.Rat
import Mathlib.Tactic.FieldSimp
import Mathlib.Tactic.Linarith
import Mathlib.Tactic.Positivity
import Mathlib.Tactic.Ring
import Verif.EsFft.Model

/-!
# C71: the w planes of the ES gridder
-/

set_option linter.unusedSectionVars false

namespace Sdp.EsFft

variable {K : Type} [Field K] [LinearOrder K] [IsStrictOrderedRing K] [FloorRing K]

/-- w of plane `p`. -/
def planeW (r : WPlanes K) (p : Int) : K := p / r.scale + r.minPlane

/-- **C71 (partial).**  For a range `lo < hi` and a field of view that is not empty, the w planes
are equally spaced, less than a quarter cycle (and 1e-13) apart at the corner of the image; every
plane that is nearer than half a kernel to a w value in the range exists; and `maxPlane` is
the last plane, but for the 1e-13. -/
theorem C71_planes_partial (nmin : K) (support : Nat) (lo hi : K) (hn : nmin ≠ 0) (h : lo < hi) :
    ∃ r, wPlanes nmin support lo hi = some r ∧ 0 < r.scale ∧
      (1 / r.scale) * |nmin| < (1 + 1 / 10 ^ 13) / 4 ∧
      (∀ p : Int, planeW r (p + 1) - planeW r p = 1 / r.scale) ∧
      (∀ w, lo ≤ w → w ≤ hi → ∀ p : Int,
        |planeW r p - w| < (support : K) / 2 * (1 / r.scale) → 0 ≤ p ∧ p < r.num) ∧
      (∀ w, lo ≤ w → w ≤ hi →
        (support : K) / 2 - 1 ≤ (w - r.minPlane) * r.scale ∧
        (w - r.minPlane) * r.scale < r.num - (support : K) / 2) ∧
      planeW r (r.num - 1) = r.maxPlane + 1 / 10 ^ 13 * (hi - lo) := by
  have hd : 0 < hi - lo := by linarith
  have hnn : 0 < |nmin| := abs_pos.2 hn
  have hs0 : (0 : K) < 1 / 4 / |nmin| := by positivity
  have hx : 0 < (hi - lo) / (1 / 4 / |nmin|) := by positivity
  have hfl : (2 : Int) ≤ ⌊(hi - lo) / (1 / 4 / |nmin|) + 2⌋ := by
    apply Int.le_floor.2; push_cast; linarith
  have hlt := Int.lt_floor_add_one ((hi - lo) / (1 / 4 / |nmin|) + 2)
  unfold wPlanes
  have hne : ¬ (nmin = 0 ∨ hi = lo) := by
    rintro (h1 | h1)
    · exact hn h1
    · linarith
  rw [if_neg hne]
  simp only
  rw [if_pos (show 0 ≤ (hi - lo) / (1 / 4 / |nmin|) + 2 by linarith)]
  generalize hN : ⌊(hi - lo) / (1 / 4 / |nmin|) + 2⌋ = N at *
  rw [if_neg (by omega)]
  have hN1 : (1 : K) ≤ ((N - 1 : Int) : K) := by
    have : (1 : Int) ≤ N - 1 := by omega
    exact_mod_cast this
  have hNpos : (0 : K) < ((N - 1 : Int) : K) := by linarith
  have hNr : ((N - 1 : Int) : K) = (N : K) - 1 := by push_cast; ring
  have he : (0 : K) < 1 / 10 ^ 13 := by positivity
  generalize (1 : K) / 10 ^ 13 = e at *
  have hsc : (0 : K) < 1 / ((1 + e) * (hi - lo) / ((N - 1 : Int) : K)) := by positivity
  have hinv : 1 / (1 / ((1 + e) * (hi - lo) / ((N - 1 : Int) : K))) =
      (1 + e) * (hi - lo) / ((N - 1 : Int) : K) := by rw [one_div_one_div]
  have hsd : 1 / ((1 + e) * (hi - lo) / ((N - 1 : Int) : K)) * (hi - lo) <
      ((N - 1 : Int) : K) := by
    have : 1 / ((1 + e) * (hi - lo) / ((N - 1 : Int) : K)) * (hi - lo) =
        ((N - 1 : Int) : K) / (1 + e) := by
      field_simp
    rw [this, div_lt_iff₀ (by linarith)]
    nlinarith
  generalize hS : 1 / ((1 + e) * (hi - lo) / ((N - 1 : Int) : K)) = S at *
  have pos : ∀ w, lo ≤ w → w ≤ hi →
        (support : K) / 2 - 1 ≤ (w - (lo - (1 / 2 * support - 1) / S)) * S ∧
        (w - (lo - (1 / 2 * support - 1) / S)) * S <
          ((N + support - 2 : Int) : K) - (support : K) / 2 := by
    intro w h1 h2
    have e1 : (w - (lo - (1 / 2 * (support : K) - 1) / S)) * S = (w - lo) * S + (support / 2 - 1) := by
      field_simp; ring
    rw [e1]
    have a1 : 0 ≤ (w - lo) * S := mul_nonneg (by linarith) hsc.le
    have a2 : (w - lo) * S ≤ (hi - lo) * S := mul_le_mul_of_nonneg_right (by linarith) hsc.le
    have a3 : S * (hi - lo) = (hi - lo) * S := mul_comm _ _
    refine ⟨by linarith, ?_⟩
    push_cast
    linarith
  refine ⟨_, rfl, hsc, ?_, ?_, ?_, pos, ?_⟩
  · simp only
    rw [hinv, div_mul_eq_mul_div, div_lt_iff₀ hNpos]
    have h3 : (hi - lo) / (1 / 4 / |nmin|) = 4 * ((hi - lo) * |nmin|) := by field_simp
    rw [h3] at hlt
    have h4 : (hi - lo) * |nmin| < ((N - 1 : Int) : K) / 4 := by linarith
    have : (1 + e) * (hi - lo) * |nmin| = (1 + e) * ((hi - lo) * |nmin|) := by ring
    rw [this]
    have h5 := mul_lt_mul_of_pos_left h4 (show (0 : K) < 1 + e by linarith)
    linarith [h5]
  · intro p
    unfold planeW
    push_cast
    ring
  · intro w h1 h2 p hp
    obtain ⟨b1, b2⟩ := pos w h1 h2
    unfold planeW at hp
    simp only at hp
    rw [abs_lt] at hp
    have c1 := mul_lt_mul_of_pos_right hp.1 hsc
    have c2 := mul_lt_mul_of_pos_right hp.2 hsc
    have d1 : ((p : K) / S + (lo - (1 / 2 * (support : K) - 1) / S) - w) * S =
        p - (w - (lo - (1 / 2 * support - 1) / S)) * S := by field_simp; ring
    have d2 : -((support : K) / 2 * (1 / S)) * S = -(support / 2) := by field_simp
    have d3 : ((support : K) / 2 * (1 / S)) * S = support / 2 := by field_simp
    rw [d1, d2] at c1
    rw [d1, d3] at c2
    constructor
    · have : (-1 : K) < (p : K) := by linarith
      have : (-1 : Int) < p := by exact_mod_cast this
      omega
    · have : (p : K) < ((N + support - 2 : Int) : K) := by linarith
      exact_mod_cast this
  · unfold planeW
    simp only
    have e1 : ((N - 1 : Int) : K) / S = (1 + e) * (hi - lo) := by
      rw [← hS]; field_simp
    have e2 : (((N + support - 2 - 1 : Int)) : K) / S =
        ((N - 1 : Int) : K) / S + 2 * ((1 / 2 * (support : K) - 1) / S) := by
      push_cast; field_simp; ring
    rw [e2, e1]
    ring

/-- **C71 fails for one value of |w|.**  If all |w| agree (snapshot of coplanar baselines, or one
visibility), the plane spacing is a division by zero. -/
theorem C71_equal_false (nmin : K) (support : Nat) (w : K) : wPlanes nmin support w w = none := by
  unfold wPlanes
  rw [if_pos (Or.inr rfl)]

/-- **C71 fails at the edge of the kernel.**  For `w = lo` there is a plane at exactly half a kernel,
where the kernel is not zero, that does not exist. -/
theorem C71_edge_false (nmin : K) (support : Nat) (lo hi : K) (r : WPlanes K)
    (h : wPlanes nmin support lo hi = some r) (hs : r.scale ≠ 0) :
    |planeW r (-1) - lo| = (support : K) / 2 * |1 / r.scale| := by
  unfold wPlanes at h
  by_cases h1 : nmin = 0 ∨ hi = lo
  · rw [if_pos h1] at h; cases h
  rw [if_neg h1] at h
  simp only at h
  generalize (if 0 ≤ (hi - lo) / (1 / 4 / |nmin|) + 2 then ⌊(hi - lo) / (1 / 4 / |nmin|) + 2⌋
    else ⌈(hi - lo) / (1 / 4 / |nmin|) + 2⌉) = N at h
  by_cases h2 : N = 1
  · rw [if_pos h2] at h; cases h
  rw [if_neg h2] at h
  cases h
  unfold planeW
  simp only at hs ⊢
  generalize (1 : K) / _ = S at *
  have : (((-1 : Int) : K) / S + (lo - (1 / 2 * (support : K) - 1) / S) - lo) =
      -((support : K) / 2 * (1 / S)) := by
    push_cast; field_simp; ring
  rw [this, abs_neg, abs_mul, abs_of_nonneg (show (0 : K) ≤ support / 2 by positivity)]

/-- Non-vacuity of C71: 5 planes and a kernel of 8. -/
example : (wPlanes (-1 / 2 : ℚ) 8 10 (10 + 3 / 2)).map (fun r => r.num) = some 11 := by
  decide +kernel

theorem wstep (s : K × K) (w : K) :
    (let s1 : K × K := if w < s.1 then (w, s.2) else s
     if w > s1.2 then (s1.1, w) else s1) = (min s.1 w, max s.2 w) := by
  obtain ⟨a, b⟩ := s
  simp only
  by_cases h1 : w < a
  · rw [if_pos h1]
    by_cases h2 : w > b
    · rw [if_pos h2, min_eq_right h1.le, max_eq_right (le_of_lt h2)]
    · rw [if_neg h2, min_eq_right h1.le, max_eq_left (not_lt.1 h2)]
  · rw [if_neg h1]
    by_cases h2 : w > b
    · rw [if_pos h2, min_eq_left (not_lt.1 h1), max_eq_right (le_of_lt h2)]
    · rw [if_neg h2, min_eq_left (not_lt.1 h1), max_eq_left (not_lt.1 h2)]

/-- **C71: the range of |w|.**  `getWRange` with the usual starting values (`lo` at least, `hi` at
most every |w|): for frequencies between the first and the last channel the range covers every
visibility. -/
theorem C71_range_partial (c0 : K) (hc : 0 < c0) (rows chans : Nat) (uvw freq : Arr K) (lo hi : K)
    (hu : uvw.size = 3 * rows) (hf : freq.size = chans) (hch : 0 < chans) (hlo : 0 ≤ lo)
    (hpos : ∀ c, c < chans → 0 ≤ freq.get c)
    (hasc : ∀ c, c < chans → freq.get 0 ≤ freq.get c ∧ freq.get c ≤ freq.get (chans - 1)) :
    ∃ r, wRange c0 rows chans uvw freq lo hi = some r ∧
      ∀ i c, i < rows → c < chans →
        r.1 ≤ |uvw.get (3 * i + 2)| * (freq.get c / c0) ∧
        |uvw.get (3 * i + 2)| * (freq.get c / c0) ≤ r.2 := by
  have key : ∀ n, n ≤ rows → ∃ s : K × K,
      loop (fun (s : K × K) (i : Nat) => (uvw.read ((3 * i + 2 : Nat) : Int)).map fun w =>
        let s1 : K × K := if |w| < s.1 then (|w|, s.2) else s
        if |w| > s1.2 then (s1.1, |w|) else s1) (lo, hi) (List.range n) = some s ∧ 0 ≤ s.1 ∧
      ∀ i, i < n → s.1 ≤ |uvw.get (3 * i + 2)| ∧ |uvw.get (3 * i + 2)| ≤ s.2 := by
    intro n
    induction n with
    | zero => intro _; exact ⟨_, rfl, hlo, by intro i hi; omega⟩
    | succ n ih =>
      intro hn
      obtain ⟨s, s1, s0, s2⟩ := ih (by omega)
      rw [List.range_succ, loop_append, s1]
      simp only [Option.bind_some, loop]
      rw [Arr.read_nat, if_pos (by omega)]
      simp only [Option.map_some, Option.bind_some]
      generalize hw : |uvw.get (3 * n + 2)| = w at *
      have hw0 : 0 ≤ w := hw ▸ abs_nonneg _
      refine ⟨(min s.1 w, max s.2 w), congrArg some (wstep s w), le_min s0 hw0, ?_⟩
      · intro i hi
        rcases Nat.lt_succ_iff_lt_or_eq.1 hi with hi | hi
        · obtain ⟨a, b⟩ := s2 i hi
          exact ⟨le_trans (min_le_left _ _) a, le_trans b (le_max_left _ _)⟩
        · subst hi
          rw [hw]
          exact ⟨min_le_right _ _, le_max_right _ _⟩
  obtain ⟨s, s1, s0, s2⟩ := key rows le_rfl
  unfold wRange
  rw [s1, Option.bind_some, show (0 : Int) = ((0 : Nat) : Int) by rfl, Arr.read_nat,
    if_pos (by omega), Option.bind_some, show (chans : Int) - 1 = ((chans - 1 : Nat) : Int) by omega,
    Arr.read_nat, if_pos (by omega)]
  refine ⟨_, rfl, fun i c hi hcc => ?_⟩
  obtain ⟨a, b⟩ := s2 i hi
  obtain ⟨d, e⟩ := hasc c hcc
  have f0 := hpos 0 hch
  have fc := hpos c hcc
  constructor
  · exact mul_le_mul a ((div_le_div_iff_of_pos_right hc).2 d) (div_nonneg f0 hc.le) (le_trans s0 a)
  · exact mul_le_mul b ((div_le_div_iff_of_pos_right hc).2 e) (div_nonneg fc hc.le)
      (le_trans (abs_nonneg _) b)

/-- **C71 fails for frequencies in descending order**: the range is then too narrow, or even
empty. -/
theorem C71_descending_false :
    wRange (1 : ℚ) 2 2 ⟨6, fun i => if i = 2 then 4 else 5⟩ ⟨2, fun i => if i = 0 then 3 else 1⟩
      (10 ^ 19) (-1) = some (12, 5) := by
  decide +kernel

/-- **C71 fails without channels**: a frequency before the start of the array is read. -/
theorem C71_no_channel_false (c0 : K) (uvw freq : Arr K) (lo hi : K) :
    wRange c0 0 0 uvw freq lo hi = none := by
  unfold wRange
  simp only [List.range_zero, loop, Option.bind_some]
  cases freq.read 0 with
  | none => rfl
  | some f =>
    simp only [Option.bind_some]
    unfold Arr.read
    rw [if_neg (by simp)]
    rfl

/-- Non-vacuity of the range theorem. -/
example : wRange (1 : ℚ) 2 2 ⟨6, fun i => if i = 2 then -4 else 5⟩ ⟨2, fun i => if i = 0 then 1 else 3⟩
      (10 ^ 19) (-1) = some (4, 15) := by
  decide +kernel

end Sdp.EsFft
