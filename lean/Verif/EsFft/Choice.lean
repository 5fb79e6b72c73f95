import Verif.EsFft.Props

/-!
# C70: when the choice of the kernel is right, and when not
-/

set_option linter.unusedSectionVars false

namespace Sdp.EsFft
open Sdp.Sizes (Smooth)

theorem row_unique {i : Nat} {r r' : Row} (h : rowAt kernelDB i = some r) (h' : rowAt kernelDB i = some r') :
    r = r' := by
  rw [h] at h'; exact Option.some.inj h'

theorem row_lt {i : Nat} {r : Row} (h : rowAt kernelDB i = some r) : i < 244 := by
  by_contra hh
  have : rowAt kernelDB i = none := by
    unfold rowAt
    rw [Array.getElem?_eq_none_iff]
    have : kernelDB.size = 244 := by decide +kernel
    omega
  rw [this] at h
  cases h

/-- A check of all rows of the table. -/
theorem all_rows (P : Row → Bool) (h : kernelDB.toList.all P = true) {i : Nat} {r : Row}
    (hr : rowAt kernelDB i = some r) : P r = true := by
  rw [List.all_eq_true] at h
  apply h
  unfold rowAt at hr
  rw [← Array.getElem?_toList] at hr
  exact List.mem_of_getElem? hr

/-- **C70 in double precision.**  For every accuracy down to that of the last row of the table
(5.06e-15) the parameters returned are those of a row that has at least the accuracy asked for. -/
theorem C70_double (eps : ℚ) (image : Nat) (p : Params) (he : 50563492 / 10 ^ 22 ≤ eps)
    (h : chooseParams eps image true = some p) :
    ∃ i r, rowAt kernelDB i = some r ∧ p.support = r.support ∧ p.beta = r.beta ∧ r.eps ≤ eps ∧
      p.support ≤ 16 ∧ IsGrid image r.os p.gridSize := by
  obtain ⟨i, r, h1, h2, h3, h4, h5, _⟩ := C70_choice_partial eps image true p h
  refine ⟨i, r, h1, h2, h3, ?_, ?_, h5⟩
  · rcases h4 with h4 | h4
    · exact h4.2.1
    · rw [h4]; exact he
  · obtain ⟨r', r1, _, r3, _⟩ := db_facts ⟨i, row_lt h1⟩
    rw [row_unique h1 r1] at h2
    omega

theorem smooth_40000 : Smooth 40000 := by
  intro p hp hd
  rw [show 40000 = 2 ^ 6 * 5 ^ 4 by norm_num] at hd
  rcases (Nat.Prime.dvd_mul hp).1 hd with h | h
  · have := Nat.le_of_dvd (by norm_num) (hp.dvd_of_dvd_pow h); omega
  · have := Nat.le_of_dvd (by norm_num) (hp.dvd_of_dvd_pow h); omega

/-- **C70: when parameters are returned.**  For images of up to 39999 pixels a side, always. -/
theorem C70_defined (eps : ℚ) (image : Nat) (double : Bool) (hi : image ≤ 39999) :
    ∃ p, chooseParams eps image double = some p ∧ p.gridSize ≤ 80000 := by
  obtain ⟨b, row, g, hb, hrow, hg, hc⟩ := choose_full eps image double
  rcases hc with ⟨_, h⟩ | ⟨i, _, h, h80, _⟩
  · exfalso
    have h19 : row 19 = lastRow := by
      rcases hb.2.2 19 (by omega) with ⟨h, _⟩ | ⟨r, h1, h2, h3, _⟩
      · have := hrow 19 (by omega)
        rw [h] at this
        exact row_unique this db_last
      · obtain ⟨r', r1, _, r3, _⟩ := db_facts ⟨_, h1⟩
        rw [row_unique h2 r1] at h3
        omega
    have h1 := h 19 (by omega)
    obtain ⟨m, hm, hl⟩ := (hg 19 (by omega)).2
    rw [h19] at hl
    have : m ≤ 40000 := hl.2 ⟨smooth_40000, by
      have : (image : ℚ) * lastRow.os * (1 / 2) = ((image : Int) : ℚ) := by
        show (image : ℚ) * 2 * (1 / 2) = _
        push_cast; ring
      rw [this, Int.floor_intCast]
      omega⟩
    omega
  · exact ⟨_, h, h80⟩

/-- **C70 fails for large images.**  For an image of 69566 pixels or more a side the table is read
past its end, whatever the accuracy. -/
theorem C70_large_false (eps : ℚ) (image : Nat) (double : Bool) (hi : 69566 ≤ image) :
    chooseParams eps image double = none := by
  obtain ⟨b, row, g, hb, hrow, hg, hc⟩ := choose_full eps image double
  rcases hc with ⟨h, _⟩ | ⟨i, hi20, _, h80, _⟩
  · exact h
  · exfalso
    obtain ⟨m, hm, hl⟩ := (hg i hi20).2
    obtain ⟨r, r1, _, _, r4, _⟩ := db_facts ⟨_, row_lt (hrow i hi20)⟩
    rw [← row_unique (hrow i hi20) r1] at r4
    have h1 := hl.1.2
    have h2 : (40000 : Int) ≤ ⌊(image : ℚ) * (row i).os * (1 / 2)⌋ := by
      apply Int.le_floor.2
      have a : (69566 : ℚ) ≤ image := by exact_mod_cast hi
      have b : (69566 : ℚ) * (23 / 20) ≤ image * (row i).os := mul_le_mul a r4 (by norm_num) (by positivity)
      push_cast
      linarith
    omega

/-- **C70 fails for accuracies that cannot be met.**  No row of the table is more accurate than
2.2e-15; for smaller values the last row is used and no error is reported. -/
theorem C70_unmet_false (eps : ℚ) (image : Nat) (double : Bool) (he : eps < 2 / 10 ^ 15) :
    (∀ i r, rowAt kernelDB i = some r → eps < r.eps) ∧
    ∀ p, chooseParams eps image double = some p → p.support = 16 ∧ p.beta = lastRow.beta := by
  have key : ∀ i r, rowAt kernelDB i = some r → eps < r.eps := by
    intro i r hr
    have := all_rows (fun r => decide (2 / 10 ^ 15 ≤ r.eps)) (by decide +kernel) hr
    exact lt_of_lt_of_le he (of_decide_eq_true this)
  refine ⟨key, fun p hp => ?_⟩
  obtain ⟨i, r, h1, h2, h3, h4, _⟩ := C70_choice_partial eps image double p hp
  rcases h4 with h4 | h4
  · exact absurd h4.2.1 (not_le.2 (key i r h1))
  · rw [h2, h3, h4]; exact ⟨rfl, rfl⟩

/-- **C70 fails in single precision.**  The support is meant to be at most 8, but for every
accuracy below 1.017e-7 and every image the last row of the table, of support 16, is used: it
stands in for the supports without a usable row, and has a smaller or equal grid. -/
theorem C70_single_false (eps : ℚ) (image : Nat) (he : eps < 50855 / 500000000000)
    (p : Params) (h : chooseParams eps image false = some p) : p.support = 16 := by
  obtain ⟨b, row, g, hb, hrow, hg, hc⟩ := choose_full eps image false
  rcases hc with ⟨hc, _⟩ | ⟨i, hi, hc, _, hmin, hlast⟩
  · rw [hc] at h; cases h
  rw [hc] at h
  cases h
  have h19 : row 19 = lastRow := by
    rcases hb.2.2 19 (by omega) with ⟨h, _⟩ | ⟨r, h1, h2, h3, _⟩
    · have := hrow 19 (by omega)
      rw [h] at this
      exact row_unique this db_last
    · obtain ⟨r', r1, _, r3, _⟩ := db_facts ⟨_, h1⟩
      rw [row_unique h2 r1] at h3
      omega
  by_cases hi19 : i = 19
  · subst hi19; rw [h19]; rfl
  · have hlt := hlast 19 (by omega) (by omega)
    have hos : (2 : ℚ) ≤ (row i).os := by
      rcases hb.2.2 i hi with ⟨h, _⟩ | ⟨r, _, h2, _, _, ⟨m1, m2, m3⟩, _⟩
      · have := hrow i hi
        rw [h] at this
        rw [row_unique this db_last]
        exact le_rfl
      · have hr := row_unique (hrow i hi) h2
        have := all_rows (fun r => decide (r.support ≤ 8 → r.eps < 50855 / 500000000000 → 2 ≤ r.os))
          (by decide +kernel) h2
        have := of_decide_eq_true this
        rw [hr]
        exact this m1 (lt_of_le_of_lt m2 he)
    have := isGrid_mono (show lastRow.os ≤ (row i).os from hos) (by
      have := (hg 19 (by omega)).2; rw [h19] at this; exact this) (hg i hi).2
    omega

/-- Non-vacuity: a usual request, one that cannot be met, and one that is refused by crashing. -/
example : (∃ p, chooseParams (1 / 10 ^ 5) 1024 true = some p ∧ p.gridSize ≤ 80000) ∧
    (∃ p, chooseParams (1 / 10 ^ 16) 1024 true = some p ∧ p.support = 16) ∧
    (∃ p, chooseParams (1 / 10 ^ 7) 1024 false = some p ∧ p.support = 16) ∧
    chooseParams (1 / 10 ^ 5) 100000 true = none := by
  refine ⟨C70_defined _ _ _ (by norm_num), ?_, ?_, C70_large_false _ _ _ (by norm_num)⟩
  · obtain ⟨p, hp, _⟩ := C70_defined (1 / 10 ^ 16) 1024 true (by norm_num)
    exact ⟨p, hp, ((C70_unmet_false _ _ _ (by norm_num)).2 p hp).1⟩
  · obtain ⟨p, hp, _⟩ := C70_defined (1 / 10 ^ 7) 1024 false (by norm_num)
    exact ⟨p, hp, C70_single_false _ _ (by norm_num) p hp⟩

end Sdp.EsFft
