import Verif.Swiftly.Model
import Mathlib.Algebra.BigOperators.Ring.Finset
import Mathlib.Tactic.Linarith
import Mathlib.Data.Int.ModEq

/-! Facts about sizes, indices and loops of the SwiFTly model. -/

namespace Sdp.Swiftly
open Sdp.Fft
noncomputable section

/-- What an accepted configuration looks like: `image = s·t·m`, `yN = s·m`, `xM = t·m`. -/
theorem sizes {c : Cfg} (h : createCheck c = .success) :
    ∃ s t : Int, 0 < s ∧ 0 < t ∧ 0 < c.m ∧ c.image = s * t * c.m ∧ c.yN = s * c.m ∧
      c.xM = t * c.m ∧ c.image.tdiv c.xM = s ∧ c.image.tdiv c.yN = t ∧ 2 ∣ c.xM ∧ 2 ∣ c.yN := by
  unfold createCheck at h
  split at h; · simp at h
  split at h; · simp at h
  split at h; · simp at h
  split at h; · simp at h
  split at h; · simp at h
  split at h; · simp at h
  rename_i h0 h1 h2 h3 h4 h5
  push Not at h0 h1 h2 h3 h4 h5
  obtain ⟨hi, hx, hy⟩ := h0
  obtain ⟨s, hs⟩ := Int.dvd_of_tmod_eq_zero h1
  obtain ⟨t, ht⟩ := Int.dvd_of_tmod_eq_zero h2
  obtain ⟨m, hm⟩ := Int.dvd_of_tmod_eq_zero h3
  have hcm : c.m = m := by
    unfold Cfg.m; rw [hm]; exact Int.mul_tdiv_cancel_left _ (by omega)
  have hspos : 0 < s := by
    by_contra hh
    have : c.xM * s ≤ 0 := Int.mul_nonpos_of_nonneg_of_nonpos hx.le (by omega)
    omega
  have htpos : 0 < t := by
    by_contra hh
    have : c.yN * t ≤ 0 := Int.mul_nonpos_of_nonneg_of_nonpos hy.le (by omega)
    omega
  have hmpos : 0 < m := by
    by_contra hh
    have : c.image * m ≤ 0 := Int.mul_nonpos_of_nonneg_of_nonpos hi.le (by omega)
    have : 0 < c.xM * c.yN := Int.mul_pos hx hy
    omega
  have hxm : c.xM = t * m := by
    apply Int.eq_of_mul_eq_mul_right (a := c.yN) (by omega)
    rw [hm, ht]; ring
  have hym : c.yN = s * m := by
    apply Int.eq_of_mul_eq_mul_right (a := c.xM) (by omega)
    rw [mul_comm c.yN, hm, hs]; ring
  refine ⟨s, t, hspos, htpos, by omega, ?_, by rw [hcm]; exact hym, by rw [hcm]; exact hxm, ?_, ?_,
    Int.dvd_of_tmod_eq_zero h4, Int.dvd_of_tmod_eq_zero h5⟩
  · rw [hs, hxm, hcm]; ring
  · rw [hs]; exact Int.mul_tdiv_cancel_left _ (by omega)
  · rw [ht]; exact Int.mul_tdiv_cancel_left _ (by omega)

theorem m_pos {c : Cfg} (h : createCheck c = .success) : 0 < c.m := by
  obtain ⟨s, t, h⟩ := sizes h; exact h.2.2.1

theorem m_le_yN {c : Cfg} (h : createCheck c = .success) : c.m ≤ c.yN := by
  obtain ⟨s, t, hs, ht, hm, _, hy, _⟩ := sizes h
  rw [hy]; nlinarith

theorem m_le_xM {c : Cfg} (h : createCheck c = .success) : c.m ≤ c.xM := by
  obtain ⟨s, t, hs, ht, hm, _, _, hx, _⟩ := sizes h
  rw [hx]; nlinarith

theorem m_dvd_xM {c : Cfg} (h : createCheck c = .success) : c.m ∣ c.xM := by
  obtain ⟨s, t, hs, ht, hm, _, _, hx, _⟩ := sizes h
  rw [hx]; exact Dvd.intro_left _ rfl

theorem m_dvd_yN {c : Cfg} (h : createCheck c = .success) : c.m ∣ c.yN := by
  obtain ⟨s, t, hs, ht, hm, _, hy, _⟩ := sizes h
  rw [hy]; exact Dvd.intro_left _ rfl

/-- `mod_p` is the non-negative remainder. -/
theorem modP_eq (a : Int) {b : Int} (hb : 0 < b) : modP a b = a % b := by
  unfold modP
  have h1 := Int.tmod_eq_emod (a := a) (b := b)
  have h2 := Int.emod_nonneg a (b := b) (by omega)
  have h3 := Int.emod_lt_of_pos a hb
  rw [h1]
  by_cases h : 0 ≤ a ∨ b ∣ a
  · simp only [if_pos h, Nat.cast_zero, sub_zero]
    rw [if_pos h2]
  · simp only [if_neg h]
    have : (b.natAbs : Int) = b := by omega
    rw [this, if_neg (by omega)]
    omega

/-- Adding an index to a reduced offset and wrapping once. -/
theorem wrap {n : Int} (hn : 0 < n) (x i : Int) (h0 : 0 ≤ i) (h1 : i < n) :
    (if i < n - x % n then i + x % n else i + x % n - n) = (x + i) % n := by
  have h2 := Int.emod_nonneg x (b := n) (by omega)
  have h3 := Int.emod_lt_of_pos x hn
  have : (x + i) % n = (x % n + i) % n := by simp
  rw [this]
  split
  · have h4 : (x % n + i) % n = x % n + i := Int.emod_eq_of_lt (by omega) (by omega)
    omega
  · have h4 : (x % n + i - n) % n = x % n + i - n := Int.emod_eq_of_lt (by omega) (by omega)
    rw [Int.sub_emod_right] at h4
    omega

theorem tdiv_two_bounds {m : Int} (hm : 0 ≤ m) : m.tdiv 2 = m / 2 := Int.tdiv_eq_ediv_of_nonneg hm

/-- First sky position of the window around `subgridOffset`. -/
def winStart (c : Cfg) (subgridOffset : Int) : Int :=
  subgridOffset.tdiv (c.image.tdiv c.yN) - c.m.tdiv 2

/-- `facetIdx` maps the residue of a position in the window modulo `m` to its residue
modulo `yN`. -/
theorem facetIdx_eq {c : Cfg} (hc : createCheck c = .success) (o k : Int)
    (h0 : winStart c o ≤ k) (h1 : k < winStart c o + c.m) :
    facetIdx c o (k % c.m) = k % c.yN := by
  have hm := m_pos hc
  have hy := m_le_yN hc
  unfold facetIdx
  simp only
  set a := winStart c o with ha
  have hsg : o.tdiv (c.image.tdiv c.yN) = a + c.m.tdiv 2 := by rw [ha]; unfold winStart; ring
  rw [hsg, modP_eq _ hm, modP_eq _ (by omega), modP_eq _ (by omega)]
  have e1 : a + c.m.tdiv 2 - c.m.tdiv 2 = a := by ring
  have e2 : a + c.m.tdiv 2 - a % c.m - c.m.tdiv 2 = a - a % c.m := by ring
  rw [e1, e2]
  have ha1 := Int.mul_ediv_add_emod a c.m
  have hk1 := Int.mul_ediv_add_emod k c.m
  have ha2 := Int.emod_nonneg a (b := c.m) (by omega)
  have ha3 := Int.emod_lt_of_pos a hm
  have hk2 := Int.emod_nonneg k (b := c.m) (by omega)
  have hk3 := Int.emod_lt_of_pos k hm
  have hd : k / c.m = a / c.m ∨ k / c.m = a / c.m + 1 := by
    rcases lt_trichotomy (k / c.m) (a / c.m) with h | h | h
    · exfalso
      have : c.m * (k / c.m) ≤ c.m * (a / c.m - 1) := Int.mul_le_mul_of_nonneg_left (by omega) (by omega)
      rw [mul_sub, mul_one] at this
      omega
    · exact Or.inl h
    · by_cases h' : k / c.m = a / c.m + 1
      · exact Or.inr h'
      · exfalso
        have : c.m * (a / c.m + 2) ≤ c.m * (k / c.m) := Int.mul_le_mul_of_nonneg_left (by omega) (by omega)
        rw [mul_add] at this
        omega
  rcases hd with hd | hd
  · rw [hd] at hk1
    have hge : ¬ k % c.m < a % c.m := by omega
    rw [if_neg hge]
    have hw := wrap (n := c.yN) (by omega) (a - a % c.m) (k % c.m) hk2 (by omega)
    have ek : a - a % c.m + k % c.m = k := by omega
    rw [ek] at hw
    rw [← hw]
    have h2 := Int.emod_nonneg (a - a % c.m) (b := c.yN) (by omega)
    congr 1
    apply propext
    split <;> omega
  · rw [hd, mul_add, mul_one] at hk1
    have hlt : k % c.m < a % c.m := by omega
    rw [if_pos hlt]
    have hw := wrap (n := c.yN) (by omega) (a - a % c.m + c.m) (k % c.m) hk2 (by omega)
    have ek : a - a % c.m + c.m + k % c.m = k := by omega
    rw [ek] at hw
    rw [← hw]
    congr 1
    apply propext
    split <;> omega

/-- Every contribution index is the residue of one position in the window. -/
theorem window_surj {m : Int} (hm : 0 < m) (a i : Int) (h0 : 0 ≤ i) (h1 : i < m) :
    ∃ k, a ≤ k ∧ k < a + m ∧ k % m = i := by
  have h2 := Int.emod_nonneg (i - a) (b := m) (by omega)
  have h3 := Int.emod_lt_of_pos (i - a) hm
  refine ⟨a + (i - a) % m, by omega, by omega, ?_⟩
  rw [Int.add_emod_emod]
  rw [show a + (i - a) = i by ring, Int.emod_eq_of_lt h0 h1]

/-- Positions in a window of `m ≤ n` are determined by their residue modulo `n`. -/
theorem window_inj {m n a k l : Int} (hmn : m ≤ n) (hk : a ≤ k ∧ k < a + m)
    (hl : a ≤ l ∧ l < a + m) (h : k % n = l % n) : k = l := by
  have hd : n ∣ k - l := Int.ModEq.dvd (Eq.symm h : l ≡ k [ZMOD n])
  obtain ⟨q, hq⟩ := hd
  rcases lt_trichotomy q 0 with hq0 | hq0 | hq0
  · have : n * q ≤ n * (-1) := Int.mul_le_mul_of_nonneg_left (by omega) (by omega)
    omega
  · rw [hq0] at hq; omega
  · have : n * 1 ≤ n * q := Int.mul_le_mul_of_nonneg_left (by omega) (by omega)
    omega

end
end Sdp.Swiftly
