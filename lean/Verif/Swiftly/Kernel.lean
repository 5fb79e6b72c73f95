import Mathlib.Tactic.LinearCombination
import Verif.Swiftly.TwoD

/-!
# C102: how well sampled windows interpolate

Sums over roots of unity: what facets of window `p` with `s * m` samples, subgrids of `t * m` samples and contributions of
`m` samples give for a point source, compared with the exact phase.
-/

namespace Sdp.Swiftly
open Finset Sdp.Fft
noncomputable section

theorem root_scale (a n : Nat) (ha : 0 < a) (z : Int) : root (a * n) (a * z) = root n z := by
  unfold root
  congr 1
  have : (a : ℂ) ≠ 0 := by exact_mod_cast ha.ne'
  rcases Nat.eq_zero_or_pos n with rfl | hn
  · simp
  · have : (n : ℂ) ≠ 0 := by exact_mod_cast hn.ne'
    push_cast
    field_simp

theorem root_norm (n : Nat) (z : Int) : ‖root n z‖ = 1 := by
  unfold root
  rw [show (2 * Real.pi * Complex.I * (z / n) : ℂ) = ((2 * Real.pi * (z / n) : ℝ) : ℂ) * Complex.I by push_cast; ring]
  exact Complex.norm_exp_ofReal_mul_I _

theorem root_conj (n : Nat) (z : Int) : (starRingEnd ℂ) (root n z) = root n (-z) := by
  unfold root
  rw [← Complex.exp_conj]
  congr 1
  simp only [map_mul, map_div₀, map_ofNat, Complex.conj_ofReal, Complex.conj_I, map_intCast, map_natCast]
  push_cast
  ring

/-- Fourier coefficient of the window at grid distance `nu`, for an image of `N` pixels. -/
def spectrum (N n : Nat) (p : Nat → ℝ) (nu : Int) : ℂ :=
  1 / (n : ℂ) * ∑ j ∈ range n, (p j : ℂ) * root N (-(nu * (j - (n / 2 : Nat))))

/-- What a facet contributes to grid point `u` for a source of flux 1 at pixel `x`, before the correction: the window sampled
with step `s` around `s * f`, and the Fourier sum over the `m` grid points `t * k0`, `t * (k0 + 1)`, ... -/
def interp (s t m : Nat) (p : Nat → ℝ) (f k0 x u : Int) : ℂ :=
  1 / ((t * m : Nat) * (s * m : Nat) : ℂ) * ∑ i ∈ range m, (p (s * i) : ℂ) * root (t * m) ((f - (m / 2 : Nat) + i) * u) *
    ∑ d ∈ range m, root (s * m) ((k0 + d) * (x - s * (f - (m / 2 : Nat) + i)))

section
variable (s t m : Nat) (hs : 0 < s) (ht : 0 < t) (hm : 0 < m) (p : Nat → ℝ)
include hs ht hm

/-- The window is the sum of its Fourier coefficients at the grid points `t * k - u`. -/
theorem window_eq (k0 u : Int) (l : Nat) (hl : l < s * m) :
    (p l : ℂ) = ∑ d ∈ range (s * m), spectrum (s * t * m) (s * m) p (t * (k0 + d) - u) *
      root (s * t * m) ((t * (k0 + d) - u) * (l - (s * m / 2 : Nat))) := by
  have hn : 0 < s * m := Nat.mul_pos hs hm
  have hn' : ((s * m : Nat) : ℂ) ≠ 0 := by exact_mod_cast hn.ne'
  have e : ∀ d ∈ range (s * m), spectrum (s * t * m) (s * m) p (t * (k0 + d) - u) *
      root (s * t * m) ((t * (k0 + d) - u) * (l - (s * m / 2 : Nat))) =
      ∑ j ∈ range (s * m), 1 / ((s * m : Nat) : ℂ) * ((p j : ℂ) * root (s * t * m) (-(u * ((l : Int) - j))) *
        root (s * m) (k0 * ((l : Int) - j))) * root (s * m) (d * ((l : Int) - j)) := by
    intro d _
    unfold spectrum
    rw [mul_assoc, sum_mul, mul_sum]
    refine sum_congr rfl fun j _ => ?_
    have h1 : ∀ z, root (s * m) z = root (s * t * m) (t * z) := fun z => by
      rw [← root_scale t (s * m) ht, show t * (s * m) = s * t * m by ring]
    rw [h1, h1]
    have h2 : root (s * t * m) (-((t * (k0 + d) - u) * (j - (s * m / 2 : Nat)))) *
        root (s * t * m) ((t * (k0 + d) - u) * (l - (s * m / 2 : Nat))) =
        root (s * t * m) (-(u * ((l : Int) - j))) * root (s * t * m) (t * (k0 * ((l : Int) - j))) *
          root (s * t * m) (t * (d * ((l : Int) - j))) := by
      rw [← root_add, ← root_add, ← root_add]
      congr 1
      ring
    linear_combination (1 / ((s * m : Nat) : ℂ) * (p j : ℂ)) * h2
  rw [sum_congr rfl e, sum_comm]
  simp only [← mul_sum]
  rw [sum_eq_single_of_mem l (mem_range.2 hl)]
  · rw [root_sum hn]
    simp only [sub_self, dvd_zero, if_true, mul_zero, neg_zero, root_zero, mul_one]
    field_simp
  · intro j hj hne
    rw [mem_range] at hj
    rw [root_sum hn, if_neg, mul_zero]
    intro hd
    have := Int.eq_zero_of_abs_lt_dvd hd (by rw [abs_lt]; constructor <;> omega)
    omega

/-- Sum over a period of roots of unity. -/
theorem root_sum_shift (a b : Int) (e : Int) :
    ∑ i ∈ range m, root m (e * (a + i - b)) = if (m : Int) ∣ e then (m : ℂ) else 0 := by
  have : ∀ i ∈ range m, root m (e * (a + i - b)) = root m (e * (a - b)) * root m (i * e) := by
    intro i _
    rw [← root_add]
    congr 1
    ring
  rw [sum_congr rfl this, ← mul_sum, root_sum hm]
  split_ifs with h
  · rw [(root_eq_one_iff hm _).2 (Dvd.dvd.mul_right h _), one_mul]
  · rw [mul_zero]

/-- The contribution in terms of the Fourier coefficients of the window: that of grid point `t * (k0 + d)` enters with the
phase of the point congruent to it within the `m` extracted points. -/
theorem interp_eq (he : m % 2 = 0) (f k0 x u : Int) :
    interp s t m p f k0 x u = 1 / ((s * t * m : Nat) : ℂ) * (root (s * t * m) (s * f * u) *
      ∑ d ∈ range (s * m), spectrum (s * t * m) (s * m) p (t * (k0 + d) - u) *
        root (s * t * m) (t * (k0 + (d % m : Nat)) * (x - s * f))) := by
  have hn : 0 < s * m := Nat.mul_pos hs hm
  have half : s * m / 2 = s * (m / 2) := by
    obtain ⟨q, hq⟩ : 2 ∣ m := Nat.dvd_of_mod_eq_zero he
    rw [hq, show s * (2 * q) = 2 * (s * q) by ring, Nat.mul_div_cancel_left _ two_pos, Nat.mul_div_cancel_left _ two_pos]
  have e : ∀ i ∈ range m, (p (s * i) : ℂ) * root (t * m) ((f - (m / 2 : Nat) + i) * u) *
      (∑ d ∈ range m, root (s * m) ((k0 + d) * (x - s * (f - (m / 2 : Nat) + i)))) =
      ∑ d ∈ range (s * m), ∑ d' ∈ range m, root (s * t * m) (s * f * u) * spectrum (s * t * m) (s * m) p (t * (k0 + d) - u) *
        root (s * t * m) (t * (k0 + d') * (x - s * f)) * root m ((d - d' : Int) * (0 + i - (m / 2 : Nat))) := by
    intro i hi
    rw [mem_range] at hi
    rw [window_eq s t m hs ht hm p k0 u (s * i) (Nat.mul_lt_mul_of_pos_left hi hs), sum_mul, sum_mul]
    refine sum_congr rfl fun d _ => ?_
    rw [mul_sum]
    refine sum_congr rfl fun d' _ => ?_
    have h1 : ∀ z, root (s * m) z = root (s * t * m) (t * z) := fun z => by
      rw [← root_scale t (s * m) ht, show t * (s * m) = s * t * m by ring]
    have h2 : ∀ z, root (t * m) z = root (s * t * m) (s * z) := fun z => by
      rw [← root_scale s (t * m) hs, show s * (t * m) = s * t * m by ring]
    have h3 : ∀ z, root m z = root (s * t * m) ((s * t : Nat) * z) := fun z => by
      rw [← root_scale (s * t) m (Nat.mul_pos hs ht)]
    rw [half, h1, h2, h3]
    have h4 : root (s * t * m) ((t * (k0 + d) - u) * ((s * i : Nat) - (s * (m / 2) : Nat))) *
        root (s * t * m) (s * ((f - (m / 2 : Nat) + i) * u)) *
        root (s * t * m) (t * ((k0 + d') * (x - s * (f - (m / 2 : Nat) + i)))) =
        root (s * t * m) (s * f * u) * root (s * t * m) (t * (k0 + d') * (x - s * f)) *
          root (s * t * m) ((s * t : Nat) * ((d - d' : Int) * (0 + i - (m / 2 : Nat)))) := by
      rw [← root_add, ← root_add, ← root_add, ← root_add]
      congr 1
      push_cast
      ring
    linear_combination (spectrum (s * t * m) (s * m) p (t * (k0 + d) - u)) * h4
  unfold interp
  rw [sum_congr rfl e, sum_comm]
  have e2 : ∀ d ∈ range (s * m), ∑ i ∈ range m, ∑ d' ∈ range m, root (s * t * m) (s * f * u) *
      spectrum (s * t * m) (s * m) p (t * (k0 + d) - u) * root (s * t * m) (t * (k0 + d') * (x - s * f)) *
        root m ((d - d' : Int) * (0 + i - (m / 2 : Nat))) =
      (m : ℂ) * (root (s * t * m) (s * f * u) * (spectrum (s * t * m) (s * m) p (t * (k0 + d) - u) *
        root (s * t * m) (t * (k0 + (d % m : Nat)) * (x - s * f)))) := by
    intro d _
    rw [sum_comm]
    simp only [← mul_sum, root_sum_shift s t m hs ht hm]
    rw [sum_eq_single_of_mem (d % m) (mem_range.2 (Nat.mod_lt _ hm))]
    · rw [if_pos]
      · ring
      · rw [Int.natCast_mod]
        exact Int.dvd_self_sub_emod
    · intro d' hd' hne
      rw [mem_range] at hd'
      rw [if_neg, mul_zero]
      intro h
      apply hne
      have := Int.emod_emod_of_dvd (d : Int) (dvd_refl (m : Int))
      have h2 : (d : Int) % m = (d' : Int) % m := (Int.emod_emod_of_dvd _ (dvd_refl _)).symm.trans (by
        rw [Int.emod_emod_of_dvd _ (dvd_refl _)]
        exact (Int.emod_eq_emod_iff_emod_sub_eq_zero).2 (Int.emod_eq_zero_of_dvd h))
      rw [← Int.natCast_mod, ← Int.natCast_mod, Nat.mod_eq_of_lt hd'] at h2
      exact_mod_cast h2.symm
  rw [sum_congr rfl e2, ← mul_sum, ← mul_sum, ← mul_assoc]
  congr 1
  have h1 : (s : ℂ) ≠ 0 := by exact_mod_cast hs.ne'
  have h2 : (t : ℂ) ≠ 0 := by exact_mod_cast ht.ne'
  have h3 : (m : ℂ) ≠ 0 := by exact_mod_cast hm.ne'
  push_cast
  field_simp

/-- **The error of a contribution**: for a source at window sample `l` of a facet centred at `s * f`, at most twice the sum of
the Fourier coefficients of the window at the grid points that were not extracted, seen from `u`. -/
theorem interp_error (he : m % 2 = 0) (f k0 x u : Int) (l : Nat) (hl : l < s * m) (hx : x = s * f + l - (s * m / 2 : Nat)) :
    ‖interp s t m p f k0 x u - p l * (1 / ((s * t * m : Nat) : ℂ) * root (s * t * m) (x * u))‖ ≤
      2 / (s * t * m : Nat) * ∑ e ∈ range (s * m - m), ‖spectrum (s * t * m) (s * m) p (t * (k0 + (m + e : Nat)) - u)‖ := by
  have hle : m ≤ s * m := Nat.le_mul_of_pos_left m hs
  have e1 : (p l : ℂ) * (1 / ((s * t * m : Nat) : ℂ) * root (s * t * m) (x * u)) = 1 / ((s * t * m : Nat) : ℂ) *
      (root (s * t * m) (s * f * u) * ∑ d ∈ range (s * m), spectrum (s * t * m) (s * m) p (t * (k0 + d) - u) *
        root (s * t * m) (t * (k0 + d) * (x - s * f))) := by
    rw [window_eq s t m hs ht hm p k0 u l hl, sum_mul, mul_sum, mul_sum]
    refine sum_congr rfl fun d _ => ?_
    have h1 : root (s * t * m) ((t * (k0 + d) - u) * (l - (s * m / 2 : Nat))) * root (s * t * m) (x * u) =
        root (s * t * m) (s * f * u) * root (s * t * m) (t * (k0 + d) * (x - s * f)) := by
      rw [← root_add, ← root_add]
      congr 1
      rw [hx]
      ring
    linear_combination (spectrum (s * t * m) (s * m) p (t * (k0 + d) - u) * (1 / ((s * t * m : Nat) : ℂ))) * h1
  rw [interp_eq s t m hs ht hm p he, e1, ← mul_sub, ← mul_sub, ← sum_sub_distrib, norm_mul, norm_mul, root_norm, one_mul]
  have hN : ‖1 / ((s * t * m : Nat) : ℂ)‖ = 1 / (s * t * m : Nat) := by
    rw [norm_div, norm_one, Complex.norm_natCast]
  rw [hN, div_mul_eq_mul_div, div_mul_eq_mul_div, one_mul]
  refine div_le_div_of_nonneg_right ?_ (Nat.cast_nonneg _)
  obtain ⟨q, hq⟩ : ∃ q, s * m = m + q := ⟨s * m - m, by omega⟩
  rw [hq, sum_range_add, Nat.add_sub_cancel_left]
  have z : ∑ d ∈ range m, (spectrum (s * t * m) (m + q) p (t * (k0 + d) - u) *
      root (s * t * m) (t * (k0 + (d % m : Nat)) * (x - s * f)) -
      spectrum (s * t * m) (m + q) p (t * (k0 + d) - u) * root (s * t * m) (t * (k0 + d) * (x - s * f))) = 0 :=
    sum_eq_zero fun d hd => by rw [Nat.mod_eq_of_lt (mem_range.1 hd), sub_self]
  rw [z, zero_add]
  refine (norm_sum_le _ _).trans ?_
  rw [mul_sum]
  refine sum_le_sum fun e _ => ?_
  rw [← mul_sub, norm_mul, mul_comm]
  refine mul_le_mul_of_nonneg_right ?_ (norm_nonneg _)
  refine (norm_sub_le _ _).trans ?_
  rw [root_norm, root_norm]
  norm_num

end

end
end Sdp.Swiftly
