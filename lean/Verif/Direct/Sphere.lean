import Mathlib.Tactic.Linarith
import Mathlib.Tactic.FieldSimp
import Mathlib.Tactic.Positivity
import Verif.Direct.Model

/-!
# C49: the n coordinate
-/

namespace Sdp.Direct

/-- The point with image coordinates `(l, m)` and `n` is on the sheared unit sphere. -/
def OnSphere (hu hv l m n : ℝ) : Prop :=
  (l - hu * n) ^ 2 + (m - hv * n) ^ 2 + (n + 1) ^ 2 = 1

/-- Sky positions: the line through `(l, m)` along the sheared axis meets the sphere. -/
def Visible (hu hv l m : ℝ) : Prop :=
  (hu * hu + hv * hv + 1) * (l * l + m * m) ≤ (hu * l + hv * m - 1) * (hu * l + hv * m - 1)

theorem shear_pos (hu hv : ℝ) : 0 < hu * hu + hv * hv + 1 := by
  have := mul_self_nonneg hu
  have := mul_self_nonneg hv
  linarith

/-- The special case without shear is the general formula. -/
theorem C49_no_shear (hu hv l m : ℝ) :
    lmToN hu hv l m =
      (√((hu * l + hv * m - 1) * (hu * l + hv * m - 1) -
          (hu * hu + hv * hv + 1) * (l * l + m * m)) + (hu * l + hv * m - 1)) /
        (hu * hu + hv * hv + 1) := by
  unfold lmToN
  split
  · rename_i h
    rw [h.1, h.2]
    have : (0 * l + 0 * m - 1) * (0 * l + 0 * m - 1) - (0 * 0 + 0 * 0 + 1) * (l * l + m * m) =
      1 - l * l - m * m := by ring
    rw [this]
    ring
  · rfl

theorem quad_iff (hu hv l m n : ℝ) : OnSphere hu hv l m n ↔
    ((hu * hu + hv * hv + 1) * n - (hu * l + hv * m - 1)) ^ 2 =
      (hu * l + hv * m - 1) * (hu * l + hv * m - 1) -
        (hu * hu + hv * hv + 1) * (l * l + m * m) := by
  have hb := shear_pos hu hv
  unfold OnSphere
  constructor
  · intro h
    linear_combination (hu * hu + hv * hv + 1) * h
  · intro h
    have : (hu * hu + hv * hv + 1) * ((l - hu * n) ^ 2 + (m - hv * n) ^ 2 + (n + 1) ^ 2 - 1) = 0 := by
      linear_combination h
    rcases mul_eq_zero.1 this with h' | h'
    · exact absurd h' (ne_of_gt hb)
    · linarith

/-- C49: wherever a real solution exists, the computed `n` puts the point on the sheared
unit sphere. -/
theorem C49_on_sphere (hu hv l m : ℝ) (h : Visible hu hv l m) :
    OnSphere hu hv l m (lmToN hu hv l m) := by
  rw [quad_iff, C49_no_shear]
  have hb := shear_pos hu hv
  rw [mul_div_cancel₀ _ (ne_of_gt hb), add_sub_cancel_right, Real.sq_sqrt]
  unfold Visible at h
  linarith

/-- C49, the right one of the two intersections: every point of the sphere over
`(l, m)` has `n` no larger than the computed one. -/
theorem C49_nearest (hu hv l m n : ℝ) (h : OnSphere hu hv l m n) : n ≤ lmToN hu hv l m := by
  rw [C49_no_shear]
  rw [quad_iff] at h
  have hb := shear_pos hu hv
  rw [le_div_iff₀ hb, ← h, Real.sqrt_sq_eq_abs]
  have := le_abs_self ((hu * hu + hv * hv + 1) * n - (hu * l + hv * m - 1))
  linarith

/-- C49: a solution exists exactly for the visible positions. -/
theorem C49_visible_iff (hu hv l m : ℝ) : Visible hu hv l m ↔ ∃ n, OnSphere hu hv l m n := by
  constructor
  · intro h
    exact ⟨_, C49_on_sphere hu hv l m h⟩
  · rintro ⟨n, h⟩
    rw [quad_iff] at h
    have := sq_nonneg ((hu * hu + hv * hv + 1) * n - (hu * l + hv * m - 1))
    unfold Visible
    linarith

/-- C49: zero at the phase centre, for every shear. -/
theorem C49_centre (hu hv : ℝ) : lmToN hu hv 0 0 = 0 := by
  rw [C49_no_shear]
  simp

/-- C49: without shear, `n = sqrt(1 - l^2 - m^2) - 1`. -/
theorem C49_plain (l m : ℝ) : lmToN 0 0 l m = √(1 - l ^ 2 - m ^ 2) - 1 := by
  unfold lmToN
  rw [if_pos ⟨rfl, rfl⟩]
  congr 2
  ring

/-- C49: `n` is never positive in front of the shear plane; it is zero only at the
phase centre. -/
theorem C49_nonpos (hu hv l m : ℝ) (ha : hu * l + hv * m < 1) :
    lmToN hu hv l m ≤ 0 ∧ (lmToN hu hv l m = 0 ↔ l = 0 ∧ m = 0) := by
  rw [C49_no_shear]
  have hb := shear_pos hu hv
  have hr : 0 ≤ l * l + m * m := by
    have := mul_self_nonneg l
    have := mul_self_nonneg m
    linarith
  have hneg : hu * l + hv * m - 1 < 0 := by linarith
  have hle : √((hu * l + hv * m - 1) * (hu * l + hv * m - 1) -
      (hu * hu + hv * hv + 1) * (l * l + m * m)) ≤ -(hu * l + hv * m - 1) := by
    rw [Real.sqrt_le_left (by linarith)]
    have := mul_nonneg (le_of_lt hb) hr
    nlinarith
  constructor
  · apply div_nonpos_of_nonpos_of_nonneg
    · linarith
    · exact le_of_lt hb
  · constructor
    · intro h
      rw [div_eq_zero_iff] at h
      rcases h with h | h
      · have h1 : √((hu * l + hv * m - 1) * (hu * l + hv * m - 1) -
            (hu * hu + hv * hv + 1) * (l * l + m * m)) = -(hu * l + hv * m - 1) := by linarith
        rw [Real.sqrt_eq_iff_mul_self_eq_of_pos (by linarith)] at h1
        have h2 : (hu * hu + hv * hv + 1) * (l * l + m * m) = 0 := by linarith
        rcases mul_eq_zero.1 h2 with h3 | h3
        · exact absurd h3 (ne_of_gt hb)
        · have a := mul_self_nonneg l
          have b := mul_self_nonneg m
          exact ⟨mul_self_eq_zero.1 (by linarith), mul_self_eq_zero.1 (by linarith)⟩
      · exact absurd h (ne_of_gt hb)
    · rintro ⟨rfl, rfl⟩
      simp

/-- Non-vacuity: a visible sheared position with a rational solution. -/
example : Visible 1 0 (-2) 0 ∧ lmToN 1 0 (-2) 0 = -1 := by
  have e : (1 * (-2 : ℝ) + 0 * 0 - 1) * (1 * (-2) + 0 * 0 - 1) -
      (1 * 1 + 0 * 0 + 1) * ((-2) * (-2) + 0 * 0) = 1 ^ 2 := by norm_num
  refine ⟨by unfold Visible; norm_num, ?_⟩
  rw [C49_no_shear, e, Real.sqrt_sq (by norm_num)]
  norm_num

/-! ## C62: the w step covers the field of view -/

/-- Inside the sheared unit ball. -/
def InBall (hu hv l m n : ℝ) : Prop :=
  (l - hu * n) ^ 2 + (m - hv * n) ^ 2 + (n + 1) ^ 2 ≤ 1

theorem inBall_le (hu hv l m n : ℝ) (h : InBall hu hv l m n) : n ≤ lmToN hu hv l m := by
  rw [C49_no_shear]
  have hb := shear_pos hu hv
  rw [le_div_iff₀ hb]
  have hq : ((hu * hu + hv * hv + 1) * n - (hu * l + hv * m - 1)) ^ 2 ≤
      (hu * l + hv * m - 1) * (hu * l + hv * m - 1) -
        (hu * hu + hv * hv + 1) * (l * l + m * m) := by
    unfold InBall at h
    have h' := mul_le_mul_of_nonneg_left h (le_of_lt hb)
    nlinarith
  have := Real.abs_le_sqrt hq
  have := le_abs_self ((hu * hu + hv * hv + 1) * n - (hu * l + hv * m - 1))
  linarith

theorem inBall_convex (hu hv l m n l' m' n' t : ℝ) (h0 : 0 ≤ t) (h1 : t ≤ 1)
    (h : InBall hu hv l m n) (h' : InBall hu hv l' m' n') :
    InBall hu hv (t * l + (1 - t) * l') (t * m + (1 - t) * m') (t * n + (1 - t) * n') := by
  unfold InBall at *
  have key : ∀ x y : ℝ, (t * x + (1 - t) * y) ^ 2 ≤ t * x ^ 2 + (1 - t) * y ^ 2 := by
    intro x y
    have : t * x ^ 2 + (1 - t) * y ^ 2 - (t * x + (1 - t) * y) ^ 2 = t * (1 - t) * (x - y) ^ 2 := by
      ring
    have := mul_nonneg (mul_nonneg h0 (by linarith : 0 ≤ 1 - t)) (sq_nonneg (x - y))
    linarith
  have k1 := key (l - hu * n) (l' - hu * n')
  have k2 := key (m - hv * n) (m' - hv * n')
  have k3 := key (n + 1) (n' + 1)
  have e1 : t * (l - hu * n) + (1 - t) * (l' - hu * n') =
    t * l + (1 - t) * l' - hu * (t * n + (1 - t) * n') := by ring
  have e2 : t * (m - hv * n) + (1 - t) * (m' - hv * n') =
    t * m + (1 - t) * m' - hv * (t * n + (1 - t) * n') := by ring
  have e3 : t * (n + 1) + (1 - t) * (n' + 1) = t * n + (1 - t) * n' + 1 := by ring
  rw [e1] at k1
  rw [e2] at k2
  rw [e3] at k3
  have := mul_le_mul_of_nonneg_left h h0
  have := mul_le_mul_of_nonneg_left h' (by linarith : 0 ≤ 1 - t)
  nlinarith

/-- `n` over the field of view is smallest at a corner. -/
theorem corner_min (hu hv r l m : ℝ) (hr : 0 < r) (hl : |l| ≤ r) (hm : |m| ≤ r)
    (v1 : Visible hu hv (-r) (-r)) (v2 : Visible hu hv r (-r)) (v3 : Visible hu hv (-r) r)
    (v4 : Visible hu hv r r) :
    min (min (lmToN hu hv (-r) (-r)) (lmToN hu hv r (-r)))
      (min (lmToN hu hv (-r) r) (lmToN hu hv r r)) ≤ lmToN hu hv l m := by
  have b : ∀ x y, Visible hu hv x y → InBall hu hv x y (lmToN hu hv x y) :=
    fun x y h => le_of_eq (C49_on_sphere hu hv x y h)
  generalize hq1 : lmToN hu hv (-r) (-r) = n1
  generalize hq2 : lmToN hu hv r (-r) = n2
  generalize hq3 : lmToN hu hv (-r) r = n3
  generalize hq4 : lmToN hu hv r r = n4
  have b1 := b _ _ v1
  have b2 := b _ _ v2
  have b3 := b _ _ v3
  have b4 := b _ _ v4
  rw [hq1] at b1
  rw [hq2] at b2
  rw [hq3] at b3
  rw [hq4] at b4
  rw [abs_le] at hl hm
  have hx : ∀ x : ℝ, -r ≤ x → x ≤ r → 0 ≤ (r - x) / (2 * r) ∧ (r - x) / (2 * r) ≤ 1 ∧
      (r - x) / (2 * r) * (-r) + (1 - (r - x) / (2 * r)) * r = x := by
    intro x h1 h2
    refine ⟨div_nonneg (by linarith) (by linarith), ?_, ?_⟩
    · rw [div_le_one (by linarith)]; linarith
    · field_simp; ring
  obtain ⟨t0, t1, te⟩ := hx l hl.1 hl.2
  obtain ⟨s0, s1, se⟩ := hx m hm.1 hm.2
  generalize (r - l) / (2 * r) = t at *
  generalize (r - m) / (2 * r) = s at *
  have c1 := inBall_convex hu hv _ _ _ _ _ _ t t0 t1 b1 b2
  have c2 := inBall_convex hu hv _ _ _ _ _ _ t t0 t1 b3 b4
  have c3 := inBall_convex hu hv _ _ _ _ _ _ s s0 s1 c1 c2
  have e1 : s * (t * -r + (1 - t) * r) + (1 - s) * (t * -r + (1 - t) * r) = l := by
    rw [te]; ring
  have e2 : s * (t * -r + (1 - t) * -r) + (1 - s) * (t * r + (1 - t) * r) = m := by
    rw [← se]; ring
  rw [e1, e2] at c3
  have hle := inBall_le _ _ _ _ _ c3
  refine le_trans ?_ hle
  generalize hmu : min (min n1 n2) (min n3 n4) = mu
  have m1 : mu ≤ n1 := by rw [← hmu]; exact le_trans (min_le_left _ _) (min_le_left _ _)
  have m2 : mu ≤ n2 := by rw [← hmu]; exact le_trans (min_le_left _ _) (min_le_right _ _)
  have m3 : mu ≤ n3 := by rw [← hmu]; exact le_trans (min_le_right _ _) (min_le_left _ _)
  have m4 : mu ≤ n4 := by rw [← hmu]; exact le_trans (min_le_right _ _) (min_le_right _ _)
  have w : ∀ x y : ℝ, mu ≤ x → mu ≤ y → ∀ t : ℝ, 0 ≤ t → t ≤ 1 → mu ≤ t * x + (1 - t) * y := by
    intro x y hx hy t ht0 ht1
    have := mul_le_mul_of_nonneg_left hx ht0
    have := mul_le_mul_of_nonneg_left hy (by linarith : 0 ≤ 1 - t)
    linarith
  exact w _ _ (w _ _ m1 m2 t t0 t1) (w _ _ m3 m4 t t0 t1) s s0 s1

/-- C62: with the w step returned for a field of view and a fraction `x0`, every image
position inside the field of view has `|2 n w_step| <= x0`, for every shear for which
the field of view is on the sky and in front of the shear plane. -/
theorem C62_w_step (theta fov hu hv x0 l m : ℝ) (hf : 0 < fov) (hx : 0 < x0)
    (hl : |l| ≤ fov / 2) (hm : |m| ≤ fov / 2) (hfront : hu * l + hv * m < 1)
    (v1 : Visible hu hv (-(fov / 2)) (-(fov / 2))) (v2 : Visible hu hv (fov / 2) (-(fov / 2)))
    (v3 : Visible hu hv (-(fov / 2)) (fov / 2)) (v4 : Visible hu hv (fov / 2) (fov / 2)) :
    |lmToN hu hv l m * 2 * determineWStep theta fov hu hv x0| ≤ x0 := by
  have hmin := corner_min hu hv (fov / 2) l m (by linarith) hl hm v1 v2 v3 v4
  have hn := (C49_nonpos hu hv l m hfront).1
  unfold determineWStep
  simp only
  rw [if_neg (ne_of_gt hx), neg_div]
  generalize min (min (lmToN hu hv (-(fov / 2)) (-(fov / 2))) (lmToN hu hv (fov / 2) (-(fov / 2))))
    (min (lmToN hu hv (-(fov / 2)) (fov / 2)) (lmToN hu hv (fov / 2) (fov / 2))) = mu at *
  rcases eq_or_lt_of_le (le_trans hmin hn) with h0 | h0
  · rw [h0]
    simp
    linarith
  · have e : lmToN hu hv l m * 2 * (1 / (2 * -mu / x0)) = lmToN hu hv l m / -mu * x0 := by
      field_simp
    rw [e, abs_mul, abs_of_pos hx, abs_div, abs_of_nonpos hn, abs_of_pos (by linarith : 0 < -mu)]
    have : -lmToN hu hv l m / -mu ≤ 1 := by
      rw [div_le_one (by linarith)]
      linarith
    calc _ ≤ 1 * x0 := mul_le_mul_of_nonneg_right this (le_of_lt hx)
      _ = x0 := one_mul _

/-- C62, default fraction: passing 0 means `fov / theta`. -/
theorem C62_w_step_default (theta fov hu hv l m : ℝ) (ht : 0 < theta) (hf : 0 < fov)
    (hl : |l| ≤ fov / 2) (hm : |m| ≤ fov / 2) (hfront : hu * l + hv * m < 1)
    (v1 : Visible hu hv (-(fov / 2)) (-(fov / 2))) (v2 : Visible hu hv (fov / 2) (-(fov / 2)))
    (v3 : Visible hu hv (-(fov / 2)) (fov / 2)) (v4 : Visible hu hv (fov / 2) (fov / 2)) :
    |lmToN hu hv l m * 2 * determineWStep theta fov hu hv 0| ≤ fov / theta := by
  have hx : 0 < fov / theta := div_pos hf ht
  have e : determineWStep theta fov hu hv 0 = determineWStep theta fov hu hv (fov / theta) := by
    unfold determineWStep
    simp only
    rw [if_pos trivial, if_neg (ne_of_gt hx)]
  rw [e]
  exact C62_w_step theta fov hu hv _ l m hf hx hl hm hfront v1 v2 v3 v4

/-- C62, the step is the largest possible: at one of the corners of the field of view the
bound is attained, unless `n` vanishes at all four. -/
theorem C62_w_step_largest (theta fov hu hv x0 : ℝ) (hx : 0 < x0)
    (hneg : ∃ l m, (l = fov / 2 ∨ l = -(fov / 2)) ∧ (m = fov / 2 ∨ m = -(fov / 2)) ∧
      lmToN hu hv l m < 0) :
    ∃ l m, (l = fov / 2 ∨ l = -(fov / 2)) ∧ (m = fov / 2 ∨ m = -(fov / 2)) ∧
      |lmToN hu hv l m * 2 * determineWStep theta fov hu hv x0| = x0 := by
  unfold determineWStep
  simp only
  rw [if_neg (ne_of_gt hx), neg_div]
  generalize hmu : min (min (lmToN hu hv (-(fov / 2)) (-(fov / 2)))
    (lmToN hu hv (fov / 2) (-(fov / 2))))
    (min (lmToN hu hv (-(fov / 2)) (fov / 2)) (lmToN hu hv (fov / 2) (fov / 2))) = mu
  have hm0 : mu < 0 := by
    obtain ⟨l, m, hl, hm, h⟩ := hneg
    rw [← hmu]
    rcases hl with rfl | rfl <;> rcases hm with rfl | rfl <;> simp [h]
  have key : ∀ v, v = mu → |v * 2 * (1 / (2 * -mu / x0))| = x0 := by
    rintro v rfl
    have : v * 2 * (1 / (2 * -v / x0)) = -x0 := by
      have hv : v ≠ 0 := ne_of_lt hm0
      field_simp
    rw [this, abs_neg, abs_of_pos hx]
  rcases min_choice (min (lmToN hu hv (-(fov / 2)) (-(fov / 2)))
    (lmToN hu hv (fov / 2) (-(fov / 2))))
    (min (lmToN hu hv (-(fov / 2)) (fov / 2)) (lmToN hu hv (fov / 2) (fov / 2))) with h | h
  · rw [hmu] at h
    rcases min_choice (lmToN hu hv (-(fov / 2)) (-(fov / 2)))
      (lmToN hu hv (fov / 2) (-(fov / 2))) with h' | h'
    · exact ⟨_, _, Or.inr rfl, Or.inr rfl, key _ (h'.symm.trans h.symm)⟩
    · exact ⟨_, _, Or.inl rfl, Or.inr rfl, key _ (h'.symm.trans h.symm)⟩
  · rw [hmu] at h
    rcases min_choice (lmToN hu hv (-(fov / 2)) (fov / 2))
      (lmToN hu hv (fov / 2) (fov / 2)) with h' | h'
    · exact ⟨_, _, Or.inr rfl, Or.inl rfl, key _ (h'.symm.trans h.symm)⟩
    · exact ⟨_, _, Or.inl rfl, Or.inl rfl, key _ (h'.symm.trans h.symm)⟩

/-- Non-vacuity: a field of view of 1.2 without shear. -/
example : (0 : ℝ) < 1.2 ∧ Visible 0 0 (-(1.2 / 2)) (-(1.2 / 2)) ∧ Visible 0 0 (1.2 / 2) (1.2 / 2) := by
  unfold Visible; norm_num

end Sdp.Direct
