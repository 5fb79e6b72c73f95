import Verif.Swiftly.PipelineBack

/-! # C102: facets to subgrid and subgrids to facet against direct Fourier sums -/

namespace Sdp.Swiftly
open Finset Sdp.Fft
noncomputable section

theorem planTables_spec (c : Cfg) (hc : createCheck c = .success) (s m : Nat) (em : c.m = m)
    (ey : c.yN = (s * m : Nat)) (es : c.image / c.xM = s) (pswf : Arr ℝ) (hp : pswf.size = s * m) :
    ∃ Fn Fb, planTables c pswf = some (Fn, Fb) ∧ Fn.size = m ∧ Fb.size = s * m ∧
      (m % 2 = 0 → ∀ i < m, Fn.get i = pswf.get (s * i)) ∧ (∀ i, 0 < i → i < s * m → Fb.get i = 1 / pswf.get i) ∧
      Fb.get 0 = pswf.get 0 ∧ ∀ i < m, Fn.get i = pswf.get (((s * m / 2) % s) + i * s) := by
  have hm0 := m_pos hc
  obtain ⟨Fn, e1, s1, v1⟩ := C30_fn_table c hc pswf ⟨c.m.toNat, fun _ => 0⟩ (by omega) (by simp only; omega)
  obtain ⟨Fb, e2, s2, v2, w2⟩ := C30_fb_table c hc pswf (by omega)
  have v3 : ∀ i < m, Fn.get i = pswf.get (((s * m / 2) % s) + i * s) := by
    intro i hi
    rw [v1 i (by omega), es, ey]
    congr 1
  refine ⟨Fn, Fb, ?_, by rw [s1]; simp only; omega, by omega, fun hm i hi => ?_, fun i h0 h1 => w2 i h0 (by omega), v2, v3⟩
  · unfold planTables
    rw [e1, e2]
    rfl
  · rw [v3 i hi]
    obtain ⟨q, hq⟩ : 2 ∣ m := Nat.dvd_of_mod_eq_zero hm
    rw [hq, show s * (2 * q) = 2 * (s * q) by ring, Nat.mul_div_cancel_left _ two_pos, Nat.mul_mod_right, zero_add, mul_comm]

theorem toNat_real {z : Int} (h : 0 ≤ z) : ((z.toNat : Nat) : ℝ) = z := by
  obtain ⟨n, rfl⟩ := Int.eq_ofNat_of_zero_le h
  simp

theorem phase_root (N : Nat) (x u : Int) : Spec.phase N x u = root N (x * u) := rfl

theorem leak_spectrum (N n : Nat) (p : Nat → ℝ) (nu : Int) : Spec.leak N n p nu = spectrum N n p nu := by
  unfold Spec.leak spectrum
  congr 1
  refine sum_congr rfl fun j _ => ?_
  rw [phase_root]
  congr 2
  ring

/-- What is known of the arrays of one facet. -/
def FacetOk (c : Cfg) (pswf : Arr ℝ) (f : FacetRow) : Prop :=
  1 ≤ f.size ∧ (f.size : Int) < c.yN ∧ f.data.size = f.size ∧ (f.prepared.size : Int) = c.yN ∧ (f.contrib.size : Int) = c.m ∧
    c.image / c.xM ∣ f.offset ∧ ∀ j < f.size, pswf.get (j + c.yN.toNat / 2 - f.size / 2) ≠ 0

/-- The facet it stands for. -/
def FacetRow.spec (f : FacetRow) : Spec.Facet := ⟨f.size, f.offset, f.data.get⟩

theorem winStart_eq {c : Cfg} (m t : Nat) (em : c.m = m) (et : c.image.tdiv c.yN = t) (u0 : Int) :
    winStart c u0 = u0.tdiv t - (m / 2 : Nat) := by
  unfold winStart
  rw [et, em, tdiv_two_bounds (by omega)]
  norm_cast

theorem gridSum_zero (n : Nat) (y : Nat → ℂ) (h : ∀ i < n, y i = 0) (u : Int) : gridSum n y u = 0 := by
  unfold gridSum
  exact sum_eq_zero fun i hi => by rw [h i (mem_range.1 hi), mul_zero]

theorem faceSum_zero (n : Nat) (y : Nat → ℂ) (h : ∀ i < n, y i = 0) (u : Int) : faceSum n y u = 0 := by
  unfold faceSum
  exact sum_eq_zero fun i hi => by rw [h i (mem_range.1 hi), mul_zero]

/-- The whole forward sequence in closed form. -/
theorem toSubgrid_spec (c : Cfg) (hc : createCheck c = .success) (s t m : Nat) (hs : 0 < s) (ht : 0 < t) (hm : 0 < m)
    (em : c.m = m) (ey : c.yN = (s * m : Nat)) (ex : c.xM = (t * m : Nat)) (es : c.image / c.xM = s) (he : m % 2 = 0)
    (p : Nat → ℝ) (Fn Fb : Arr ℝ) (hFn : Fn.size = m) (hFb : Fb.size = s * m) (hp : ∀ i < m, Fn.get i = p (s * i))
    (u0 : Int) (fs : List FacetRow) (hf : ∀ f ∈ fs, 1 ≤ f.size ∧ f.size ≤ s * m ∧ f.data.size = f.size ∧
      f.prepared.size = s * m ∧ f.contrib.size = m) (acc : Arr ℂ) (ha : acc.size = t * m) (hz : ∀ i < t * m, acc.get i = 0)
    (xA : Nat) (hxA : xA ≤ t * m) (sg : Arr ℂ) (hsg : sg.size = xA) (hx2 : 2 ∣ t * m) :
    ∃ r, toSubgrid c Fn Fb fs u0 xA acc sg = some r ∧ r.size = xA ∧ ∀ v < xA, r.get v =
      (fs.map fun f : FacetRow => ∑ j ∈ range f.size, f.data.get j * Fb.get (j + s * m / 2 - f.size / 2) *
        interp s t m p (f.offset / s) (winStart c u0) (f.offset - (f.size / 2 : Nat) + j) (u0 + v - (xA / 2 : Nat))).sum := by
  have hx : 0 < t * m := Nat.mul_pos ht hm
  unfold toSubgrid
  obtain ⟨a, ea, sa, va⟩ := addFacets_spec c hc s t m hs ht hm em ey ex es he p Fn Fb hFn hFb hp u0 fs hf acc ha
  rw [ea]
  simp only [Option.bind_some]
  rw [ex, Int.toNat_natCast]
  obtain ⟨F, r, eF, er, sr, vr⟩ := C60_finish_crop (t * m) hx (even_iff_two_dvd.2 hx2) xA hxA u0 a sg sa hsg
  obtain ⟨F', eF', _, vF⟩ := finish_eq (t * m) hx hx2 u0 a sa
  rw [eF] at eF'
  rw [← Option.some.inj eF'] at vF
  refine ⟨r, er, sr, fun v hv => ?_⟩
  rw [vr v hv, vF _ (by omega), va, gridSum_zero _ _ hz, zero_add]
  have hx' : ((t * m : Nat) : ℂ) ≠ 0 := by exact_mod_cast hx.ne'
  have e : (u0 + ((v + t * m / 2 - xA / 2 : Nat) : Int) - (t * m / 2 : Nat)) = u0 + v - (xA / 2 : Nat) := by
    generalize t * m = n at *
    omega
  rw [e, ← List.sum_map_mul_left]
  congr 1
  refine List.map_congr_left fun f _ => ?_
  field_simp

theorem list_norm_sum_le {α : Type} (l : List α) (f : α → ℂ) (g : α → ℝ) (h : ∀ x ∈ l, ‖f x‖ ≤ g x) :
    ‖(l.map f).sum‖ ≤ (l.map g).sum := by
  induction l with
  | nil => simp
  | cons x l ih =>
    rw [List.map_cons, List.map_cons, List.sum_cons, List.sum_cons]
    exact (norm_add_le _ _).trans (add_le_add (h x (by simp)) (ih fun y hy => h y (by simp [hy])))

theorem list_map_sub {α : Type} (l : List α) (f g : α → ℂ) : (l.map f).sum - (l.map g).sum = (l.map fun x => f x - g x).sum := by
  induction l with
  | nil => simp
  | cons x l ih =>
    rw [List.map_cons, List.map_cons, List.map_cons, List.sum_cons, List.sum_cons, List.sum_cons, ← ih]
    ring

/-- The error of one sample through its facet window. -/
theorem sample_error (s t m : Nat) (hs : 0 < s) (ht : 0 < t) (hm : 0 < m) (he : m % 2 = 0) (p : Nat → ℝ) (u0 : Int) (o f : Int)
    (hf : o = s * f) (F j : Nat) (hF : F < s * m) (hj : j < F) (hp : p (j + s * m / 2 - F / 2) ≠ 0) (u : Int) :
    ‖(1 / p (j + s * m / 2 - F / 2) : ℝ) * interp s t m p f (u0.tdiv t - (m / 2 : Nat)) (o - (F / 2 : Nat) + j) u -
      1 / ((s * t * m : Nat) : ℂ) * Spec.phase (s * t * m) (o - (F / 2 : Nat) + j) u‖ ≤
      1 / |p (j + s * m / 2 - F / 2)| * (2 / (s * t * m : Nat) * Spec.residual (s * t * m) (s * m) m p u0 u) := by
  have h2 : j + s * m / 2 - F / 2 < s * m := by
    generalize s * m = n at *
    omega
  have hle := interp_error s t m hs ht hm p he f (u0.tdiv t - (m / 2 : Nat)) (o - (F / 2 : Nat) + j) u _ h2 (by
    rw [hf]
    generalize s * m = n at *
    have : ((j + n / 2 - F / 2 : Nat) : Int) = j + (n / 2 : Nat) - (F / 2 : Nat) := by omega
    rw [this]
    ring)
  have hN : s * t * m / (s * m) = t := by
    rw [show s * t * m = t * (s * m) by ring, Nat.mul_div_cancel _ (Nat.mul_pos hs hm)]
  have hres : Spec.residual (s * t * m) (s * m) m p u0 u = ∑ e ∈ range (s * m - m),
      ‖spectrum (s * t * m) (s * m) p (t * (u0.tdiv t - (m / 2 : Nat) + (m + e : Nat)) - u)‖ := by
    unfold Spec.residual
    rw [hN]
    refine sum_congr rfl fun e _ => ?_
    rw [leak_spectrum]
    rw [Nat.cast_add, add_assoc _ (m : Int)]
  rw [hres]
  generalize hq : p (j + s * m / 2 - F / 2) = q at *
  have hq' : (q : ℂ) ≠ 0 := by exact_mod_cast hp
  have e1 : ((1 / q : ℝ) : ℂ) * interp s t m p f (u0.tdiv t - (m / 2 : Nat)) (o - (F / 2 : Nat) + j) u -
      1 / ((s * t * m : Nat) : ℂ) * Spec.phase (s * t * m) (o - (F / 2 : Nat) + j) u = ((1 / q : ℝ) : ℂ) *
      (interp s t m p f (u0.tdiv t - (m / 2 : Nat)) (o - (F / 2 : Nat) + j) u -
        q * (1 / ((s * t * m : Nat) : ℂ) * root (s * t * m) ((o - (F / 2 : Nat) + j) * u))) := by
    rw [phase_root]
    push_cast
    field_simp
  rw [e1, norm_mul, Complex.norm_real, Real.norm_eq_abs, abs_div, abs_one]
  exact mul_le_mul_of_nonneg_left hle (by positivity)

/-- **C102, facets to a subgrid.**  For every accepted plan with an even contribution size, every window that does not vanish
on the facets, every list of facets whose offsets are multiples of the facet step and every subgrid offset and size, the
sequence of calls stays within its arrays whatever its scratch arrays contained, and grid point `v` differs from the direct
Fourier sum over all facet pixels by at most the stated leakage of the window. -/
theorem C102_forward_partial (c : Cfg) (hc : createCheck c = .success) (he : c.m % 2 = 0) (pswf : Arr ℝ)
    (hp : (pswf.size : Int) = c.yN) (fs : List FacetRow) (hf : ∀ f ∈ fs, FacetOk c pswf f) (u0 : Int) (xA : Nat)
    (hxA : (xA : Int) ≤ c.xM) (acc sg : Arr ℂ) (ha : (acc.size : Int) = c.xM) (hz : ∀ i, acc.get i = 0) (hsg : sg.size = xA) :
    ∃ Fn Fb r, planTables c pswf = some (Fn, Fb) ∧ toSubgrid c Fn Fb fs u0 xA acc sg = some r ∧ r.size = xA ∧
      ∀ v < xA, ‖r.get v - (fs.map fun f : FacetRow => f.spec.grid c.image.toNat (u0 + v - (xA / 2 : Nat))).sum‖ ≤
        (fs.map fun f : FacetRow => ∑ j ∈ range f.size, ‖f.data.get j‖ / |pswf.get (j + c.yN.toNat / 2 - f.size / 2)| *
          (2 / c.image.toNat * Spec.residual c.image.toNat c.yN.toNat c.m.toNat pswf.get u0 (u0 + v - (xA / 2 : Nat)))).sum := by
  obtain ⟨s, t, m, hs, ht, hm, em, ei, ey, ex, es, et, hx2, hy2⟩ := sizesN hc
  obtain ⟨Fn, Fb, eT, sFn, sFb, vFn, vFb, _, _⟩ := planTables_spec c hc s m em ey es pswf (by omega)
  have hm2 : m % 2 = 0 := by omega
  obtain ⟨r, er, sr, vr⟩ := toSubgrid_spec c hc s t m hs ht hm em ey ex es hm2 pswf.get Fn Fb sFn sFb (vFn hm2) u0 fs
    (fun f hf' => by
      obtain ⟨q1, q2, q3, q4, q5, _⟩ := hf f hf'
      exact ⟨q1, by omega, q3, by omega, by omega⟩) acc (by omega) (fun i _ => hz i) xA (by omega) sg hsg hx2
  refine ⟨Fn, Fb, r, eT, er, sr, fun v hv => ?_⟩
  rw [vr v hv, list_map_sub, ei, ey, em]
  simp only [Int.toNat_natCast]
  refine list_norm_sum_le _ _ _ fun f hf' => ?_
  obtain ⟨q1, q2, q3, q4, q5, ⟨o, q6⟩, q7⟩ := hf f hf'
  rw [es] at q6
  rw [ey] at q2 q7
  rw [Int.toNat_natCast] at q7
  have q2' : f.size < s * m := by omega
  unfold Spec.Facet.grid
  simp only [FacetRow.spec]
  rw [mul_sum, ← sum_sub_distrib]
  refine (norm_sum_le _ _).trans (sum_le_sum fun j hj => ?_)
  rw [mem_range] at hj
  have hidx : 0 < j + s * m / 2 - f.size / 2 ∧ j + s * m / 2 - f.size / 2 < s * m := by
    obtain ⟨y, hy⟩ := hy2
    rw [hy] at q2' ⊢
    omega
  rw [vFb _ hidx.1 hidx.2, show f.offset / (s : Int) = o by rw [q6, Int.mul_ediv_cancel_left _ (by omega)],
    winStart_eq m t em et]
  have := sample_error s t m hs ht hm hm2 pswf.get u0 f.offset o q6 f.size j q2' hj (q7 j hj) (u0 + v - (xA / 2 : Nat))
  have e1 : f.data.get j * ((1 / pswf.get (j + s * m / 2 - f.size / 2) : ℝ) : ℂ) * interp s t m pswf.get o
      (u0.tdiv t - (m / 2 : Nat)) (f.offset - (f.size / 2 : Nat) + j) (u0 + v - (xA / 2 : Nat)) - 1 / ((s * t * m : Nat) : ℂ) *
      (f.data.get j * Spec.phase (s * t * m) (f.offset - (f.size / 2 : Nat) + j) (u0 + v - (xA / 2 : Nat))) =
      f.data.get j * (((1 / pswf.get (j + s * m / 2 - f.size / 2) : ℝ) : ℂ) * interp s t m pswf.get o
      (u0.tdiv t - (m / 2 : Nat)) (f.offset - (f.size / 2 : Nat) + j) (u0 + v - (xA / 2 : Nat)) - 1 / ((s * t * m : Nat) : ℂ) *
      Spec.phase (s * t * m) (f.offset - (f.size / 2 : Nat) + j) (u0 + v - (xA / 2 : Nat))) := by ring
  rw [e1, norm_mul]
  exact (mul_le_mul_of_nonneg_left this (norm_nonneg (f.data.get j))).trans_eq (by ring)

/-- **C102, exactness.**  When a padded subgrid is as large as the image, the sequence computes exactly the direct Fourier sum,
whatever the window. -/
theorem C102_exact_partial (c : Cfg) (hc : createCheck c = .success) (he : c.m % 2 = 0) (hN : c.xM = c.image) (pswf : Arr ℝ)
    (hp : (pswf.size : Int) = c.yN) (fs : List FacetRow) (hf : ∀ f ∈ fs, FacetOk c pswf f) (u0 : Int) (xA : Nat)
    (hxA : (xA : Int) ≤ c.xM) (acc sg : Arr ℂ) (ha : (acc.size : Int) = c.xM) (hz : ∀ i, acc.get i = 0) (hsg : sg.size = xA) :
    ∃ Fn Fb r, planTables c pswf = some (Fn, Fb) ∧ toSubgrid c Fn Fb fs u0 xA acc sg = some r ∧ r.size = xA ∧
      ∀ v < xA, r.get v = (fs.map fun f : FacetRow => f.spec.grid c.image.toNat (u0 + v - (xA / 2 : Nat))).sum := by
  obtain ⟨Fn, Fb, r, h1, h2, h3, h4⟩ := C102_forward_partial c hc he pswf hp fs hf u0 xA hxA acc sg ha hz hsg
  refine ⟨Fn, Fb, r, h1, h2, h3, fun v hv => ?_⟩
  have := h4 v hv
  obtain ⟨s, t, m, hs, ht, hm, em, ei, ey, ex, es, et, hx2, hy2⟩ := sizesN hc
  have hmn : c.yN.toNat = c.m.toNat := by
    have hp : 0 < t * m := Nat.mul_pos ht hm
    have : t * m = s * (t * m) := by
      rw [ei, ex] at hN
      have : t * m = s * t * m := by exact_mod_cast hN
      rw [← mul_assoc]
      exact this
    have hs1 : s = 1 := by nlinarith
    rw [ey, em, hs1, one_mul]
  have hz : Spec.residual c.image.toNat c.yN.toNat c.m.toNat pswf.get u0 (u0 + v - (xA / 2 : Nat)) = 0 := by
    unfold Spec.residual
    rw [hmn, Nat.sub_self, sum_range_zero]
  rw [hz] at this
  simp only [mul_zero, sum_const_zero, List.map_const', List.sum_replicate, smul_zero] at this
  exact sub_eq_zero.1 (norm_le_zero_iff.1 this)

/-- **C102, the documented rule.**  If the usable size obeys `xA <= xM - W / yN * N`, the subgrid offset is a multiple of the
subgrid step and the Fourier coefficients of the window at distances of at least half of `W / yN * N` (on the circle of `N`
grid points) are at most `eps`, every grid point is within `2 (yN - m) / N * eps` times the sum of the pixels, each divided by
the window there, of the direct Fourier sum. -/
theorem C102_rule_partial (c : Cfg) (hc : createCheck c = .success) (he : c.m % 2 = 0) (pswf : Arr ℝ)
    (hp : (pswf.size : Int) = c.yN) (fs : List FacetRow) (hf : ∀ f ∈ fs, FacetOk c pswf f) (u0 : Int)
    (hu : c.image / c.yN ∣ u0) (xA : Nat) (W : ℝ) (hW : 0 ≤ W) (hxA : (xA : ℝ) ≤ c.xM - W / c.yN * c.image) (eps : ℝ)
    (heps : ∀ nu : Int, W / c.yN * c.image / 2 ≤ nu → (nu : ℝ) ≤ c.image - W / c.yN * c.image / 2 →
      ‖Spec.leak c.image.toNat c.yN.toNat pswf.get nu‖ ≤ eps) (acc sg : Arr ℂ)
    (ha : (acc.size : Int) = c.xM) (hz : ∀ i, acc.get i = 0) (hsg : sg.size = xA) :
    ∃ Fn Fb r, planTables c pswf = some (Fn, Fb) ∧ toSubgrid c Fn Fb fs u0 xA acc sg = some r ∧ r.size = xA ∧
      ∀ v < xA, ‖r.get v - (fs.map fun f : FacetRow => f.spec.grid c.image.toNat (u0 + v - (xA / 2 : Nat))).sum‖ ≤
        2 * (c.yN - c.m) / c.image * eps * (fs.map fun f : FacetRow => ∑ j ∈ range f.size,
          ‖f.data.get j‖ / |pswf.get (j + c.yN.toNat / 2 - f.size / 2)|).sum := by
  obtain ⟨s, t, m, hs, ht, hm, em, ei, ey, ex, es, et, hx2, hy2⟩ := sizesN hc
  have hy0 : (0 : ℝ) < c.yN := by rw [ey]; exact_mod_cast Nat.mul_pos hs hm
  have hi0 : (0 : ℝ) < c.image := by rw [ei]; exact_mod_cast Nat.mul_pos (Nat.mul_pos hs ht) hm
  have hWt0 : 0 ≤ W / c.yN * c.image := mul_nonneg (div_nonneg hW hy0.le) hi0.le
  have hxM : (xA : Int) ≤ c.xM := by
    have : (xA : ℝ) ≤ (c.xM : ℝ) := by linarith
    exact_mod_cast this
  obtain ⟨Fn, Fb, r, h1, h2, h3, h4⟩ := C102_forward_partial c hc he pswf hp fs hf u0 xA hxM acc sg ha hz hsg
  refine ⟨Fn, Fb, r, h1, h2, h3, fun v hv => (h4 v hv).trans ?_⟩
  have hmy := m_le_yN hc
  have hres : Spec.residual c.image.toNat c.yN.toNat c.m.toNat pswf.get u0 (u0 + v - (xA / 2 : Nat)) ≤ (c.yN - c.m) * eps := by
    unfold Spec.residual
    refine (sum_le_card_nsmul _ _ eps fun e he' => ?_).trans_eq ?_
    · rw [mem_range] at he'
      have hN : c.image.toNat / c.yN.toNat = t := by
        rw [ei, ey, Int.toNat_natCast, Int.toNat_natCast, show s * t * m = t * (s * m) by ring,
          Nat.mul_div_cancel _ (Nat.mul_pos hs hm)]
      have hdiv : c.image / c.yN = t := by
        rw [ei, ey]
        rw [ei, ey, Int.toNat_natCast, Int.toNat_natCast] at hN
        exact_mod_cast hN
      obtain ⟨q, hq⟩ := hu
      rw [hdiv] at hq
      rw [hN, hq, Int.mul_tdiv_cancel_left _ (by omega)]
      generalize hw : W / c.yN * c.image = w at *
      obtain ⟨a, ha'⟩ : ∃ a : Nat, m = 2 * a := ⟨m / 2, by omega⟩
      have hma : c.m.toNat / 2 = a := by omega
      have hma2 : q - (c.m.toNat / 2 : Nat) + c.m.toNat + e = q + a + e := by omega
      rw [hma2]
      have he2 : (e : ℝ) + 1 ≤ s * m - m := by
        have : e + 1 + m ≤ s * m := by omega
        have : ((e + 1 + m : Nat) : ℝ) ≤ ((s * m : Nat) : ℝ) := by exact_mod_cast this
        push_cast at this
        linarith
      have hx2' : (xA : ℝ) ≤ t * m - w := by rw [ex] at hxA; push_cast at hxA; exact hxA
      have hv' : (v : ℝ) - (xA / 2 : Nat) ≤ xA / 2 ∧ -(xA / 2 : ℝ) ≤ v - (xA / 2 : Nat) := by
        have h5 : 2 * v ≤ 2 * (xA / 2) + xA := by omega
        have h6 : 2 * (xA / 2) ≤ xA := by omega
        have h7 : ((2 * v : Nat) : ℝ) ≤ ((2 * (xA / 2) + xA : Nat) : ℝ) := by exact_mod_cast h5
        have h8 : ((2 * (xA / 2) : Nat) : ℝ) ≤ (xA : ℝ) := by exact_mod_cast h6
        rw [Nat.cast_add, Nat.cast_mul, Nat.cast_mul] at h7
        rw [Nat.cast_mul] at h8
        have h9 : (0 : ℝ) ≤ v := Nat.cast_nonneg v
        norm_num at h7 h8
        constructor <;> linarith
      have hm' : (m : ℝ) = 2 * a := by rw [ha']; push_cast; ring
      have ht' : (1 : ℝ) ≤ t := by exact_mod_cast ht
      have hnu : (((t : Int) * (q + a + e) - (t * q + v - (xA / 2 : Nat)) : Int) : ℝ) = t * a + t * e - (v - (xA / 2 : Nat)) := by
        generalize xA / 2 = y
        push_cast
        ring
      refine heps _ ?_ ?_
      · rw [hnu]
        have : (0 : ℝ) ≤ t * e := by positivity
        have h10 : (t : ℝ) * m = 2 * (t * a) := by rw [hm']; ring
        linarith [hv'.1]
      · rw [hnu, ei]
        push_cast
        have h10 : (t : ℝ) * m = 2 * (t * a) := by rw [hm']; ring
        have h11 : (t : ℝ) * (e + 1) ≤ t * (s * m - m) := mul_le_mul_of_nonneg_left he2 (by linarith)
        have h12 : (t : ℝ) * (s * m - m) = s * t * m - t * m := by ring
        linarith [hv'.2]
    · rw [card_range, nsmul_eq_mul]
      congr 1
      rw [Nat.cast_sub (by omega)]
      have h1 : ((c.yN.toNat : Nat) : ℝ) = c.yN := toNat_real (by omega)
      have h2 : ((c.m.toNat : Nat) : ℝ) = c.m := toNat_real (by omega)
      rw [h1, h2]
  have hi1 : ((c.image.toNat : Nat) : ℝ) = c.image := toNat_real (by omega)
  rw [← List.sum_map_mul_left]
  refine List.sum_le_sum fun f _ => ?_
  rw [mul_sum]
  refine sum_le_sum fun j _ => ?_
  rw [mul_comm, hi1]
  refine mul_le_mul_of_nonneg_right ?_ (by positivity)
  calc (2 / (c.image : ℝ)) * Spec.residual c.image.toNat c.yN.toNat c.m.toNat pswf.get u0 (u0 + v - (xA / 2 : Nat))
      ≤ 2 / (c.image : ℝ) * ((c.yN - c.m) * eps) := mul_le_mul_of_nonneg_left hres (by positivity)
    _ = _ := by ring

end
end Sdp.Swiftly
