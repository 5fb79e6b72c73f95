import Verif.Swiftly.Back2dMain
import Verif.Swiftly.CallExamples

/-! # C116: the two-dimensional sequence of calls, subgrids to a facet -/

namespace Sdp.Swiftly
open Finset Sdp.Fft Sdp.GridUtil
noncomputable section

/-- The subgrid that the arrays hold. -/
def SubgridArrays.spec (c : Cfg) (g : SubgridArrays) (h : SubgridShape) : Spec.Subgrid2 :=
  ⟨c.xM.toNat, g.off0, g.off1, fun v0 v1 => g.data.get (h.sub v0 v1)⟩

/-- Sign that depends on the offsets of a subgrid (C33). -/
def SubgridArrays.sign (c : Cfg) (g : SubgridArrays) : ℂ := (-1) ^ (g.off0 + c.xM / 2) * (-1) ^ (g.off1 + c.xM / 2)

/-- A facet offset that the calls handle: a multiple of the facet step, at least minus half a contribution. -/
def GoodOffset (c : Cfg) (o : Int) : Prop := c.image / c.xM ∣ o ∧ -((c.m.toNat / 2 : Nat) : Int) ≤ o / (c.image / c.xM)

theorem SubgridArrays.sign_norm (c : Cfg) (g : SubgridArrays) : ‖g.sign c‖ = 1 := by
  unfold SubgridArrays.sign
  rw [norm_mul, norm_zpow, norm_zpow, norm_neg, norm_one, one_zpow, one_zpow, one_mul]

/-- One axis of one grid point. -/
theorem axis_error_back (c : Cfg) (s t m : Nat) (hs : 0 < s) (ht : 0 < t) (hm : 0 < m) (em : c.m = m)
    (ei : c.image = (s * t * m : Nat)) (ey : c.yN = (s * m : Nat)) (et : c.image.tdiv c.yN = t)
    (he : m % 2 = 0) (hy2 : 2 ∣ s * m) (pswf Fb : Arr ℝ) (hFb : ∀ i, 0 < i → i < s * m → Fb.get i = 1 / pswf.get i)
    (u0 u o : Int) (ho : (s : Int) ∣ o) (F j : Nat) (hF : F < s * m) (hj : j < F)
    (hp : pswf.get (j + s * m / 2 - F / 2) ≠ 0) :
    ‖Fb.get (j + s * m / 2 - F / 2) * (((s * t * m : Nat) : ℂ) *
        (starRingEnd ℂ) (interp s t m pswf.get (o / s) (winStart c u0) (o - (F / 2 : Nat) + j) u)) -
      Spec.phase (s * t * m) (o - (F / 2 : Nat) + j) (-u)‖ ≤ (s * t * m : Nat) * axisError c pswf F j u0 u := by
  have h := axis_error c s t m hs ht hm em ei ey et he hy2 pswf Fb hFb u0 u o ho F j hF hj hp
  have hN : ((s * t * m : Nat) : ℂ) ≠ 0 := by exact_mod_cast (Nat.mul_pos (Nat.mul_pos hs ht) hm).ne'
  generalize (o - (F / 2 : Nat) + j : Int) = X at *
  generalize interp s t m pswf.get (o / s) (winStart c u0) X u = I at *
  generalize Fb.get (j + s * m / 2 - F / 2) = q at *
  have hph : Spec.phase (s * t * m) X (-u) = (starRingEnd ℂ) (Spec.phase (s * t * m) X u) := by
    rw [phase_root, phase_root, root_conj]
    congr 1
    ring
  have e1 : (q : ℂ) * (((s * t * m : Nat) : ℂ) * (starRingEnd ℂ) I) - Spec.phase (s * t * m) X (-u) =
      ((s * t * m : Nat) : ℂ) * (starRingEnd ℂ) ((q : ℂ) * I - 1 / ((s * t * m : Nat) : ℂ) * Spec.phase (s * t * m) X u) := by
    rw [hph, map_sub, map_mul, map_mul, Complex.conj_ofReal, map_div₀, map_one, map_natCast]
    field_simp
  rw [e1, norm_mul, Complex.norm_natCast, RCLike.norm_conj]
  exact mul_le_mul_of_nonneg_left h (Nat.cast_nonneg _)

/-- The closed form with the window of the plan. -/
theorem subgridSum_eq (c : Cfg) (s t m : Nat) (hs : 0 < s) (ht : 0 < t) (hm : 0 < m) (em : c.m = m) (ex : c.xM = (t * m : Nat))
    (he : m % 2 = 0) (p : Nat → ℝ) (Fn : Arr ℝ) (hp : ∀ i < m, Fn.get i = p (s * i)) (f0 f1 : Int) (g : SubgridArrays)
    (h : SubgridShape) (X0 X1 : Int) :
    subgridSum c (s * m) m (t * m) Fn f0 f1 g h X0 X1 = g.sign c * ∑ v0 ∈ range (t * m), ∑ v1 ∈ range (t * m),
      g.data.get (h.sub v0 v1) *
        ((((s * t * m : Nat) : ℂ) * (starRingEnd ℂ) (interp s t m p f0 (winStart c g.off0) X0 (g.off0 - (t * m / 2 : Nat) + v0))) *
         (((s * t * m : Nat) : ℂ) * (starRingEnd ℂ) (interp s t m p f1 (winStart c g.off1) X1 (g.off1 - (t * m / 2 : Nat) + v1)))) := by
  unfold subgridSum SubgridArrays.sign
  simp only [axisBack_eq c s t m hs ht hm em ex he p Fn hp]
  have hh : c.xM / 2 = (t * m / 2 : Nat) := by rw [ex]; norm_cast
  rw [hh]
  simp only [mul_sum]
  rw [sum_comm]
  refine sum_congr rfl fun v0 _ => sum_congr rfl fun v1 _ => ?_
  rw [show (g.off0 + (v0 : Int) - (t * m / 2 : Nat)) = g.off0 - (t * m / 2 : Nat) + v0 by ring,
    show (g.off1 + (v1 : Int) - (t * m / 2 : Nat)) = g.off1 - (t * m / 2 : Nat) + v1 by ring]
  ring

theorem goodOffset (c : Cfg) (hc : createCheck c = .success) (s m : Nat) (hs : 0 < s) (em : c.m = m) (es : c.image / c.xM = s)
    (o : Int) (h : GoodOffset c o) : (s : Int) ∣ o ∧ o / (s : Int) = o.tdiv (c.image / c.xM) ∧ 0 ≤ o / (s : Int) + c.m / 2 := by
  obtain ⟨h1, h2⟩ := h
  have hm0 := m_pos hc
  rw [es] at h1 h2
  refine ⟨h1, ?_, by omega⟩
  obtain ⟨k, rfl⟩ := h1
  rw [es, Int.mul_tdiv_cancel_left _ (by omega), Int.mul_ediv_cancel_left _ (by omega)]

/-- **C116, subgrids to a facet in two dimensions.**  For every accepted plan with an even contribution size, all arrays with
any strides (the transposed views included), every list of padded subgrids at any offsets, and every facet smaller than the
padded facet at multiples of the facet step not below minus half a contribution, with a window that does not vanish on it: every
call returns success, whether contributions are extracted in one call or in two, only the elements of the facet array are
written, and every pixel differs from the direct conjugate Fourier sum over all subgrid points, each subgrid taken with the sign
of C33, by at most the leakage of the window along the two axes. -/
theorem C116_backward_2d_partial (c : Cfg) (hc : createCheck c = .success) (he : c.m % 2 = 0) (pswf : Arr ℝ)
    (hp : (pswf.size : Int) = c.yN) (once : Bool) (gs : List (SubgridArrays × SubgridShape))
    (hg : ∀ g ∈ gs, Subgrid2Ok c g.1 g.2) (o0 o1 : Int) (ho0 : GoodOffset c o0) (ho1 : GoodOffset c o1) (f : FacetOutArrays)
    (F0 F1 : Nat) (h0 : 1 ≤ F0 ∧ (F0 : Int) < c.yN) (h1 : 1 ≤ F1 ∧ (F1 : Int) < c.yN)
    (w0 : ∀ j < F0, pswf.get (j + c.yN.toNat / 2 - F0 / 2) ≠ 0) (w1 : ∀ j < F1, pswf.get (j + c.yN.toNat / 2 - F1 / 2) ≠ 0)
    (pa p0 p : Nat → Nat → Nat) (hf : FacetOutOk c f F0 F1 pa p0 p) :
    ∃ Fn Fb r, planTables c pswf = some (Fn, Fb) ∧
      toFacet2d c Fn Fb once (gs.map Prod.fst) o0 o1 f .success = some (.success, r) ∧ r.size = f.fbuf.size ∧
      (∀ x, (∀ i j, i < F0 → j < F1 → p i j ≠ x) → r.get x = f.fbuf.get x) ∧
      ∀ j0 j1, j0 < F0 → j1 < F1 → ‖r.get (p j0 j1) - (gs.map fun g : SubgridArrays × SubgridShape => g.1.sign c *
          (g.1.spec c g.2).pixel c.image.toNat (o0 - (F0 / 2 : Nat) + j0) (o1 - (F1 / 2 : Nat) + j1)).sum‖ ≤
        (gs.map fun g : SubgridArrays × SubgridShape => ∑ v0 ∈ range c.xM.toNat, ∑ v1 ∈ range c.xM.toNat,
          ‖g.1.data.get (g.2.sub v0 v1)‖ *
            (c.image.toNat * axisError c pswf F0 j0 g.1.off0 (g.1.off0 - (c.xM.toNat / 2 : Nat) + v0) +
              c.image.toNat * axisError c pswf F1 j1 g.1.off1 (g.1.off1 - (c.xM.toNat / 2 : Nat) + v1) +
              c.image.toNat * axisError c pswf F0 j0 g.1.off0 (g.1.off0 - (c.xM.toNat / 2 : Nat) + v0) *
                (c.image.toNat * axisError c pswf F1 j1 g.1.off1 (g.1.off1 - (c.xM.toNat / 2 : Nat) + v1)))).sum := by
  obtain ⟨s, t, m, hs, ht, hm, em, ei, ey, ex, es, et, hx2, hy2⟩ := sizesN hc
  obtain ⟨Fn, Fb, eT, sFn, sFb, vFn, vFb, _, _⟩ := planTables_spec c hc s m em ey es pswf (by omega)
  have hm2 : m % 2 = 0 := by omega
  obtain ⟨d0, q0, n0⟩ := goodOffset c hc s m hs em es o0 ho0
  obtain ⟨d1, q1, n1⟩ := goodOffset c hc s m hs em es o1 ho1
  obtain ⟨r, er, sr, vr, wr⟩ := toFacet2d_spec c hc Fn Fb (by omega) (by omega) once o0 o1 _ _ q0 q1 n0 n1 (s * m) m (t * m) ey em ex
    gs hg f F0 F1 h0.1 h1.1 (by omega) (by omega) pa p0 p hf
  refine ⟨Fn, Fb, r, eT, er, sr, wr, fun j0 j1 hj0 hj1 => ?_⟩
  rw [vr j0 j1 hj0 hj1]
  beta_reduce
  rw [← List.sum_map_mul_left, list_map_sub]
  refine list_norm_sum_le _ _ _ fun g _ => ?_
  rw [subgridSum_eq c s t m hs ht hm em ex hm2 pswf.get Fn (vFn hm2)]
  unfold Spec.Subgrid2.pixel SubgridArrays.spec
  rw [ey, Int.toNat_natCast] at w0 w1
  rw [ei, ex]
  simp only [Int.toNat_natCast]
  rw [mul_left_comm, ← mul_sub, norm_mul, SubgridArrays.sign_norm, one_mul, mul_sum, ← sum_sub_distrib]
  refine (norm_sum_le _ _).trans (sum_le_sum fun v0 _ => ?_)
  rw [mul_sum, ← sum_sub_distrib]
  refine (norm_sum_le _ _).trans (sum_le_sum fun v1 _ => ?_)
  have a0 := axis_error_back c s t m hs ht hm em ei ey et hm2 hy2 pswf Fb vFb g.1.off0 (g.1.off0 - (t * m / 2 : Nat) + v0) o0 d0 F0 j0
    (by omega) hj0 (w0 j0 hj0)
  have a1 := axis_error_back c s t m hs ht hm em ei ey et hm2 hy2 pswf Fb vFb g.1.off1 (g.1.off1 - (t * m / 2 : Nat) + v1) o1 d1 F1 j1
    (by omega) hj1 (w1 j1 hj1)
  have nn : ∀ x u : Int, ‖Spec.phase (s * t * m) x u‖ = 1 := by
    intro x u
    rw [phase_root, root_norm]
  have pe := product_error _ _ _ _ _ _ _ a0 a1 (nn _ _) (nn _ _)
  have e2 : ∀ (d A B x y a b : ℂ), a * b * (d * (A * B)) - d * x * y = d * (a * A * (b * B) - x * y) := by
    intros
    ring
  rw [e2, norm_mul]
  refine mul_le_mul_of_nonneg_left (pe.trans_eq ?_) (norm_nonneg (g.1.data.get (g.2.sub v0 v1)))
  rw [one_mul]

/-- **C116, exactness.**  When a padded subgrid is as large as the image, the sequence computes exactly the direct sum. -/
theorem C116_exact_2d_partial (c : Cfg) (hc : createCheck c = .success) (he : c.m % 2 = 0) (hN : c.xM = c.image) (pswf : Arr ℝ)
    (hp : (pswf.size : Int) = c.yN) (once : Bool) (gs : List (SubgridArrays × SubgridShape))
    (hg : ∀ g ∈ gs, Subgrid2Ok c g.1 g.2) (o0 o1 : Int) (ho0 : GoodOffset c o0) (ho1 : GoodOffset c o1) (f : FacetOutArrays)
    (F0 F1 : Nat) (h0 : 1 ≤ F0 ∧ (F0 : Int) < c.yN) (h1 : 1 ≤ F1 ∧ (F1 : Int) < c.yN)
    (w0 : ∀ j < F0, pswf.get (j + c.yN.toNat / 2 - F0 / 2) ≠ 0) (w1 : ∀ j < F1, pswf.get (j + c.yN.toNat / 2 - F1 / 2) ≠ 0)
    (pa p0 p : Nat → Nat → Nat) (hf : FacetOutOk c f F0 F1 pa p0 p) :
    ∃ Fn Fb r, planTables c pswf = some (Fn, Fb) ∧
      toFacet2d c Fn Fb once (gs.map Prod.fst) o0 o1 f .success = some (.success, r) ∧
      ∀ j0 j1, j0 < F0 → j1 < F1 → r.get (p j0 j1) = (gs.map fun g : SubgridArrays × SubgridShape => g.1.sign c *
          (g.1.spec c g.2).pixel c.image.toNat (o0 - (F0 / 2 : Nat) + j0) (o1 - (F1 / 2 : Nat) + j1)).sum := by
  obtain ⟨Fn, Fb, r, e1, e2, _, _, e3⟩ := C116_backward_2d_partial c hc he pswf hp once gs hg o0 o1 ho0 ho1 f F0 F1 h0 h1 w0 w1 pa p0
    p hf
  refine ⟨Fn, Fb, r, e1, e2, fun j0 j1 hj0 hj1 => ?_⟩
  have hb := e3 j0 j1 hj0 hj1
  have hmn : c.yN.toNat = c.m.toNat := by
    obtain ⟨s, t, m, hs, ht, hm, em, ei, ey, ex, es, et, hx2, hy2⟩ := sizesN hc
    have hp : 0 < t * m := Nat.mul_pos ht hm
    have : t * m = s * (t * m) := by
      rw [ei, ex] at hN
      have : t * m = s * t * m := by exact_mod_cast hN
      rw [← mul_assoc]
      exact this
    have hs1 : s = 1 := by nlinarith
    rw [ey, em, hs1, one_mul]
  have hE : ∀ F j u u', axisError c pswf F j u u' = 0 := by
    intro F j u u'
    unfold axisError Spec.residual
    rw [hmn, Nat.sub_self, sum_range_zero, mul_zero, mul_zero]
  simp only [hE, add_zero, mul_zero, sum_const_zero, List.map_const', List.sum_replicate, smul_zero] at hb
  exact sub_eq_zero.1 (norm_le_zero_iff.1 hb)

/-- **C116, adjoint.**  Under the same conditions the two-dimensional sequences are adjoint to one another, exactly and whatever
the window: the inner product of the subgrid computed from a facet with a subgrid, times the square of the image size, is that
of the facet with the facet computed from the subgrid, up to the sign. -/
theorem C116_adjoint_2d_partial (c : Cfg) (hc : createCheck c = .success) (he : c.m % 2 = 0) (pswf : Arr ℝ)
    (hp : (pswf.size : Int) = c.yN) (once : Bool) (F : FacetArrays) (H : Shape2) (hF : Facet2Ok c pswf F H)
    (g : SubgridArrays) (h : SubgridShape) (hg : Subgrid2Ok c g h) {ma : Mem} {a : Arr ℂ} {M : Nat} (hM : (M : Int) = c.xM)
    (ha : Out ma a M M fun i j => M * i + j) (hs : a.size = M * M) (hs0 : ma.strideElementsDim 0 = M)
    (hs1 : ma.strideElementsDim 1 = 1) (hz : ∀ i, a.get i = 0) (f : FacetOutArrays) (pa p0 p : Nat → Nat → Nat)
    (hf : FacetOutOk c f H.size0 H.size1 pa p0 p) :
    ∃ Fn Fb x y, planTables c pswf = some (Fn, Fb) ∧
      toSubgrid2d c Fn Fb [F] g.off0 g.off1 ma .success a = some (.success, x) ∧
      toFacet2d c Fn Fb once [g] F.off0 F.off1 f .success = some (.success, y) ∧
      g.sign c * (c.image ^ 2 * ∑ v0 ∈ range M, ∑ v1 ∈ range M, x.get (M * v0 + v1) * (starRingEnd ℂ) (g.data.get (h.sub v0 v1))) =
        ∑ j0 ∈ range H.size0, ∑ j1 ∈ range H.size1, F.data.get (H.facet j0 j1) * (starRingEnd ℂ) (y.get (p j0 j1)) := by
  obtain ⟨s, t, m, hs', ht, hm, em, ei, ey, ex, es, et, hx2, hy2⟩ := sizesN hc
  obtain ⟨Fn, Fb, eT, sFn, sFb, vFn, vFb, _, _⟩ := planTables_spec c hc s m em ey es pswf (by omega)
  have hm2 : m % 2 = 0 := by omega
  obtain rfl : M = t * m := by omega
  obtain ⟨z, eL, sL, vL⟩ := addFacets2d_spec c hc s t m hs' ht hm em ey ex es hm2 pswf Fn Fb sFn sFb (vFn hm2) g.off0 g.off1 ma _
    [(F, H)] (by simpa using hF) a ha
  obtain ⟨x, ex', sx, vx⟩ := C110_finish_subgrid_2d_partial c hc g.off0 g.off1 (ha.resize sL) hM (sL.trans hs) hs0 hs1
  obtain ⟨d0, q0, n0⟩ := goodOffset c hc s m hs' em es F.off0 hF.off0
  obtain ⟨d1, q1, n1⟩ := goodOffset c hc s m hs' em es F.off1 hF.off1
  have z0 := hF.size0
  have z1 := hF.size1
  obtain ⟨y, ey', sy, vy, _⟩ := toFacet2d_spec c hc Fn Fb (by omega) (by omega) once F.off0 F.off1 _ _ q0 q1 n0 n1 (s * m) m (t * m) ey
    em ex [(g, h)] (by simpa using hg) f H.size0 H.size1 z0.1 z1.1 (by omega) (by omega) pa p0 p hf
  refine ⟨Fn, Fb, x, y, eT, ?_, ey', ?_⟩
  · unfold toSubgrid2d
    rw [List.map_cons, List.map_nil] at eL
    rw [eL]
    simp only [Option.bind_some]
    exact ex'
  have hx' : ((t * m : Nat) : ℂ) ≠ 0 := by exact_mod_cast (Nat.mul_pos ht hm).ne'
  have l : ∀ v0 ∈ range (t * m), ∀ v1 ∈ range (t * m), x.get (t * m * v0 + v1) =
      facetSum c s t m pswf.get Fb g.off0 g.off1 F H (g.off0 - (t * m / 2 : Nat) + v0) (g.off1 - (t * m / 2 : Nat) + v1) := by
    intro v0 hv0 v1 hv1
    rw [vx v0 v1 (mem_range.1 hv0) (mem_range.1 hv1), vL, gridSum2_zero _ _ (fun r q _ _ => hz _), zero_add, ← mul_assoc, one_div,
      inv_mul_cancel₀ (pow_ne_zero 2 hx'), one_mul]
    simp only [List.map_cons, List.map_nil, List.sum_cons, List.sum_nil, add_zero]
    rw [show g.off0 + (v0 : Int) - ((t * m / 2 : Nat) : Int) = g.off0 - ((t * m / 2 : Nat) : Int) + v0 by ring,
      show g.off1 + (v1 : Int) - ((t * m / 2 : Nat) : Int) = g.off1 - ((t * m / 2 : Nat) : Int) + v1 by ring]
  have r' : ∀ j0 ∈ range H.size0, ∀ j1 ∈ range H.size1, y.get (p j0 j1) =
      (Fb.get (j0 + s * m / 2 - H.size0 / 2) : ℂ) * Fb.get (j1 + s * m / 2 - H.size1 / 2) *
        subgridSum c (s * m) m (t * m) Fn (F.off0 / s) (F.off1 / s) g h (F.off0 - (H.size0 / 2 : Nat) + j0)
          (F.off1 - (H.size1 / 2 : Nat) + j1) := by
    intro j0 hj0 j1 hj1
    rw [vy j0 j1 (mem_range.1 hj0) (mem_range.1 hj1)]
    simp only [List.map_cons, List.map_nil, List.sum_cons, List.sum_nil, add_zero]
  have lS : ∑ v0 ∈ range (t * m), ∑ v1 ∈ range (t * m), x.get (t * m * v0 + v1) * (starRingEnd ℂ) (g.data.get (h.sub v0 v1)) =
      ∑ v0 ∈ range (t * m), ∑ v1 ∈ range (t * m),
        facetSum c s t m pswf.get Fb g.off0 g.off1 F H (g.off0 - (t * m / 2 : Nat) + v0) (g.off1 - (t * m / 2 : Nat) + v1) *
          (starRingEnd ℂ) (g.data.get (h.sub v0 v1)) := by
    refine sum_congr rfl fun v0 hv0 => sum_congr rfl fun v1 hv1 => ?_
    rw [l v0 hv0 v1 hv1]
  rw [lS]
  refine Eq.trans ?_ (sum_congr rfl fun j0 hj0 => sum_congr rfl fun j1 hj1 => congrArg (fun w => F.data.get (H.facet j0 j1) *
    (starRingEnd ℂ) w) ((r' j0 hj0 j1 hj1).trans (congrArg _
      (subgridSum_eq c s t m hs' ht hm em ex hm2 pswf.get Fn (vFn hm2) _ _ _ _ _ _)))).symm
  beta_reduce
  rw [ei, Int.cast_natCast]
  unfold facetSum
  have hsg : (starRingEnd ℂ) (g.sign c) = g.sign c := by
    unfold SubgridArrays.sign
    rw [map_mul, map_zpow₀, map_zpow₀, map_neg, map_one]
  simp only [map_mul, map_sum, Complex.conj_conj, Complex.conj_ofReal, map_natCast, hsg, mul_sum, sum_mul]
  -- left: v0 v1 j1 j0; right: j0 j1 v0 v1
  have sw : ∀ (A B C D : Nat) (G : Nat → Nat → Nat → Nat → ℂ),
      ∑ v0 ∈ range A, ∑ v1 ∈ range B, ∑ j1 ∈ range C, ∑ j0 ∈ range D, G v0 v1 j1 j0 =
        ∑ j0 ∈ range D, ∑ j1 ∈ range C, ∑ v0 ∈ range A, ∑ v1 ∈ range B, G v0 v1 j1 j0 := by
    intro A B C D G
    rw [sum_congr rfl fun v0 _ => (sum_congr rfl fun v1 _ => sum_comm)]
    rw [sum_congr rfl fun v0 _ => sum_comm]
    rw [sum_comm]
    refine sum_congr rfl fun j0 _ => ?_
    rw [sum_congr rfl fun v0 _ => sum_comm]
    rw [sum_comm]
  rw [sw]
  exact sum_congr rfl fun j0 _ => sum_congr rfl fun j1 _ => sum_congr rfl fun v0 _ => sum_congr rfl fun v1 _ => by ring

end
end Sdp.Swiftly
