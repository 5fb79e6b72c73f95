import Verif.Swiftly.Call2dMain

/-! # C110: the two-dimensional sequence of calls, facets to a subgrid -/

namespace Sdp.Swiftly
open Finset Sdp.Fft Sdp.GridUtil
noncomputable section

/-- What is known of one facet and its arrays.  The offsets are not too negative for `add_to_subgrid_2d`. -/
structure Facet2Ok (c : Cfg) (pswf : Arr ℝ) (f : FacetArrays) (h : Shape2) : Prop where
  arrays : Arrays2 c f h.size0 h.size1 c.yN.toNat c.m.toNat h.facet h.prep0 h.prep h.contrib0 h.contrib
  size0 : 1 ≤ h.size0 ∧ (h.size0 : Int) < c.yN
  size1 : 1 ≤ h.size1 ∧ (h.size1 : Int) < c.yN
  off0 : c.image / c.xM ∣ f.off0 ∧ -((c.m.toNat / 2 : Nat) : Int) ≤ f.off0 / (c.image / c.xM)
  off1 : c.image / c.xM ∣ f.off1 ∧ -((c.m.toNat / 2 : Nat) : Int) ≤ f.off1 / (c.image / c.xM)
  window0 : ∀ j < h.size0, pswf.get (j + c.yN.toNat / 2 - h.size0 / 2) ≠ 0
  window1 : ∀ j < h.size1, pswf.get (j + c.yN.toNat / 2 - h.size1 / 2) ≠ 0

/-- The facet that the arrays hold. -/
def FacetArrays.spec (f : FacetArrays) (h : Shape2) : Spec.Facet2 :=
  ⟨h.size0, h.size1, f.off0, f.off1, fun j0 j1 => f.data.get (h.facet j0 j1)⟩

/-- Relative error of one axis for pixel `j` of `F`. -/
def axisError (c : Cfg) (pswf : Arr ℝ) (F j : Nat) (u0 u : Int) : ℝ :=
  1 / |pswf.get (j + c.yN.toNat / 2 - F / 2)| *
    (2 / c.image.toNat * Spec.residual c.image.toNat c.yN.toNat c.m.toNat pswf.get u0 u)

/-- All facets, from any accumulator. -/
theorem addFacets2d_spec (c : Cfg) (hc : createCheck c = .success) (s t m : Nat) (hs : 0 < s) (ht : 0 < t) (hm : 0 < m)
    (em : c.m = m) (ey : c.yN = (s * m : Nat)) (ex : c.xM = (t * m : Nat)) (es : c.image / c.xM = s) (he : m % 2 = 0)
    (pswf : Arr ℝ) (Fn Fb : Arr ℝ) (hFn : Fn.size = m) (hFb : Fb.size = s * m) (hp : ∀ i < m, Fn.get i = pswf.get (s * i))
    (u0 u1 : Int) (ma : Mem) (po : Nat → Nat → Nat) (fs : List (FacetArrays × Shape2))
    (hf : ∀ g ∈ fs, Facet2Ok c pswf g.1 g.2) : ∀ (a : Arr ℂ), Out ma a (t * m) (t * m) po →
    ∃ z, loop (addFacet2d c Fn Fb u0 u1 ma) (.success, a) (fs.map Prod.fst) = some (.success, z) ∧ z.size = a.size ∧ ∀ u v,
      gridSum2 (t * m) (fun r q => z.get (po r q)) u v = gridSum2 (t * m) (fun r q => a.get (po r q)) u v +
        (t * m : Nat) ^ 2 * (fs.map fun g : FacetArrays × Shape2 => facetSum c s t m pswf.get Fb u0 u1 g.1 g.2 u v).sum := by
  induction fs with
  | nil =>
    intro a _
    refine ⟨a, rfl, rfl, fun u v => ?_⟩
    rw [List.map_nil, List.sum_nil, mul_zero, add_zero]
  | cons g gs ih =>
    intro a ha
    have hg := hf g (by simp)
    have hA := hg.arrays
    rw [ey, em] at hA
    simp only [Int.toNat_natCast] at hA
    have q0 := hg.size0
    have q1 := hg.size1
    have o0 := hg.off0
    have o1 := hg.off1
    rw [es, em, Int.toNat_natCast] at o0 o1
    obtain ⟨z, ez, sz, vz⟩ := addFacet2d_spec c hc s t m hs ht hm em ey ex es he pswf.get Fn Fb hFn hFb hp u0 u1 g.1 g.2 hA
      q0.1 q1.1 (by omega) (by omega) o0.1 o1.1 o0.2 o1.2 ma a po ha
    obtain ⟨y, ey', sy, vy⟩ := ih (fun g' hg' => hf g' (by simp [hg'])) z (ha.resize sz)
    refine ⟨y, ?_, sy.trans sz, fun u v => ?_⟩
    · rw [List.map_cons]
      unfold loop
      rw [ez]
      exact ey'
    · rw [vy, vz, List.map_cons, List.sum_cons]
      ring

theorem gridSum2_zero (M : Nat) (x : Nat → Nat → ℂ) (h : ∀ r q, r < M → q < M → x r q = 0) (u v : Int) :
    gridSum2 M x u v = 0 := by
  unfold gridSum2
  exact gridSum_zero _ _ (fun r hr => gridSum_zero _ _ (fun q hq => h r q hr hq) v) u

/-- Error of a product of two approximations of numbers of size `1 / N`. -/
theorem product_error (A B a b : ℂ) (d e k : ℝ) (ha : ‖A - a‖ ≤ d) (hb : ‖B - b‖ ≤ e) (na : ‖a‖ = k) (nb : ‖b‖ = k) :
    ‖A * B - a * b‖ ≤ k * (d + e) + d * e := by
  have h1 : A * B - a * b = (A - a) * (B - b) + (A - a) * b + a * (B - b) := by ring
  rw [h1]
  have hd : 0 ≤ d := (norm_nonneg (A - a)).trans ha
  have hk : 0 ≤ k := na ▸ norm_nonneg a
  refine (norm_add₃_le).trans ?_
  rw [norm_mul, norm_mul, norm_mul, na, nb]
  have h2 := mul_le_mul ha hb (norm_nonneg (B - b)) hd
  have h3 := mul_le_mul_of_nonneg_right ha hk
  have h4 := mul_le_mul_of_nonneg_left hb hk
  linarith

/-- One axis of one pixel. -/
theorem axis_error (c : Cfg) (s t m : Nat) (hs : 0 < s) (ht : 0 < t) (hm : 0 < m) (em : c.m = m)
    (ei : c.image = (s * t * m : Nat)) (ey : c.yN = (s * m : Nat)) (et : c.image.tdiv c.yN = t)
    (he : m % 2 = 0) (hy2 : 2 ∣ s * m) (pswf Fb : Arr ℝ) (hFb : ∀ i, 0 < i → i < s * m → Fb.get i = 1 / pswf.get i)
    (u0 u o : Int) (ho : (s : Int) ∣ o) (F j : Nat) (hF : F < s * m) (hj : j < F)
    (hp : pswf.get (j + s * m / 2 - F / 2) ≠ 0) :
    ‖Fb.get (j + s * m / 2 - F / 2) * interp s t m pswf.get (o / s) (winStart c u0) (o - (F / 2 : Nat) + j) u -
      1 / ((s * t * m : Nat) : ℂ) * Spec.phase (s * t * m) (o - (F / 2 : Nat) + j) u‖ ≤ axisError c pswf F j u0 u := by
  have hidx : 0 < j + s * m / 2 - F / 2 ∧ j + s * m / 2 - F / 2 < s * m := by
    obtain ⟨y, hy⟩ := hy2
    rw [hy] at hF ⊢
    omega
  obtain ⟨f, hf⟩ := ho
  unfold axisError
  rw [hFb _ hidx.1 hidx.2, show o / (s : Int) = f by rw [hf, Int.mul_ediv_cancel_left _ (by omega)], winStart_eq m t em et,
    ei, ey, em]
  simp only [Int.toNat_natCast]
  exact sample_error s t m hs ht hm he pswf.get u0 o f hf F j hF hj hp u

/-- **C110, facets to a subgrid in two dimensions.**  For every accepted plan with an even contribution size, all arrays with
any strides (the documented transposed views included), every list of facets whose offsets are multiples of the facet step and
at least minus half a contribution, and every subgrid offset: every call returns success, and grid point `(i, j)` of the padded
subgrid differs from the direct two-dimensional Fourier sum over all facet pixels by at most the leakage of the window along
the two axes.  The accumulator has contiguous rows. -/
theorem C110_forward_2d_partial (c : Cfg) (hc : createCheck c = .success) (he : c.m % 2 = 0) (pswf : Arr ℝ)
    (hp : (pswf.size : Int) = c.yN) (fs : List (FacetArrays × Shape2)) (hf : ∀ g ∈ fs, Facet2Ok c pswf g.1 g.2) (u0 u1 : Int)
    {ma : Mem} {a : Arr ℂ} {M : Nat} (hM : (M : Int) = c.xM) (ha : Out ma a M M fun i j => M * i + j) (hs : a.size = M * M)
    (hs0 : ma.strideElementsDim 0 = M) (hs1 : ma.strideElementsDim 1 = 1) (hz : ∀ i, a.get i = 0) :
    ∃ Fn Fb r, planTables c pswf = some (Fn, Fb) ∧
      toSubgrid2d c Fn Fb (fs.map Prod.fst) u0 u1 ma .success a = some (.success, r) ∧ r.size = M * M ∧
      ∀ i j, i < M → j < M → ‖r.get (M * i + j) - (fs.map fun g : FacetArrays × Shape2 =>
          (g.1.spec g.2).grid c.image.toNat (u0 + i - (M / 2 : Nat)) (u1 + j - (M / 2 : Nat))).sum‖ ≤
        (fs.map fun g : FacetArrays × Shape2 => ∑ j0 ∈ range g.2.size0, ∑ j1 ∈ range g.2.size1,
          ‖g.1.data.get (g.2.facet j0 j1)‖ *
            (1 / c.image.toNat * (axisError c pswf g.2.size0 j0 u0 (u0 + i - (M / 2 : Nat)) +
                axisError c pswf g.2.size1 j1 u1 (u1 + j - (M / 2 : Nat))) +
              axisError c pswf g.2.size0 j0 u0 (u0 + i - (M / 2 : Nat)) *
                axisError c pswf g.2.size1 j1 u1 (u1 + j - (M / 2 : Nat)))).sum := by
  obtain ⟨s, t, m, hs', ht, hm, em, ei, ey, ex, es, et, hx2, hy2⟩ := sizesN hc
  obtain ⟨Fn, Fb, eT, sFn, sFb, vFn, vFb, _, _⟩ := planTables_spec c hc s m em ey es pswf (by omega)
  have hm2 : m % 2 = 0 := by omega
  obtain rfl : M = t * m := by omega
  obtain ⟨y, eL, sL, vL⟩ := addFacets2d_spec c hc s t m hs' ht hm em ey ex es hm2 pswf Fn Fb sFn sFb (vFn hm2) u0 u1 ma _ fs hf
    a ha
  obtain ⟨r, er, sr, vr⟩ := C110_finish_subgrid_2d_partial c hc u0 u1 (ha.resize sL) hM (sL.trans hs) hs0 hs1
  refine ⟨Fn, Fb, r, eT, ?_, sr, fun i j hi hj => ?_⟩
  · unfold toSubgrid2d
    rw [eL]
    exact er
  rw [vr i j hi hj, vL, gridSum2_zero _ _ (fun r q _ _ => hz _), zero_add, ← mul_assoc]
  have hx' : ((t * m : Nat) : ℂ) ≠ 0 := by exact_mod_cast (Nat.mul_pos ht hm).ne'
  rw [one_div, inv_mul_cancel₀ (pow_ne_zero 2 hx'), one_mul, list_map_sub]
  refine list_norm_sum_le _ _ _ fun g hg => ?_
  have hk := hf g hg
  have w0 := hk.window0
  have w1 := hk.window1
  have q0 := hk.size0.2
  have q1 := hk.size1.2
  have o0 := hk.off0.1
  have o1 := hk.off1.1
  rw [es] at o0 o1
  rw [ey] at w0 w1 q0 q1
  rw [Int.toNat_natCast] at w0 w1
  have q0' : g.2.size0 < s * m := by omega
  have q1' : g.2.size1 < s * m := by omega
  unfold facetSum Spec.Facet2.grid
  simp only [FacetArrays.spec]
  generalize u0 + (i : Int) - (t * m / 2 : Nat) = U
  generalize u1 + (j : Int) - (t * m / 2 : Nat) = V
  have e1 : ∑ j1 ∈ range g.2.size1, (Fb.get (j1 + s * m / 2 - g.2.size1 / 2) *
      interp s t m pswf.get (g.1.off1 / s) (winStart c u1) (g.1.off1 - (g.2.size1 / 2 : Nat) + j1) V) *
      ∑ j0 ∈ range g.2.size0, (Fb.get (j0 + s * m / 2 - g.2.size0 / 2) *
        interp s t m pswf.get (g.1.off0 / s) (winStart c u0) (g.1.off0 - (g.2.size0 / 2 : Nat) + j0) U) *
          g.1.data.get (g.2.facet j0 j1) =
      ∑ j0 ∈ range g.2.size0, ∑ j1 ∈ range g.2.size1, g.1.data.get (g.2.facet j0 j1) *
        ((Fb.get (j0 + s * m / 2 - g.2.size0 / 2) *
          interp s t m pswf.get (g.1.off0 / s) (winStart c u0) (g.1.off0 - (g.2.size0 / 2 : Nat) + j0) U) *
        (Fb.get (j1 + s * m / 2 - g.2.size1 / 2) *
          interp s t m pswf.get (g.1.off1 / s) (winStart c u1) (g.1.off1 - (g.2.size1 / 2 : Nat) + j1) V)) := by
    simp only [mul_sum]
    rw [sum_comm]
    exact sum_congr rfl fun j1 _ => sum_congr rfl fun j0 _ => by ring
  rw [e1, mul_sum, ← sum_sub_distrib]
  refine (norm_sum_le _ _).trans (sum_le_sum fun j0 hj0 => ?_)
  rw [mul_sum, ← sum_sub_distrib]
  refine (norm_sum_le _ _).trans (sum_le_sum fun j1 hj1 => ?_)
  rw [mem_range] at hj0 hj1
  have a0 := axis_error c s t m hs' ht hm em ei ey et hm2 hy2 pswf Fb vFb u0 U g.1.off0 o0 g.2.size0 j0 q0' hj0 (w0 j0 hj0)
  have a1 := axis_error c s t m hs' ht hm em ei ey et hm2 hy2 pswf Fb vFb u1 V g.1.off1 o1 g.2.size1 j1 q1' hj1 (w1 j1 hj1)
  have nn : ∀ x u : Int, ‖1 / ((s * t * m : Nat) : ℂ) * Spec.phase (s * t * m) x u‖ = 1 / ((s * t * m : Nat) : ℝ) := by
    intro x u
    rw [phase_root, norm_mul, root_norm, mul_one, norm_div, norm_one, Complex.norm_natCast]
  have pe := product_error _ _ _ _ _ _ _ a0 a1 (nn _ _) (nn _ _)
  rw [ei]
  simp only [Int.toNat_natCast]
  have e2 : ∀ (d A B x y : ℂ) (N : Nat), d * (A * B) - 1 / (N : ℂ) ^ 2 * (d * x * y) =
      d * (A * B - 1 / (N : ℂ) * x * (1 / (N : ℂ) * y)) := by
    intros
    rw [one_div, one_div, ← inv_pow]
    ring
  rw [e2, norm_mul]
  exact mul_le_mul_of_nonneg_left pe (norm_nonneg (g.1.data.get (g.2.facet j0 j1)))

end
end Sdp.Swiftly
