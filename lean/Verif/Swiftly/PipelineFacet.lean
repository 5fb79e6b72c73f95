import Verif.Swiftly.PipelineMain

/-! # C102: subgrids to a facet against direct Fourier sums, and the adjoint -/

namespace Sdp.Swiftly
open Finset Sdp.Fft
noncomputable section

/-- The whole backward sequence in closed form. -/
theorem toFacet_spec (c : Cfg) (hc : createCheck c = .success) (s t m : Nat) (hs : 0 < s) (ht : 0 < t) (hm : 0 < m)
    (em : c.m = m) (ey : c.yN = (s * m : Nat)) (ex : c.xM = (t * m : Nat)) (es : c.image / c.xM = s) (he : m % 2 = 0)
    (hx2 : 2 ∣ t * m) (p : Nat → ℝ) (Fn Fb : Arr ℝ) (hFn : Fn.size = m) (hFb : Fb.size = s * m)
    (hp : ∀ i < m, Fn.get i = p (s * i)) (o f : Int) (hf : o = s * f) (hf0 : 0 ≤ f + (m / 2 : Nat)) (gs : List SubgridRow)
    (hg : ∀ g ∈ gs, g.data.size = t * m ∧ g.contrib.size = m) (acc : Arr ℂ) (ha : acc.size = s * m)
    (hz : ∀ i < s * m, acc.get i = 0) (F : Nat) (hF : 1 ≤ F) (hF' : F ≤ s * m) (fct : Arr ℂ) (hfct : fct.size = F) :
    ∃ r, toFacet c Fn Fb gs F o acc fct = some r ∧ r.size = F ∧ ∀ j < F, r.get j =
      Fb.get (j + s * m / 2 - F / 2) * ((s * t * m : Nat) * (gs.map fun g : SubgridRow =>
        (-1) ^ (g.offset + (t * m / 2 : Nat)) * ∑ v ∈ range (t * m), g.data.get v * (starRingEnd ℂ)
          (interp s t m p f (winStart c g.offset) (o - (F / 2 : Nat) + j) (g.offset + v - (t * m / 2 : Nat)))).sum) := by
  have hn : 0 < s * m := Nat.mul_pos hs hm
  unfold toFacet
  obtain ⟨a, ea, sa, va⟩ := addSubgrids_spec c hc s t m hs ht hm em ey ex es he hx2 p Fn hFn hp o f hf hf0 gs hg acc ha
  rw [ea]
  simp only [Option.bind_some]
  obtain ⟨r, er, sr, vr⟩ := C59_finish_facet c hc F o (by omega) (by omega) a Fb fct (by omega) (by omega) (by omega)
  refine ⟨r, er, by omega, fun j hj => ?_⟩
  rw [vr j (by omega), ey, Int.toNat_natCast]
  have e1 : dft false (s * m) a.get ((o - (F : Int) / 2 + j) % (s * m : Nat)).toNat = faceSum (s * m) a.get (o - (F / 2 : Nat) + j) := by
    unfold dft faceSum
    refine sum_congr rfl fun k _ => ?_
    congr 1
    simp only [sgn, Bool.false_eq_true, if_false]
    rw [show ∀ z w : Int, -1 * (z * w) = w * -z by intros; ring, root_emod _ hn]
    congr 1
    push_cast
    ring
  rw [e1, va, faceSum_zero _ _ hz, zero_add, List.sum_map_mul_left, mul_comm]
  congr 3
  omega

/-- What is known of the arrays of one subgrid. -/
def SubgridOk (c : Cfg) (g : SubgridRow) : Prop := (g.data.size : Int) = c.xM ∧ (g.contrib.size : Int) = c.m

/-- The subgrid it stands for. -/
def SubgridRow.spec (g : SubgridRow) : Spec.Subgrid := ⟨g.data.size, g.offset, g.data.get⟩

/-- **C102, subgrids to a facet.**  For every accepted plan with an even contribution size, every facet smaller than the
padded facet at a multiple of the facet step not below minus half the padded facet, with a window that does not vanish on it,
and every list of padded subgrids, the sequence of calls stays within its arrays whatever its scratch arrays contained, and
every pixel differs from the direct Fourier sum over all subgrid points, each subgrid taken with the parity sign of its offset
plus half its size (C33), by at most the stated leakage of the window. -/
theorem C102_backward_partial (c : Cfg) (hc : createCheck c = .success) (he : c.m % 2 = 0) (pswf : Arr ℝ)
    (hp : (pswf.size : Int) = c.yN) (gs : List SubgridRow) (hg : ∀ g ∈ gs, SubgridOk c g) (F : Nat) (hF : 1 ≤ F)
    (hF' : (F : Int) < c.yN) (o : Int) (ho : c.image / c.xM ∣ o) (ho' : -(c.yN / 2) ≤ o)
    (hw : ∀ j < F, pswf.get (j + c.yN.toNat / 2 - F / 2) ≠ 0) (acc fct : Arr ℂ) (ha : (acc.size : Int) = c.yN)
    (hz : ∀ i, acc.get i = 0) (hf : fct.size = F) :
    ∃ Fn Fb r, planTables c pswf = some (Fn, Fb) ∧ toFacet c Fn Fb gs F o acc fct = some r ∧ r.size = F ∧
      ∀ j < F, ‖r.get j - (gs.map fun g : SubgridRow =>
          (-1) ^ (g.offset + c.xM / 2) * g.spec.pixel c.image.toNat (o - (F / 2 : Nat) + j)).sum‖ ≤
        (gs.map fun g : SubgridRow => ∑ v ∈ range g.data.size, ‖g.data.get v‖ / |pswf.get (j + c.yN.toNat / 2 - F / 2)| *
          (2 * Spec.residual c.image.toNat c.yN.toNat c.m.toNat pswf.get g.offset (g.offset - (g.data.size / 2 : Nat) + v))).sum := by
  obtain ⟨s, t, m, hs, ht, hm, em, ei, ey, ex, es, et, hx2, hy2⟩ := sizesN hc
  obtain ⟨Fn, Fb, eT, sFn, sFb, vFn, vFb, _, _⟩ := planTables_spec c hc s m em ey es pswf (by omega)
  have hm2 : m % 2 = 0 := by omega
  obtain ⟨f, hfo⟩ := ho
  rw [es] at hfo
  have half : s * m / 2 = s * (m / 2) := by
    obtain ⟨q, hq⟩ : 2 ∣ m := Nat.dvd_of_mod_eq_zero hm2
    rw [hq, show s * (2 * q) = 2 * (s * q) by ring, Nat.mul_div_cancel_left _ two_pos, Nat.mul_div_cancel_left _ two_pos]
  have hf0 : 0 ≤ f + (m / 2 : Nat) := by
    have h1 : ((s * m : Nat) : Int) / 2 = s * (m / 2 : Nat) := by exact_mod_cast half
    rw [ey, h1, hfo] at ho'
    have h2 : (0 : Int) ≤ s * (f + (m / 2 : Nat)) := by linarith
    exact nonneg_of_mul_nonneg_right h2 (by exact_mod_cast hs)
  obtain ⟨r, er, sr, vr⟩ := toFacet_spec c hc s t m hs ht hm em ey ex es hm2 hx2 pswf.get Fn Fb sFn sFb (vFn hm2) o f hfo hf0 gs
    (fun g hg' => by obtain ⟨q1, q2⟩ := hg g hg'; exact ⟨by omega, by omega⟩) acc (by omega) (fun i _ => hz i) F hF (by omega)
    fct hf
  refine ⟨Fn, Fb, r, eT, er, sr, fun j hj => ?_⟩
  have hF2 : F < s * m := by omega
  have hidx : 0 < j + s * m / 2 - F / 2 ∧ j + s * m / 2 - F / 2 < s * m := by
    obtain ⟨y, hy⟩ := hy2
    rw [hy] at hF2 ⊢
    omega
  rw [ey, Int.toNat_natCast] at hw
  rw [vr j hj, ← mul_assoc, ← List.sum_map_mul_left, list_map_sub, ei, ey, em]
  simp only [Int.toNat_natCast]
  refine list_norm_sum_le _ _ _ fun g hg' => ?_
  obtain ⟨q1, q2⟩ := hg g hg'
  have q1' : g.data.size = t * m := by omega
  have hh : c.xM / 2 = (t * m / 2 : Nat) := by rw [ex]; norm_cast
  unfold Spec.Subgrid.pixel
  simp only [SubgridRow.spec]
  rw [q1', hh, ← mul_left_comm, ← mul_sub, norm_mul, norm_zpow, norm_neg, norm_one, one_zpow, one_mul, mul_sum, ← sum_sub_distrib]
  refine (norm_sum_le _ _).trans (sum_le_sum fun v hv => ?_)
  have hu : (g.offset + v - (t * m / 2 : Nat) : Int) = g.offset - (t * m / 2 : Nat) + v := by ring
  rw [hu, vFb _ hidx.1 hidx.2, winStart_eq m t em et]
  generalize hU : (g.offset - (t * m / 2 : Nat) + v : Int) = U
  have := sample_error s t m hs ht hm hm2 pswf.get g.offset o f hfo F j hF2 hj (hw j hj) U
  generalize hX : (o - (F / 2 : Nat) + j : Int) = X at *
  generalize hI : interp s t m pswf.get f (g.offset.tdiv t - (m / 2 : Nat)) X U = I at *
  generalize hR : Spec.residual (s * t * m) (s * m) m pswf.get g.offset U = R at *
  generalize hq : pswf.get (j + s * m / 2 - F / 2) = q at *
  have hN : ((s * t * m : Nat) : ℂ) ≠ 0 := by exact_mod_cast (Nat.mul_pos (Nat.mul_pos hs ht) hm).ne'
  have hNr : (0 : ℝ) < ((s * t * m : Nat) : ℝ) := by exact_mod_cast Nat.mul_pos (Nat.mul_pos hs ht) hm
  have hph : Spec.phase (s * t * m) X (-U) = (starRingEnd ℂ) (Spec.phase (s * t * m) X U) := by
    rw [phase_root, phase_root, root_conj]
    congr 1
    ring
  have e1 : ((1 / q : ℝ) : ℂ) * ((s * t * m : Nat) : ℂ) * (g.data.get v * (starRingEnd ℂ) I) -
      g.data.get v * Spec.phase (s * t * m) X (-U) = g.data.get v * (((s * t * m : Nat) : ℂ) * (starRingEnd ℂ)
        (((1 / q : ℝ) : ℂ) * I - 1 / ((s * t * m : Nat) : ℂ) * Spec.phase (s * t * m) X U)) := by
    rw [hph, map_sub, map_mul, map_mul, Complex.conj_ofReal, map_div₀, map_one, map_natCast]
    field_simp
  rw [e1, norm_mul, norm_mul, Complex.norm_natCast, RCLike.norm_conj]
  refine (mul_le_mul_of_nonneg_left (mul_le_mul_of_nonneg_left this hNr.le) (norm_nonneg (g.data.get v))).trans_eq ?_
  field_simp

/-- **C102, adjoint.**  Under the same conditions the two sequences are adjoint to one another, exactly and whatever the window:
for every facet and every padded subgrid the inner product of the subgrid computed from the facet with the subgrid, times the
image size, is that of the facet with the facet computed from the subgrid (up to the parity sign). -/
theorem C102_adjoint_partial (c : Cfg) (hc : createCheck c = .success) (he : c.m % 2 = 0) (pswf : Arr ℝ)
    (hp : (pswf.size : Int) = c.yN) (f : FacetRow) (h1 : 1 ≤ f.size) (h2 : (f.size : Int) ≤ c.yN) (h3 : f.data.size = f.size)
    (h4 : (f.prepared.size : Int) = c.yN) (h5 : (f.contrib.size : Int) = c.m) (ho : c.image / c.xM ∣ f.offset)
    (ho' : -(c.yN / 2) ≤ f.offset) (g : SubgridRow) (hg : SubgridOk c g) (acc sg acc' fct : Arr ℂ) (ha : (acc.size : Int) = c.xM)
    (hz : ∀ i, acc.get i = 0) (hsg : (sg.size : Int) = c.xM) (ha' : (acc'.size : Int) = c.yN) (hz' : ∀ i, acc'.get i = 0)
    (hf : fct.size = f.size) :
    ∃ Fn Fb a b, planTables c pswf = some (Fn, Fb) ∧ toSubgrid c Fn Fb [f] g.offset c.xM.toNat acc sg = some a ∧
      toFacet c Fn Fb [g] f.size f.offset acc' fct = some b ∧
      (-1) ^ (g.offset + c.xM / 2) * (c.image * ∑ v ∈ range c.xM.toNat, a.get v * (starRingEnd ℂ) (g.data.get v)) =
        ∑ j ∈ range f.size, f.data.get j * (starRingEnd ℂ) (b.get j) := by
  obtain ⟨s, t, m, hs, ht, hm, em, ei, ey, ex, es, et, hx2, hy2⟩ := sizesN hc
  obtain ⟨Fn, Fb, eT, sFn, sFb, vFn, vFb, _, _⟩ := planTables_spec c hc s m em ey es pswf (by omega)
  have hm2 : m % 2 = 0 := by omega
  obtain ⟨o, hfo⟩ := ho
  rw [es] at hfo
  have half : s * m / 2 = s * (m / 2) := by
    obtain ⟨q, hq⟩ : 2 ∣ m := Nat.dvd_of_mod_eq_zero hm2
    rw [hq, show s * (2 * q) = 2 * (s * q) by ring, Nat.mul_div_cancel_left _ two_pos, Nat.mul_div_cancel_left _ two_pos]
  have hf0 : 0 ≤ o + (m / 2 : Nat) := by
    have h1 : ((s * m : Nat) : Int) / 2 = s * (m / 2 : Nat) := by exact_mod_cast half
    rw [ey, h1, hfo] at ho'
    have h2 : (0 : Int) ≤ s * (o + (m / 2 : Nat)) := by linarith
    exact nonneg_of_mul_nonneg_right h2 (by exact_mod_cast hs)
  obtain ⟨g1, g2⟩ := hg
  obtain ⟨a, ea, sa, va⟩ := toSubgrid_spec c hc s t m hs ht hm em ey ex es hm2 pswf.get Fn Fb sFn sFb (vFn hm2) g.offset [f]
    (by simp only [List.mem_singleton, forall_eq]; exact ⟨h1, by omega, h3, by omega, by omega⟩) acc (by omega) (fun i _ => hz i)
    (t * m) le_rfl sg (by omega) hx2
  obtain ⟨b, eb, sb, vb⟩ := toFacet_spec c hc s t m hs ht hm em ey ex es hm2 hx2 pswf.get Fn Fb sFn sFb (vFn hm2) f.offset o hfo hf0
    [g] (by simp only [List.mem_singleton, forall_eq]; exact ⟨by omega, by omega⟩) acc' (by omega) (fun i _ => hz' i) f.size h1
    (by omega) fct hf
  refine ⟨Fn, Fb, a, b, eT, by rw [ex, Int.toNat_natCast]; exact ea, eb, ?_⟩
  have hh : c.xM / 2 = (t * m / 2 : Nat) := by rw [ex]; norm_cast
  rw [hh, ex, ei, Int.toNat_natCast]
  have l : ∀ v ∈ range (t * m), a.get v * (starRingEnd ℂ) (g.data.get v) = ∑ j ∈ range f.size, f.data.get j *
      Fb.get (j + s * m / 2 - f.size / 2) * interp s t m pswf.get o (winStart c g.offset) (f.offset - (f.size / 2 : Nat) + j)
        (g.offset + v - (t * m / 2 : Nat)) * (starRingEnd ℂ) (g.data.get v) := by
    intro v hv
    rw [va v (mem_range.1 hv)]
    simp only [List.map_cons, List.map_nil, List.sum_cons, List.sum_nil, add_zero]
    rw [show f.offset / (s : Int) = o by rw [hfo, Int.mul_ediv_cancel_left _ (by omega)], sum_mul]
  have e : ∀ j ∈ range f.size, f.data.get j * (starRingEnd ℂ) (b.get j) = ∑ v ∈ range (t * m),
      (-1) ^ (g.offset + (t * m / 2 : Nat)) * (((s * t * m : Nat) : ℂ) * (f.data.get j *
      Fb.get (j + s * m / 2 - f.size / 2) * interp s t m pswf.get o (winStart c g.offset) (f.offset - (f.size / 2 : Nat) + j)
        (g.offset + v - (t * m / 2 : Nat)) * (starRingEnd ℂ) (g.data.get v))) := by
    intro j hj
    rw [vb j (mem_range.1 hj)]
    simp only [List.map_cons, List.map_nil, List.sum_cons, List.sum_nil, add_zero, map_mul, map_sum, Complex.conj_conj,
      Complex.conj_ofReal, map_natCast, map_zpow₀, map_neg, map_one, mul_sum]
    refine sum_congr rfl fun v _ => ?_
    ring
  rw [sum_congr rfl l, sum_congr rfl e, sum_comm, Int.cast_natCast, mul_sum, mul_sum]
  refine sum_congr rfl fun v _ => ?_
  rw [mul_sum, mul_sum]

end
end Sdp.Swiftly
