import Verif.Swiftly.Back2d
import Verif.Swiftly.Back2dSim
import Verif.Swiftly.CallRefuse

/-! # C116: preparing and extracting in two dimensions in closed form -/

namespace Sdp.Swiftly
open Finset Sdp.Fft Sdp.GridUtil
noncomputable section

/-- Phases of one axis of a prepared subgrid. -/
theorem prepare_phase (h : Nat) (hh : 0 < h) (o : Int) (i v : Nat) :
    root (2 * h) (-((o + h) * i)) * root (2 * h) (sgn false * (v * (((i + h) % (2 * h) : Nat) : Int))) =
      (-1) ^ (o + (h : Int)) * root (2 * h) (-((i - h) * (o + v - h))) := by
  have e2 : root (2 * h) (sgn false * (v * (((i + h) % (2 * h) : Nat) : Int))) = root (2 * h) (-v * (i + h)) := by
    rw [Int.natCast_mod]
    simp only [sgn, Bool.false_eq_true, if_false]
    rw [show ∀ z : Int, (-1 * (v * z) : Int) = (-v) * z by intros; ring, root_mod]
    push_cast
    rfl
  rw [e2, ← root_half_turn h hh, ← root_add, ← root_add,
    ← root_add_period (2 * h) ((o + h) * h + -((i - h) * (o + v - h))) (-(i : Int) - v - o)]
  congr 1
  push_cast
  ring

/-- What preparing leaves at `(i, j)`: Fourier sums along the two axes, with the sign of C33. -/
def preparedAt (M : Nat) (u0 u1 : Int) (y : Nat → Nat → ℂ) (i j : Nat) : ℂ :=
  ∑ v1 ∈ range M, ((-1) ^ (u1 + (M / 2 : Nat)) * Spec.phase M (j - (M / 2 : Nat)) (-(u1 + v1 - (M / 2 : Nat)))) *
    ∑ v0 ∈ range M, ((-1) ^ (u0 + (M / 2 : Nat)) * Spec.phase M (i - (M / 2 : Nat)) (-(u0 + v0 - (M / 2 : Nat)))) * y v0 v1

/-- **C116, `prepare_subgrid_inplace_2d`**, on arrays of any strides. -/
theorem C116_prepare_subgrid_2d (c : Cfg) (hc : createCheck c = .success) (u0 u1 : Int) {m : Mem} {a : Arr ℂ} {M : Nat}
    {pos : Nat → Nat → Nat} (h : Out m a M M pos) (hM : (M : Int) = c.xM) :
    ∃ z, prepareSubgrid2dCall c m u0 u1 .success a = some (.success, z) ∧
      HasRows pos M M (preparedAt M u0 u1 fun r q => a.get (pos r q)) a z := by
  obtain ⟨s, t, m', _, _, _, _, _, _, ex, _, _, hx2, _⟩ := sizesN hc
  have hm0 := m_pos hc
  have hx := m_le_xM hc
  obtain ⟨k, hk⟩ : 2 ∣ M := by
    have : M = t * m' := by omega
    rw [this]
    exact hx2
  have eM : c.xM.toNat = M := by omega
  unfold prepareSubgrid2dCall
  simp only [h.view, h.plane.dim0 hM, h.plane.dim1 hM, eM]
  have est : ∀ i j, i < M → j < M →
      ix ((mkView m 2 .success).stride.getD 0 0, (mkView m 2 .success).stride.getD 1 0) i j = (pos i j : Nat) := by
    intro i j hi hj
    rw [h.plane.strides i j hi hj]
    simp [ix, mkView, List.range_succ]
  rw [if_neg (by simp), if_neg (by simp)]
  have hmir : Mirror M pos a a (blockOf pos M M a) :=
    ⟨rfl, rfl, fun i j hi hj => (blockOf_get hi hj).symm, fun _ _ => rfl⟩
  obtain ⟨z, r, h0, h1, hz⟩ := prepareSubgrid2d_mirror est h.plane.fits h.distinct u0 u1 hmir
  rw [h0]
  refine ⟨z, rfl, hz.size, fun i j hi hj => ?_, hz.rest⟩
  rw [hz.same i j hi hj]
  subst hk
  obtain ⟨r', h1', h2, h3⟩ := prepareSubgrid2d_spec k (by omega) u0 u1 (blockOf pos (2 * k) (2 * k) a) rfl
  obtain rfl : r' = r := Option.some.inj (h1'.symm.trans h1)
  rw [h3 i hi j hj]
  unfold preparedAt dft2
  rw [show 2 * k / 2 = k by omega]
  simp only [phase_root, mul_sum]
  rw [sum_comm]
  refine sum_congr rfl fun v1 hv1 => sum_congr rfl fun v0 hv0 => ?_
  have e0 := prepare_phase k (by omega) u0 i v0
  have e1 := prepare_phase k (by omega) u1 j v1
  rw [show ∀ x w : Int, x * -w = -(x * w) by intros; ring, show ∀ x w : Int, x * -w = -(x * w) by intros; ring, ← e0, ← e1,
    blockOf_get (mem_range.1 hv0) (mem_range.1 hv1)]
  ring

/-- What extracting leaves at `(k0, k1)`: window, phase and Fourier sum along the two axes. -/
def extractedAt (c : Cfg) (m : Nat) (Fn : Arr ℝ) (f0 f1 : Int) (y : Nat → Nat → ℂ) (k0 k1 : Nat) : ℂ :=
  ∑ i1 ∈ range m, (1 / (m : ℂ) * Spec.phase m (f1 + (m / 2 : Nat) + i1) k1 * Fn.get i1) *
    ∑ i0 ∈ range m, (1 / (m : ℂ) * Spec.phase m (f0 + (m / 2 : Nat) + i0) k0 * Fn.get i0) *
      y (subgridPos c f0 i0).toNat (subgridPos c f1 i1).toNat

/-- Extraction along the two axes one after the other. -/
theorem extractTwice_spec (c : Cfg) (hc : createCheck c = .success) (Fn : Arr ℝ) (hF : (Fn.size : Int) = c.m) (o0 o1 f0 f1 : Int)
    (hf0 : f0 = o0.tdiv (c.image / c.xM)) (hf1 : f1 = o1.tdiv (c.image / c.xM)) (n0 : 0 ≤ f0 + c.m / 2) (n1 : 0 ≤ f1 + c.m / 2)
    (g : SubgridArrays) (m M : Nat) (hm : (m : Int) = c.m) (hM : (M : Int) = c.xM) (a : Arr ℂ) (p q0 q : Nat → Nat → Nat)
    (hi : In g.subT a M M fun r j => p j r) (h0T : Out g.ext0T g.xbuf0 M m fun r k => q0 k r)
    (h0 : In g.ext0 g.xbuf0 m M q0) (h1 : Out g.ext g.xbuf m m q) :
    ∃ z, extractTwice c Fn o0 o1 g .success a = some (.success, z) ∧
      HasRows q m m (extractedAt c m Fn f0 f1 fun r s => a.get (p r s)) g.xbuf z := by
  obtain ⟨z0, e0, s0, v0, _⟩ := C110_extract_from_subgrid_partial c hc Fn hF o0 hi h0T hM hm f0 hf0 n0
  obtain ⟨z, e1, hz⟩ := C110_extract_from_subgrid_partial c hc Fn hF o1 (h0.resize s0) h1 hM hm f1 hf1 n1
  refine ⟨z, ?_, hz.congr fun k0 k1 hk0 hk1 => ?_⟩
  · unfold extractTwice
    rw [e0]
    exact e1
  · unfold extractedAt
    rw [mul_sum]
    refine sum_congr rfl fun i1 _ => ?_
    have hp := subgridPos_range hc f1 i1
    rw [v0 _ k0 (by omega) hk0]
    simp only [mul_sum, sum_mul]
    exact sum_congr rfl fun i0 _ => by ring

/-- **C116, `extract_from_subgrid_2d`**, for facet offsets that are not too negative and arrays with the rows that the function
assumes: the same as extracting along one axis and then the other. -/
theorem C116_extract_from_subgrid_2d_partial (c : Cfg) (hc : createCheck c = .success) (Fn : Arr ℝ) (hF : (Fn.size : Int) = c.m)
    (o0 o1 : Int) {mi mo : Mem} {src out : Arr ℂ} {m M : Nat} {pi po : Nat → Nat → Nat} (hi : In mi src M M pi)
    (ho : Out mo out m m po) (hm : (m : Int) = c.m) (hM : (M : Int) = c.xM) (f0 f1 : Int) (hf0 : f0 = o0.tdiv (c.image / c.xM))
    (hf1 : f1 = o1.tdiv (c.image / c.xM)) (h0 : 0 ≤ f0 + c.m / 2) (h1 : 0 ≤ f1 + c.m / 2) :
    ∃ z, extractFromSubgrid2dCall c Fn mi mo o0 o1 .success src out = some (.success, z) ∧
      HasRows po m m (extractedAt c m Fn f0 f1 fun r q => src.get (pi r q)) out z := by
  have hm0 := m_pos hc
  have em : c.m.toNat = m := by omega
  have eM : c.xM.toNat = M := by omega
  unfold extractFromSubgrid2dCall
  simp only [hi.view, hi.plane.dim1 hM, ho.view, ho.plane.dim1 hm, em, eM]
  rw [if_neg (by simp), if_neg (by simp), takeBlock_ok src hi.plane, takeBlock_ok out ho.plane]
  simp only [Option.bind_some]
  obtain ⟨y, ey, sy, vy⟩ := C32_extract_2d_partial c hc o0 o1 Fn (blockOf pi M M src) (blockOf po m m out) hF (by rw [em]; rfl)
    (by rw [eM]; rfl) f0 f1 hf0 hf1 h0 h1
  have sy' : y.size = m * m := sy
  obtain ⟨w, ew, sw, vw⟩ := fft2_spec true m (1 / (m : ℂ) / (m : ℂ)) y y sy' sy'
  obtain ⟨z, ez, hz⟩ := putBlock_ok (m := mo) out w ho.plane ho.distinct sw
  rw [ey, Option.bind_some, ew, Option.bind_some, ez]
  refine ⟨z, rfl, hz.congr fun k0 k1 hk0 hk1 => ?_⟩
  beta_reduce
  rw [vw k0 hk0 k1 hk1]
  unfold extractedAt dft2
  have hplace : ∀ (f : Int) (k : Nat) (x t : Nat → ℂ), (∀ i < m, x (contribPos c f i).toNat = t i) →
      ∑ s ∈ range m, root m (sgn true * (s * k)) * x s = ∑ i ∈ range m, Spec.phase m (f + (m / 2 : Nat) + i) k * t i := by
    intro f k x t hx
    rw [sum_placed m m (by omega) le_rfl (f + (m / 2 : Nat)) x t (fun a => root m (sgn true * (a * k)))]
    · refine sum_congr rfl fun i _ => ?_
      simp only [sgn, if_true, one_mul]
      rw [root_emod m (by omega), phase_root]
    · intro i hi'
      have := hx i hi'
      unfold contribPos at this
      rw [← hm] at this
      rw [Int.natCast_ediv, Nat.cast_ofNat, this]
    · intro i hi' hh
      exfalso
      obtain ⟨k, k1, k2, k3⟩ := window_surj (m := m) (by omega) (f + (m / 2 : Nat)) i (by omega) (by omega)
      refine hh (k - (f + (m / 2 : Nat))).toNat (by omega) ?_
      rw [Int.toNat_of_nonneg (by omega), add_sub_cancel, k3]
  have e1 : ∑ s1 ∈ range m, ∑ s2 ∈ range m, root m (sgn true * (s1 * k0)) * root m (sgn true * (s2 * k1)) * y.get (m * s1 + s2) =
      ∑ s1 ∈ range m, root m (sgn true * (s1 * k0)) * ∑ s2 ∈ range m, root m (sgn true * (s2 * k1)) * y.get (m * s1 + s2) := by
    simp only [mul_sum]
    exact sum_congr rfl fun s1 _ => sum_congr rfl fun s2 _ => by ring
  rw [e1, hplace f0 k0 _ (fun i0 => ∑ i1 ∈ range m, Spec.phase m (f1 + (m / 2 : Nat) + i1) k1 *
    (Fn.get i0 * Fn.get i1 * src.get (pi (subgridPos c f0 i0).toNat (subgridPos c f1 i1).toNat)))]
  · simp only [mul_sum]
    rw [sum_comm]
    refine sum_congr rfl fun i1 _ => sum_congr rfl fun i0 _ => ?_
    ring
  · intro i0 hi0
    refine hplace f1 k1 _ _ fun i1 hi1 => ?_
    have := vy i0 (by omega) i1 (by omega)
    unfold subgridPos2 contribPos2 at this
    rw [em, eM] at this
    simp only at this
    have b0 := subgridPos_range hc f0 i0
    have b1 := subgridPos_range hc f1 i1
    rw [this, blockOf_get (by omega) (by omega)]

/-- **C116, refusal.** -/
theorem C116_extract_from_subgrid_2d_refused (c : Cfg) (Fn : Arr ℝ) (mi mo : Mem) (o0 o1 : Int) (st : Sdp.Status) (src out : Arr ℂ)
    (h : ¬ (st = .success ∧ Readable mi ∧ Writeable mo ∧ mi.shapeDim 1 = c.xM ∧ mo.shapeDim 1 = c.m)) :
    ∃ s, s ≠ Sdp.Status.success ∧ extractFromSubgrid2dCall c Fn mi mo o0 o1 st src out = some (s, out) := by
  unfold extractFromSubgrid2dCall
  by_cases h0 : st = .success
  · rw [if_neg (by simp [h0])]
    simp only
    by_cases h1 : checkShapeDim mo 1 c.m (checkAndView mo .complexDouble 2 .cpu
        (checkShapeDim mi 1 c.xM (checkAndViewConst mi .complexDouble 2 .cpu st).2)).2 = .success
    · exfalso
      rw [dim_iff, view_iff, dim_iff, const_iff] at h1
      obtain ⟨⟨⟨⟨_, a2⟩, a1⟩, a3⟩, a4⟩ := h1
      exact h ⟨h0, a2, a3, a1.2, a4.2⟩
    · rw [if_pos h1]
      exact ⟨_, h1, rfl⟩
  · rw [if_pos h0]
    exact ⟨st, h0, rfl⟩

end
end Sdp.Swiftly
