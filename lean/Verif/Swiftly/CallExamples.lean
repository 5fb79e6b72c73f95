import Verif.Swiftly.Call2dFinal
import Verif.Swiftly.CallRefuse

/-! # C110: the theorems on concrete arrays, and what is not checked -/

namespace Sdp.Swiftly
open Finset Sdp.Fft Sdp.GridUtil
noncomputable section

/-- **C110, exactness in two dimensions.**  When a padded subgrid is as large as the image, the sequence computes exactly the
direct Fourier sum, whatever the window. -/
theorem C110_exact_2d_partial (c : Cfg) (hc : createCheck c = .success) (he : c.m % 2 = 0) (hN : c.xM = c.image) (pswf : Arr ℝ)
    (hp : (pswf.size : Int) = c.yN) (fs : List (FacetArrays × Shape2)) (hf : ∀ g ∈ fs, Facet2Ok c pswf g.1 g.2) (u0 u1 : Int)
    {ma : Mem} {a : Arr ℂ} {M : Nat} (hM : (M : Int) = c.xM) (ha : Out ma a M M fun i j => M * i + j) (hs : a.size = M * M)
    (hs0 : ma.strideElementsDim 0 = M) (hs1 : ma.strideElementsDim 1 = 1) (hz : ∀ i, a.get i = 0) :
    ∃ Fn Fb r, planTables c pswf = some (Fn, Fb) ∧
      toSubgrid2d c Fn Fb (fs.map Prod.fst) u0 u1 ma .success a = some (.success, r) ∧ r.size = M * M ∧
      ∀ i j, i < M → j < M → r.get (M * i + j) = (fs.map fun g : FacetArrays × Shape2 =>
          (g.1.spec g.2).grid c.image.toNat (u0 + i - (M / 2 : Nat)) (u1 + j - (M / 2 : Nat))).sum := by
  obtain ⟨Fn, Fb, r, h1, h2, h3, h4⟩ := C110_forward_2d_partial c hc he pswf hp fs hf u0 u1 hM ha hs hs0 hs1 hz
  refine ⟨Fn, Fb, r, h1, h2, h3, fun i j hi hj => ?_⟩
  have hb := h4 i j hi hj
  have hmn : c.yN.toNat = c.m.toNat := by
    obtain ⟨s, t, m, hs, ht, hm, em, ei, ey, ex, es, et, hx2, hy2⟩ := sizesN hc
    have hp : 0 < t * m := Nat.mul_pos ht hm
    have : t * m = s * (t * m) := by
      rw [ei, ex] at hN
      have : t * m = s * t * m := by exact_mod_cast hN
      rw [← mul_assoc]
      exact this
    have hs1 : s = 1 := by nlinarith
    rw [ey, em, hs1, one_mul]
  have hE : ∀ F j u u', axisError c pswf F j u u' = 0 := by
    intro F j u u'
    unfold axisError Spec.residual
    rw [hmn, Nat.sub_self, sum_range_zero, mul_zero, mul_zero]
  simp only [hE, add_zero, mul_zero, sum_const_zero, List.map_const', List.sum_replicate, smul_zero] at hb
  exact sub_eq_zero.1 (norm_le_zero_iff.1 hb)

/-- A complex array of `n0` by `n1`, with row stride `p` elements. -/
def cmem (n0 n1 p : Nat) : Mem :=
  ⟨.complexDouble, .cpu, true, true, false, 2, n0 * n1, 1, [n0, n1], [16 * p, 16], some ⟨0, 0⟩⟩

/-- The same memory seen transposed. -/
def cmemT (n0 n1 p : Nat) : Mem :=
  ⟨.complexDouble, .cpu, false, false, false, 2, n0 * n1, 1, [n1, n0], [16, 16 * p], some ⟨0, 0⟩⟩

theorem cmem_stride (n0 n1 p : Nat) : (cmem n0 n1 p).strideElementsDim 0 = p ∧ (cmem n0 n1 p).strideElementsDim 1 = 1 := by
  constructor
  · show ((16 * p : Int).tdiv 16) = p
    rw [Int.mul_tdiv_cancel_left _ (by decide)]
  · rfl

theorem cmemT_stride (n0 n1 p : Nat) : (cmemT n0 n1 p).strideElementsDim 0 = 1 ∧ (cmemT n0 n1 p).strideElementsDim 1 = p := by
  constructor
  · rfl
  · show ((16 * p : Int).tdiv 16) = p
    rw [Int.mul_tdiv_cancel_left _ (by decide)]

theorem cmem_out (n0 n1 p : Nat) (hp : n1 ≤ p) (a : Arr ℂ) (ha : n0 * p ≤ a.size) : Out (cmem n0 n1 p) a n0 n1 fun i j => p * i + j where
  type := rfl
  loc := rfl
  plane := ⟨rfl, rfl, rfl, fun i j _ _ => by
      rw [(cmem_stride n0 n1 p).1, (cmem_stride n0 n1 p).2]
      push_cast
      ring, fun i j hi hj => (flat_lt hi (by omega)).trans_le ha⟩
  data := by simp [cmem]
  writeable := rfl
  distinct := fun i j i' j' _ hj _ hj' e => flat_inj (by omega) (by omega) e

theorem cmemT_out (n0 n1 p : Nat) (hp : n1 ≤ p) (a : Arr ℂ) (ha : n0 * p ≤ a.size) : Out (cmemT n0 n1 p) a n1 n0 fun i j => p * j + i where
  type := rfl
  loc := rfl
  plane := ⟨rfl, rfl, rfl, fun i j _ _ => by
      rw [(cmemT_stride n0 n1 p).1, (cmemT_stride n0 n1 p).2]
      push_cast
      ring, fun i j hi hj => (flat_lt hj (by omega)).trans_le ha⟩
  data := by simp [cmemT]
  writeable := rfl
  distinct := fun i j i' j' hi hj hi' hj' e => (flat_inj (by omega) (by omega) e).symm

/-- A facet of 3 by 2 pixels in rows of 5 values, with arrays as in the test of the library. -/
def exFacet : FacetArrays :=
  ⟨2, -4, cmemT 3 2 5, ⟨15, fun k => k⟩, cmemT 8 2 2, cmem 8 2 2, ⟨16, fun _ => 7⟩, cmem 8 8 8, cmemT 8 8 8, ⟨64, fun _ => 7⟩,
    cmemT 4 8 8, cmem 4 8 8, ⟨32, fun _ => 7⟩, cmem 4 4 4, ⟨16, fun _ => 7⟩⟩

def exShape : Shape2 :=
  ⟨3, 2, fun i j => 5 * i + j, fun i j => 2 * i + j, fun i j => 8 * i + j, fun i j => 8 * i + j, fun i j => 4 * i + j⟩

theorem exFacet_ok (c : Cfg) (hy : c.yN = 8) (hm : c.m = 4) (hs : c.image / c.xM = 2) : Facet2Ok c ⟨8, fun _ => 1⟩ exFacet exShape where
  arrays := by
    rw [hy, hm]
    exact ⟨(cmemT_out 3 2 5 (by decide) _ (by decide)).toIn, cmemT_out 8 2 2 (by decide) _ (by decide),
      (cmem_out 8 2 2 (by decide) _ (by decide)).toIn, cmem_out 8 8 8 (by decide) _ (by decide),
      (cmemT_out 8 8 8 (by decide) _ (by decide)).toIn, cmemT_out 4 8 8 (by decide) _ (by decide),
      (cmem_out 4 8 8 (by decide) _ (by decide)).toIn, cmem_out 4 4 4 (by decide) _ (by decide)⟩
  size0 := by rw [hy]; decide
  size1 := by rw [hy]; decide
  off0 := by rw [hs, hm]; decide
  off1 := by rw [hs, hm]; decide
  window0 := fun _ _ => one_ne_zero
  window1 := fun _ _ => one_ne_zero

/-- The sequence theorem applies to two copies of that facet and a plan with several subgrids and facets. -/
example : ∃ Fn Fb r, planTables ⟨32, 8, 16⟩ ⟨8, fun _ => 1⟩ = some (Fn, Fb) ∧
    toSubgrid2d ⟨32, 8, 16⟩ Fn Fb [exFacet, exFacet] 4 (-8) (cmem 16 16 16) .success ⟨256, fun _ => 0⟩ = some (.success, r) := by
  obtain ⟨Fn, Fb, r, h1, h2, _⟩ := C110_forward_2d_partial ⟨32, 8, 16⟩ (by decide) (by decide) ⟨8, fun _ => 1⟩ rfl
    [(exFacet, exShape), (exFacet, exShape)]
    (fun g hg => by
      simp only [List.mem_cons, List.not_mem_nil, or_false, or_self] at hg
      rw [hg]
      exact exFacet_ok ⟨32, 8, 16⟩ rfl (by decide) (by decide)) 4 (-8) (M := 16) rfl (cmem_out 16 16 16 (by decide) ⟨256, fun _ => 0⟩ (by decide)) rfl
    (cmem_stride 16 16 16).1 (cmem_stride 16 16 16).2 (fun _ => rfl)
  exact ⟨Fn, Fb, r, h1, h2⟩

/-- The row calls apply to strided and transposed arrays. -/
example : (∃ z, prepareFacetCall ⟨32, 8, 16⟩ ⟨8, fun _ => 1⟩ (cmemT 3 2 5) (cmemT 8 2 2) 2 .success ⟨15, fun k => k⟩ ⟨16, fun _ => 7⟩ =
    some (.success, z)) := by
  obtain ⟨z, hz, _⟩ := C110_prepare_facet ⟨32, 8, 16⟩ (by decide) ⟨8, fun _ => 1⟩ rfl 2
    (cmemT_out 3 2 5 (by decide) ⟨15, fun k => k⟩ (by decide)).toIn (cmemT_out 8 2 2 (by decide) ⟨16, fun _ => 7⟩ (by decide)) (by decide)
    (by decide) rfl
  exact ⟨z, hz⟩

/-- **C110 fails for the number of rows in `add_to_subgrid_2d`**: only the row lengths are checked, so a contribution of one
row of the right length is accepted, and rows behind it are read. -/
theorem C110_add_rows_false : ∃ (c : Cfg) (Fn : Arr ℝ) (mi mo : Mem) (src out : Arr ℂ), createCheck c = .success ∧
    (Fn.size : Int) = c.m ∧ In mi src 1 c.m.toNat (fun i j => c.m.toNat * i + j) ∧ src.size = 1 * c.m.toNat ∧
    Out mo out c.xM.toNat c.xM.toNat (fun i j => c.xM.toNat * i + j) ∧ out.size = c.xM.toNat * c.xM.toNat ∧
    addToSubgrid2dCall c Fn mi mo 0 0 .success src out = none := by
  have ho : Out (cmem 16 16 16) ⟨256, fun _ => 0⟩ 16 16 fun i j => 16 * i + j := cmem_out 16 16 16 (by decide) ⟨256, fun _ => 0⟩ (by decide)
  have hi : In (cmem 1 4 4) ⟨4, fun _ => 0⟩ 1 4 fun i j => 4 * i + j := (cmem_out 1 4 4 (by decide) ⟨4, fun _ => 0⟩ (by decide)).toIn
  refine ⟨⟨32, 8, 16⟩, ⟨4, fun _ => 1⟩, cmem 1 4 4, cmem 16 16 16, ⟨4, fun _ => 0⟩, ⟨256, fun _ => 0⟩, by decide, rfl, hi, rfl, ho, rfl, ?_⟩
  unfold addToSubgrid2dCall
  simp only [hi.view]
  have e1 : checkShapeDim (cmem 1 4 4) 1 (⟨32, 8, 16⟩ : Cfg).m .success = .success := by decide
  have e2 : checkShapeDim (cmem 16 16 16) 1 (⟨32, 8, 16⟩ : Cfg).xM .success = .success := by decide
  simp only [e1, ho.view, e2]
  rw [if_neg (by simp), if_neg (by simp)]
  have e3 : takeBlock (mkView (cmem 1 4 4) 2 .success) (⟨32, 8, 16⟩ : Cfg).m.toNat (⟨32, 8, 16⟩ : Cfg).m.toNat ⟨4, fun _ => 0⟩ = none := by
    unfold takeBlock
    rw [if_neg]
    intro h
    have := h 1 (by decide) 0 (by decide)
    revert this
    decide
  rw [e3]
  rfl

end
end Sdp.Swiftly
