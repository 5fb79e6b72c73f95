import Verif.Swiftly.Back2dFinal

/-! # C116: the theorems on concrete arrays, and what is not checked -/

namespace Sdp.Swiftly
open Finset Sdp.Fft Sdp.GridUtil
noncomputable section

/-- A padded subgrid of 16 by 16 in rows of 20 values. -/
def exSub : SubgridArrays :=
  ⟨4, -8, cmem 16 16 20, cmemT 16 16 20, ⟨320, fun k => k⟩, cmemT 4 16 16, cmem 4 16 16, ⟨64, fun _ => 7⟩, cmem 4 4 5, cmemT 4 4 5,
    ⟨20, fun _ => 7⟩, cmemT 8 4 4, cmem 8 4 4, ⟨32, fun _ => 0⟩⟩

def exSubShape : SubgridShape :=
  ⟨fun i j => 20 * i + j, fun i j => 16 * i + j, fun i j => 5 * i + j, fun i j => 4 * i + j⟩

theorem exSub_ok (c : Cfg) (hy : c.yN = 8) (hm : c.m = 4) (hx : c.xM = 16) : Subgrid2Ok c exSub exSubShape := by
  constructor <;> try simp only [hy, hm, hx]
  · exact cmem_out 16 16 20 (by decide) _ (by decide)
  · exact (cmemT_out 16 16 20 (by decide) _ (by decide)).toIn
  · exact cmemT_out 4 16 16 (by decide) _ (by decide)
  · exact (cmem_out 4 16 16 (by decide) _ (by decide)).toIn
  · exact cmem_out 4 4 5 (by decide) _ (by decide)
  · exact (cmemT_out 4 4 5 (by decide) _ (by decide)).toIn
  · exact cmemT_out 8 4 4 (by decide) _ (by decide)
  · exact (cmem_out 8 4 4 (by decide) _ (by decide)).toIn
  · exact fun _ => rfl

/-- A facet of 3 by 2 pixels in rows of 5 values. -/
def exOut : FacetOutArrays :=
  ⟨cmem 8 8 8, cmemT 8 8 8, ⟨64, fun _ => 0⟩, cmemT 3 8 8, cmem 3 8 8, ⟨24, fun _ => 7⟩, cmem 3 2 5, ⟨15, fun _ => 7⟩⟩

theorem exOut_ok (c : Cfg) (hy : c.yN = 8) :
    FacetOutOk c exOut 3 2 (fun i j => 8 * i + j) (fun i j => 8 * i + j) fun i j => 5 * i + j := by
  constructor <;> try simp only [hy]
  · exact cmem_out 8 8 8 (by decide) _ (by decide)
  · exact cmemT_out 8 8 8 (by decide) _ (by decide)
  · exact fun _ => rfl
  · exact cmemT_out 3 8 8 (by decide) _ (by decide)
  · exact cmem_out 3 8 8 (by decide) _ (by decide)
  · exact cmem_out 3 2 5 (by decide) _ (by decide)

/-- The sequence theorem applies to two subgrids and a plan with several subgrids and facets, with either way of extraction. -/
example (once : Bool) : ∃ Fn Fb r, planTables ⟨32, 8, 16⟩ ⟨8, fun _ => 1⟩ = some (Fn, Fb) ∧
    toFacet2d ⟨32, 8, 16⟩ Fn Fb once [exSub, exSub] 2 (-4) exOut .success = some (.success, r) := by
  obtain ⟨Fn, Fb, r, h1, h2, _⟩ := C116_backward_2d_partial ⟨32, 8, 16⟩ (by decide) (by decide) ⟨8, fun _ => 1⟩ rfl once
    [(exSub, exSubShape), (exSub, exSubShape)]
    (fun g hg => by
      simp only [List.mem_cons, List.not_mem_nil, or_false, or_self] at hg
      rw [hg]
      exact exSub_ok ⟨32, 8, 16⟩ rfl (by decide) rfl) 2 (-4) (by unfold GoodOffset; decide) (by unfold GoodOffset; decide) exOut 3 2
    (by decide) (by decide) (fun _ _ => one_ne_zero) (fun _ _ => one_ne_zero) _ _ _ (exOut_ok ⟨32, 8, 16⟩ rfl)
  exact ⟨Fn, Fb, r, h1, h2⟩

/-- The adjoint theorem applies to that subgrid and the facet of C110. -/
example : ∃ Fn Fb x y, planTables ⟨32, 8, 16⟩ ⟨8, fun _ => 1⟩ = some (Fn, Fb) ∧
    toSubgrid2d ⟨32, 8, 16⟩ Fn Fb [exFacet] 4 (-8) (cmem 16 16 16) .success ⟨256, fun _ => 0⟩ = some (.success, x) ∧
    toFacet2d ⟨32, 8, 16⟩ Fn Fb true [exSub] 2 (-4) exOut .success = some (.success, y) := by
  obtain ⟨Fn, Fb, x, y, h1, h2, h3, _⟩ := C116_adjoint_2d_partial ⟨32, 8, 16⟩ (by decide) (by decide) ⟨8, fun _ => 1⟩ rfl true
    exFacet exShape (exFacet_ok ⟨32, 8, 16⟩ rfl (by decide) (by decide)) exSub exSubShape (exSub_ok ⟨32, 8, 16⟩ rfl (by decide) rfl)
    (M := 16) rfl (cmem_out 16 16 16 (by decide) ⟨256, fun _ => 0⟩ (by decide)) rfl
    (cmem_stride 16 16 16).1 (cmem_stride 16 16 16).2 (fun _ => rfl) exOut _ _ _ (exOut_ok ⟨32, 8, 16⟩ rfl)
  exact ⟨Fn, Fb, x, y, h1, h2, h3⟩

/-- The exactness theorem applies when the padded subgrid is the image. -/
example : ∃ Fn Fb r, planTables ⟨16, 4, 16⟩ ⟨4, fun _ => 1⟩ = some (Fn, Fb) ∧
    toFacet2d ⟨16, 4, 16⟩ Fn Fb true [] 1 (-2) ⟨cmem 4 4 4, cmemT 4 4 4, ⟨16, fun _ => 0⟩, cmemT 3 4 4, cmem 3 4 4, ⟨12, fun _ => 7⟩,
      cmem 3 2 5, ⟨15, fun _ => 7⟩⟩ .success = some (.success, r) := by
  obtain ⟨Fn, Fb, r, h1, h2, _⟩ := C116_exact_2d_partial ⟨16, 4, 16⟩ (by decide) (by decide) rfl ⟨4, fun _ => 1⟩ rfl true []
    (fun g hg => by cases hg) 1 (-2) (by unfold GoodOffset; decide) (by unfold GoodOffset; decide)
    ⟨cmem 4 4 4, cmemT 4 4 4, ⟨16, fun _ => 0⟩, cmemT 3 4 4, cmem 3 4 4, ⟨12, fun _ => 7⟩, cmem 3 2 5, ⟨15, fun _ => 7⟩⟩ 3 2
    (by decide) (by decide) (fun _ _ => one_ne_zero) (fun _ _ => one_ne_zero) _ _ _
    ⟨cmem_out 4 4 4 (by decide) _ (by decide), cmemT_out 4 4 4 (by decide) _ (by decide), fun _ => rfl,
      cmemT_out 3 4 4 (by decide) _ (by decide), cmem_out 3 4 4 (by decide) _ (by decide), cmem_out 3 2 5 (by decide) _ (by decide)⟩
  exact ⟨Fn, Fb, r, h1, h2⟩

/-- The calls on a strided subgrid. -/
example : (∃ z, prepareSubgrid2dCall ⟨32, 8, 16⟩ (cmem 16 16 20) 4 (-8) .success ⟨320, fun k => k⟩ = some (.success, z)) ∧
    ∃ z, extractFromSubgrid2dCall ⟨32, 8, 16⟩ ⟨4, fun _ => 1⟩ (cmem 16 16 20) (cmem 4 4 5) 2 (-4) .success ⟨320, fun k => k⟩
      ⟨20, fun _ => 7⟩ = some (.success, z) := by
  obtain ⟨z, hz, _⟩ := C116_prepare_subgrid_2d ⟨32, 8, 16⟩ (by decide) 4 (-8)
    (cmem_out 16 16 20 (by decide) ⟨320, fun k => k⟩ (by decide)) rfl
  obtain ⟨y, hy, _⟩ := C116_extract_from_subgrid_2d_partial ⟨32, 8, 16⟩ (by decide) ⟨4, fun _ => 1⟩ (by decide) 2 (-4)
    (cmem_out 16 16 20 (by decide) ⟨320, fun k => k⟩ (by decide)).toIn (cmem_out 4 4 5 (by decide) ⟨20, fun _ => 7⟩ (by decide))
    (by decide) (by decide) 1 (-2) (by decide) (by decide) (by decide) (by decide)
  exact ⟨⟨z, hz⟩, y, hy⟩

/-- A subgrid with rows of the wrong length is refused. -/
example : ∃ s, s ≠ Sdp.Status.success ∧ extractFromSubgrid2dCall ⟨32, 8, 16⟩ ⟨4, fun _ => 1⟩ (cmem 16 15 20) (cmem 4 4 5) 2 (-4) .success
    ⟨320, fun k => k⟩ ⟨20, fun _ => 7⟩ = some (s, ⟨20, fun _ => 7⟩) :=
  C116_extract_from_subgrid_2d_refused _ _ _ _ _ _ _ _ _ fun h => by
    obtain ⟨_, _, _, h, _⟩ := h
    revert h
    decide

/-- **C116 fails for the number of rows in `extract_from_subgrid_2d`**: only the row lengths are checked, so a subgrid of one
row of the right length is accepted, and rows behind it are read. -/
theorem C116_extract_rows_false : ∃ (c : Cfg) (Fn : Arr ℝ) (mi mo : Mem) (src out : Arr ℂ), createCheck c = .success ∧
    (Fn.size : Int) = c.m ∧ In mi src 1 c.xM.toNat (fun i j => c.xM.toNat * i + j) ∧ src.size = 1 * c.xM.toNat ∧
    Out mo out c.m.toNat c.m.toNat (fun i j => c.m.toNat * i + j) ∧ out.size = c.m.toNat * c.m.toNat ∧
    extractFromSubgrid2dCall c Fn mi mo 0 0 .success src out = none := by
  have hi : In (cmem 1 16 16) ⟨16, fun _ => 0⟩ 1 16 fun i j => 16 * i + j :=
    (cmem_out 1 16 16 (by decide) ⟨16, fun _ => 0⟩ (by decide)).toIn
  have ho : Out (cmem 4 4 4) ⟨16, fun _ => 0⟩ 4 4 fun i j => 4 * i + j := cmem_out 4 4 4 (by decide) ⟨16, fun _ => 0⟩ (by decide)
  refine ⟨⟨32, 8, 16⟩, ⟨4, fun _ => 1⟩, cmem 1 16 16, cmem 4 4 4, ⟨16, fun _ => 0⟩, ⟨16, fun _ => 0⟩, by decide, rfl, hi, rfl, ho, rfl, ?_⟩
  unfold extractFromSubgrid2dCall
  simp only [hi.view]
  have e1 : checkShapeDim (cmem 1 16 16) 1 (⟨32, 8, 16⟩ : Cfg).xM .success = .success := by decide
  have e2 : checkShapeDim (cmem 4 4 4) 1 (⟨32, 8, 16⟩ : Cfg).m .success = .success := by decide
  simp only [e1, ho.view, e2]
  rw [if_neg (by simp), if_neg (by simp)]
  have e3 : takeBlock (mkView (cmem 1 16 16) 2 .success) (⟨32, 8, 16⟩ : Cfg).xM.toNat (⟨32, 8, 16⟩ : Cfg).xM.toNat ⟨16, fun _ => 0⟩ = none := by
    unfold takeBlock
    rw [if_neg]
    intro h
    have := h 1 (by decide) 0 (by decide)
    revert this
    decide
  rw [e3]
  rfl

end
end Sdp.Swiftly
