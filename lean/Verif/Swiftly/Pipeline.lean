import Verif.Swiftly.Kernel

/-!
# C102: model of the SwiFTly call sequences

The two sequences the header documents, on one row per array: facets to a subgrid
(`prepare_facet`, `extract_from_facet`, `add_to_subgrid`, `finish_subgrid`, sdp_swiftly.h:78-223) and subgrids to a facet
(`prepare_subgrid_inplace`, `extract_from_subgrid`, `add_to_facet`, `finish_facet`, sdp_swiftly.h:248-395).
Scratch arrays are supplied by the caller with any contents.
-/

namespace Sdp.Swiftly
open Sdp.Fft
noncomputable section

/-- The two tables of a plan, sdp_swiftly.cpp:74-113: `Fn` is allocated, `Fb` overwrites the window samples. -/
def planTables (c : Cfg) (pswf : Arr ℝ) : Option (Arr ℝ × Arr ℝ) :=
  (makeFn c pswf ⟨c.m.toNat, fun _ => 0⟩).bind fun Fn => (makeFb c pswf).bind fun Fb => some (Fn, Fb)

/-- One facet with the caller's arrays for it: data, prepared facet and contribution
(arguments of sdp_swiftly.cpp:173-178, 270-275). -/
structure FacetRow where
  size : Nat
  offset : Int
  data : Arr ℂ
  prepared : Arr ℂ
  contrib : Arr ℂ

/-- `prepare_facet`, `extract_from_facet` and `add_to_subgrid` for one facet, sdp_swiftly.cpp:173-396. -/
def addFacet (c : Cfg) (Fn Fb : Arr ℝ) (subgridOffset : Int) (acc : Arr ℂ) (f : FacetRow) : Option (Arr ℂ) :=
  (prepareFacet c f.size f.offset f.data Fb f.prepared).bind fun prepared =>
  (extractFromFacet c subgridOffset prepared f.contrib).bind fun contrib =>
  addToSubgrid c f.offset Fn contrib acc

/-- Facets to subgrid: all facets are added and the subgrid is finished, sdp_swiftly.cpp:173-396, 548-624. -/
def toSubgrid (c : Cfg) (Fn Fb : Arr ℝ) (facets : List FacetRow) (subgridOffset : Int) (xA : Nat) (acc sg : Arr ℂ) :
    Option (Arr ℂ) :=
  (loop (addFacet c Fn Fb subgridOffset) acc facets).bind fun acc =>
  finishSubgridOut c.xM.toNat xA subgridOffset acc sg

/-- One subgrid with the caller's contribution array (arguments of sdp_swiftly.cpp:727-731, 848-853). -/
structure SubgridRow where
  offset : Int
  data : Arr ℂ
  contrib : Arr ℂ

/-- `prepare_subgrid_inplace`, `extract_from_subgrid` and `add_to_facet` for one subgrid, sdp_swiftly.cpp:727-776, 848-910,
1017-1076. -/
def addSubgrid (c : Cfg) (Fn : Arr ℝ) (facetOffset : Int) (acc : Arr ℂ) (g : SubgridRow) : Option (Arr ℂ) :=
  (prepareSubgrid c.xM.toNat g.offset g.data).bind fun prepared =>
  (extractFromSubgrid c facetOffset Fn prepared g.contrib).bind fun contrib =>
  addToFacet c g.offset contrib acc

/-- Subgrids to facet: all subgrids are added and the facet is finished, sdp_swiftly.cpp:727-776, 848-910, 1017-1157. -/
def toFacet (c : Cfg) (Fn Fb : Arr ℝ) (subgrids : List SubgridRow) (F : Nat) (facetOffset : Int) (acc fct : Arr ℂ) :
    Option (Arr ℂ) :=
  (loop (addSubgrid c Fn facetOffset) acc subgrids).bind fun acc =>
  finishFacet c F facetOffset acc Fb fct

end
end Sdp.Swiftly
