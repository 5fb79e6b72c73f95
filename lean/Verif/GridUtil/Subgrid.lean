import Verif.Common.Loops

/-!
# Adding and cutting out subgrids, shifting planes: model

`/repo/src/ska-sdp-func/grid_data/sdp_gridder_utils.cpp` L527-646.  Arrays are
C-contiguous.  `none` = an access outside an array, or a loop that never ends.
Integer overflow and the GPU kernels are not modelled.
-/

namespace Sdp.GridUtil

/-- `while (i1 < 0) i1 += g;` (L578-581, L628-631), at most `fuel` iterations. -/
def wrapUp (g : Int) : Nat → Int → Option Int
  | 0, i => if i < 0 then none else some i
  | n + 1, i => if i < 0 then wrapUp g n (i + g) else some i

/-- `while (i1 >= g) i1 -= g;` (L582-585, L632-635), at most `fuel` iterations. -/
def wrapDown (g : Int) : Nat → Int → Option Int
  | 0, i => if g ≤ i then none else some i
  | n + 1, i => if g ≤ i then wrapDown g n (i - g) else some i

/-- Both loops.  The fuel is enough whenever the loops end at all
(`wrap_ends`, `wrap_never_ends`). -/
def wrap (g i : Int) : Option Int :=
  (wrapUp g (i.natAbs + 1) i).bind fun i' => wrapDown g (i'.natAbs + 1) i'

/-- Start position `i + grid_size / 2 - sub_size / 2 + offset` (L627). -/
def place (grid sub : Nat) (offset : Int) (i : Nat) : Int :=
  i + ((grid / 2 : Nat) : Int) - ((sub / 2 : Nat) : Int) + offset

section
variable {R : Type} [CommSemiring R]

/-- Inner body of `subgrid_add` (L576-596) for subgrid pixel `(i, j)`. -/
def addPixel (gu gv su sv : Nat) (offU offV : Int) (sub : Arr R) (factor : R)
    (grid : Arr R) (p : Nat × Nat) : Option (Arr R) :=
  (wrap gu (place gu su (-offU) p.1)).bind fun i1 =>
  (wrap gv (place gv sv (-offV) p.2)).bind fun j1 =>
  (sub.read (index2 sv p.1 p.2)).bind fun x =>
  grid.addAt (index2 gv i1 j1) (x * factor)

/-- `subgrid_add` (L553-598): `grid` is `gu × gv`, `sub` is `su × sv`; `order` is the
order in which the pixels are visited (the outer loop is an OpenMP loop). -/
def subgridAdd (gu gv su sv : Nat) (offU offV : Int) (sub : Arr R) (factor : R)
    (order : List (Nat × Nat)) (grid : Arr R) : Option (Arr R) :=
  loop (addPixel gu gv su sv offU offV sub factor) grid order

/-- Inner body of `subgrid_cut_out` (L626-644). -/
def cutPixel (gu gv su sv : Nat) (offU offV : Int) (grid : Arr R)
    (sub : Arr R) (p : Nat × Nat) : Option (Arr R) :=
  (wrap gu (place gu su offU p.1)).bind fun i1 =>
  (wrap gv (place gv sv offV p.2)).bind fun j1 =>
  (grid.read (index2 gv i1 j1)).bind fun x =>
  sub.write (index2 sv p.1 p.2) x

/-- `subgrid_cut_out` (L602-646). -/
def subgridCut (gu gv su sv : Nat) (offU offV : Int) (grid : Arr R)
    (order : List (Nat × Nat)) (sub : Arr R) : Option (Arr R) :=
  loop (cutPixel gu gv su sv offU offV grid) sub order
end

/-- Body of `shift_subgrids` (L540-548); `nx` is the length of the last dimension. -/
def shiftPixel {M : Type} (n nx : Nat) (st : Arr M) (p : Nat × Nat × Nat) : Option (Arr M) :=
  (st.read (index3 n nx (p.1 + 1 : Nat) p.2.1 p.2.2)).bind fun x =>
  st.write (index3 n nx p.1 p.2.1 p.2.2) x

/-- `shift_subgrids` (L527-549): `w_support` planes of `n` rows of length `nx`; the code
uses `n` for both inner loop ends.  The rows of one plane may be visited in any order
(`order` lists the pixels of a plane). -/
def shiftSubgrids {M : Type} (planes n nx : Nat) (order : List (Nat × Nat)) (st : Arr M) :
    Option (Arr M) :=
  loop (shiftPixel n nx) st
    ((List.range (planes - 1)).flatMap fun k => order.map fun p => (k, p.1, p.2))

end Sdp.GridUtil
