import Mathlib.Algebra.Order.Ring.Int
import Mathlib.Data.Rat.Defs
import Mathlib.Algebra.Order.Field.Basic
import Verif.Common.Loops

/-!
# W-tower height search and worst-case image: model

`/repo/src/ska-sdp-func/grid_data/sdp_gridder_wtower_height.cpp` L187-270
(`sdp_gridder_determine_max_w_tower_height`) and L273-316 (`sdp_gridder_worst_case_image`).
The measured error (`find_gridder_accuracy`, L18-182) is an arbitrary function of the height
`iw`; `none` means that measuring set the error status.  `int` overflow is not modelled.
-/

namespace Sdp.Height

/-- Loop variables (L227-230). -/
structure Search where
  iw : Int
  diw : Int
  accelerate : Bool

/-- L227-230. -/
def Search.init : Search := ⟨1, 1, true⟩

/-- One iteration (L231-267): `inl` is the return value, `inr` the next state.  A failed
measurement leaves `return_val = 0` and ends the loop: whatever branch the code takes with the
value 0 of the failed call, the loop condition fails next; the branches that set `return_val`
are taken with `err = 0`, so they are kept here. -/
def step {E : Type} [LT E] [DecidableLT E] [Zero E] (err : Int → Option E) (target : E)
    (s : Search) : Sum Int Search :=
  let go (e : E) : Sum Int Search :=
    if e < target then
      if s.accelerate then .inr ⟨s.iw + s.diw * 2, s.diw * 2, true⟩
      else if s.diw > 1 then .inr ⟨s.iw + Int.tdiv s.diw 2, Int.tdiv s.diw 2, s.accelerate⟩
      else .inl (2 * s.iw)
    else if s.diw > 1 then .inr ⟨s.iw - Int.tdiv s.diw 2, Int.tdiv s.diw 2, false⟩
    else .inl (2 * (s.iw - 1))
  match err s.iw with
  | some e => go e
  | none => match go 0 with
    | .inl r => .inl r
    | .inr _ => .inl 0

/-- The loop (L231-267) with at most `fuel` iterations; `none` = still running. -/
def search {E : Type} [LT E] [DecidableLT E] [Zero E] (err : Int → Option E) (target : E) :
    Nat → Search → Option Int
  | 0, _ => none
  | fuel + 1, s => match step err target s with
    | .inl r => some r
    | .inr s' => search err target fuel s'

/-- `sdp_gridder_determine_max_w_tower_height` (L187-270), plan created without error.  `double`
is any type with a zero and an order; `twice` is `2 * x`; `err 0` measures at `w = 0`.  A failed
measurement at `w = 0` skips the loop. -/
def maxHeight {E : Type} [LT E] [DecidableLT E] [Zero E] [DecidableEq E] (twice : E → E)
    (err : Int → Option E) (target : E) (fuel : Nat) : Option Int :=
  if target = 0 then
    match err 0 with
    | some e => search err (twice e) fuel Search.init
    | none => some 0
  else search err target fuel Search.init

/-- The loop `while (image_size % fov_edge == 0) fov_edge -= 1` (L295-298), from `edge`.
`none` = division by zero.  `edge` is not negative: `theta` and `fov` are not negative. -/
def skipDivisors (n : Nat) : Nat → Option Nat
  | 0 => none
  | edge + 1 => if n % (edge + 1) = 0 then skipDivisors n edge else some (edge + 1)

/-- `image_(x, y) = v` on an `n x n` image.  An index outside its dimension is an error. -/
def setPix {R : Type} (n : Nat) (img : Arr R) (x y : Int) (v : R) : Option (Arr R) :=
  if 0 ≤ x ∧ x < n ∧ 0 ≤ y ∧ y < n then img.write (index2 n x y) v else none

/-- `sdp_gridder_worst_case_image` (L273-316) for a square complex double image, status clear.
`edge` is `int(image_size / theta * fov / 2)` (L294); `a`, `b` are 0.3 and 0.2. -/
def worstCase {R : Type} [Zero R] (a b : R) (n edge : Nat) (img : Arr R) : Option (Arr R) :=
  (skipDivisors n edge).bind fun e =>
  let h : Int := ((n / 2 : Nat) : Int)
  let img0 : Arr R := ⟨img.size, fun _ => 0⟩
  (setPix n img0 (h + e) (h + e) a).bind fun i1 =>
  (setPix n i1 (h - e) (h - e) b).bind fun i2 =>
  (setPix n i2 (h + e) (h - e - 1) a).bind fun i3 =>
  setPix n i3 (h - e - 1) (h + e) b

end Sdp.Height
