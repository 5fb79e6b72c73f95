import Mathlib.Algebra.Order.Floor.Ring
import Mathlib.Algebra.Order.Field.Basic
import Mathlib.Data.Rat.Floor
import Verif.Common.Loops

/-!
# Channel clamping: model

`/repo/src/ska-sdp-func/grid_data/sdp_gridder_clamp_channels.{h,cpp}` (CPU paths).
Exact arithmetic in any ordered field with a floor; floating-point rounding and the
GPU kernels are not modelled.  `none` = undefined or implementation-defined behaviour
(out-of-bounds access, conversion to an integer type that cannot hold the value).
-/

namespace Sdp.Clamp

variable {K : Type} [Field K] [LinearOrder K] [IsStrictOrderedRing K] [FloorRing K]

/-- `MAX(rel_min_u, rel_max_u) / 2147483645.0`
(sdp_gridder_clamp_channels.cpp:40-42, .h:133-135). -/
def eta (u0 lo hi : K) : K := max |lo - u0| |hi - u0| / 2147483645

/-- `(int64_t) (ceil(x))` (cpp:45-46). -/
def ceil64 (x : K) : Option Int :=
  if -9223372036854775808 ≤ ⌈x⌉ ∧ ⌈x⌉ ≤ 9223372036854775807 then some ⌈x⌉ else none

/-- `(int) x` for an `int64_t x` (cpp:48-49). -/
def cast32 (x : Int) : Option Int :=
  if -2147483648 ≤ x ∧ x ≤ 2147483647 then some x else none

/-- One row and one coordinate of `clamp_channels_single` / `clamp_channels_uv`
(cpp:38-63, 100-126 and 129-149): coordinate `u0 + du * channel`, range ends
`lo`, `hi`, input channel range `[s, e)`. -/
def clampAxis (u0 du lo hi : K) (s e : Int) : Option (Int × Int) :=
  (if eta u0 lo hi < |du| then
      (ceil64 ((lo - u0) / du)).bind fun mins =>
      (ceil64 ((hi - u0) / du)).bind fun maxs =>
      (cast32 (if 0 < du then mins else maxs)).bind fun start =>
      (cast32 (if 0 < du then maxs else mins)).bind fun stop =>
      some (max s start, min e stop)
    else if u0 < lo ∨ hi ≤ u0 then some (0, 0)
    else some (s, e)).bind fun r => some (r.1, max r.2 r.1)

/-- `sdp_gridder_clamp_channels_inline` (sdp_gridder_clamp_channels.h:117-172);
`c0` is the speed of light `C_0`. -/
def clampInline (c0 u freq0 dfreq : K) (s e : Int) (lo hi : K) : Option (Int × Int) :=
  let u0 := freq0 * u / c0
  let du := dfreq * u / c0
  let et := eta u0 lo hi
  (if et < du then
      (ceil64 ((lo - u0) / du)).bind fun start =>
      (ceil64 ((hi - u0) / du)).bind fun stop =>
      some (max s start, min e stop)
    else if du < -et then
      (ceil64 ((hi - u0) / du)).bind fun start =>
      (ceil64 ((lo - u0) / du)).bind fun stop =>
      some (max s start, min e stop)
    else if u0 < lo ∨ hi ≤ u0 then some (0, 0)
    else some (s, e)).bind fun r =>
      if r.2 ≤ r.1 then some (0, 0) else some r

/-- Row body of `clamp_channels_uv` (cpp:98-149): the u pass, then, unless the range
is already empty, the v pass on its result. -/
def clampAxis2 (u0 du v0 dv loU hiU loV hiV : K) (s e : Int) : Option (Int × Int) :=
  (clampAxis u0 du loU hiU s e).bind fun r =>
    if r.2 ≤ r.1 then some r else clampAxis v0 dv loV hiV r.1 r.2

/-- Start and end channel arrays of a call.  `inPlace = true` models a caller passing
the output arrays as the inputs as well. -/
structure Chans where
  inS : Arr Int
  inE : Arr Int
  inPlace : Bool

/-- Reading `start_chs_in_(i)` / `end_chs_in_(i)` while the outputs are `st`. -/
def readIn (c : Chans) (st : Arr Int × Arr Int) (i : Int) : Option (Int × Int) :=
  ((if c.inPlace then st.1 else c.inS).read i).bind fun s =>
  ((if c.inPlace then st.2 else c.inE).read i).bind fun e => some (s, e)

/-- Storing both outputs of row `i`. -/
def writeOut (st : Arr Int × Arr Int) (i : Int) (r : Int × Int) :
    Option (Arr Int × Arr Int) :=
  (st.1.write i r.1).bind fun a => (st.2.write i r.2).bind fun b => some (a, b)

/-- Rows of a call after the defaulting in the public functions (cpp:170-174,
266-270): a negative `start_row` or `end_row` selects all rows. -/
def rowRange (numRows startRow endRow : Int) : Int × Int :=
  if startRow < 0 ∨ endRow < 0 then (0, numRows) else (startRow, endRow)

/-- Iterations of `for (i = a; i < b; ++i)`. -/
def rowsOf (a b : Int) : List Int := (List.range (b - a).toNat).map fun k : Nat => a + (k : Int)

/-- `sdp_gridder_clamp_channels_single` (cpp:10-66, 154-202), CPU, C-contiguous `uvw`
of shape `[numRows, 3]`, status clear.  The OpenMP loop over rows is run in row order
(rows are independent, see `C34_single`). -/
def clampSingle (c0 : K) (uvw : Arr K) (numRows : Int) (dim : Int) (freq0 dfreq : K)
    (c : Chans) (lo hi : K) (out : Arr Int × Arr Int) (startRow endRow : Int) :
    Option (Arr Int × Arr Int) :=
  let rr := rowRange numRows startRow endRow
  loop (fun st (i : Int) =>
    (uvw.read (3 * i + dim)).bind fun u =>
    (readIn c st i).bind fun se =>
    (clampAxis (u * (freq0 / c0)) (u * (dfreq / c0)) lo hi se.1 se.2).bind fun r =>
    writeOut st i r) out (rowsOf rr.1 rr.2)

/-- `sdp_gridder_clamp_channels_uv` (cpp:70-149, 249-299), as above. -/
def clampUv (c0 : K) (uvw : Arr K) (numRows : Int) (freq0 dfreq : K)
    (c : Chans) (loU hiU loV hiV : K) (out : Arr Int × Arr Int) (startRow endRow : Int) :
    Option (Arr Int × Arr Int) :=
  let rr := rowRange numRows startRow endRow
  loop (fun st (i : Int) =>
    (uvw.read (3 * i)).bind fun u =>
    (uvw.read (3 * i + 1)).bind fun v =>
    (readIn c st i).bind fun se =>
    (clampAxis2 (u * (freq0 / c0)) (u * (dfreq / c0)) (v * (freq0 / c0)) (v * (dfreq / c0))
      loU hiU loV hiV se.1 se.2).bind fun r =>
    writeOut st i r) out (rowsOf rr.1 rr.2)

end Sdp.Clamp
