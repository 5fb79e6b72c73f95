import Mathlib.Algebra.BigOperators.Group.Finset.Basic
import Verif.Common.Arr

/-!
# Model of visibility/sdp_tiled_functions.{cpp,cu}

Positions rounded to the nearest cell are given as integers; the float products
`(float)(rel_u - support) * inv_tile_size_u` are taken exactly, so
`floor`/`ceil` become integer floor/ceiling division.  `int` counters are not
bounded.  Buffers are bounds-checked (`none` = out-of-bounds access).
-/

namespace Sdp.Tiles

/-- The tiling derived from grid and tile sizes, sdp_tiled_functions.cpp:333-342. -/
structure Tiling where
  gridSize : Int
  tileU : Int
  tileV : Int
  support : Int
  deriving Repr

namespace Tiling
variable (T : Tiling)

/-- `grid_centre`, sdp_tiled_functions.cpp:333. -/
def centre : Int := T.gridSize / 2

/-- `num_tiles_u`, `num_tiles_v`, sdp_tiled_functions.cpp:338-339. -/
def numU : Int := (T.gridSize + T.tileU - 1) / T.tileU
def numV : Int := (T.gridSize + T.tileV - 1) / T.tileV

/-- `num_tiles`, sdp_tiled_functions.cpp:340. -/
def num : Int := T.numU * T.numV

/-- `top_left_u`, `top_left_v`, sdp_tiled_functions.cpp:334-335, 341-342. -/
def topU : Int := T.centre - T.centre / T.tileU * T.tileU - T.tileU / 2
def topV : Int := T.centre - T.centre / T.tileV * T.tileV - T.tileV / 2

/-- In-grid test, sdp_tiled_functions.cpp:75-77. -/
def inGrid (gu gv : Int) : Bool :=
  decide (gu + T.support < T.gridSize ∧ gu - T.support ≥ 0 ∧
    gv + T.support < T.gridSize ∧ gv - T.support ≥ 0)

/-- `floor(x / n)` and `ceil(x / n)` of the `TILE_RANGES` macro,
sdp_tiled_functions.cpp:11-19. -/
def floorDiv (x n : Int) : Int := x / n
def ceilDiv (x n : Int) : Int := -((-x) / n)

/-- The tile ranges (u_min, u_max, v_min, v_max) as the CPU code computes them,
sdp_tiled_functions.cpp:79-89: the macro is invoked with `tile_v_min` in the
place of `tile_u_min`, so `tile_u_min` keeps its initial value 0. -/
def rangesCpu (gu gv : Int) : Int × Int × Int × Int :=
  let relU := gu - T.topU
  let relV := gv - T.topV
  let uMin := 0
  let uMax := ceilDiv (relU + T.support + 1) T.tileU
  let vMin := floorDiv (relV - T.support) T.tileV
  let vMax := ceilDiv (relV + T.support + 1) T.tileV
  (uMin, uMax, vMin, vMax)

/-- The tile ranges as the GPU code computes them, sdp_tiled_functions.cu:106-114. -/
def rangesGpu (gu gv : Int) : Int × Int × Int × Int :=
  let relU := gu - T.topU
  let relV := gv - T.topV
  (floorDiv (relU - T.support) T.tileU, ceilDiv (relU + T.support + 1) T.tileU,
   floorDiv (relV - T.support) T.tileV, ceilDiv (relV + T.support + 1) T.tileV)

/-- `for (x = a; x < b; x++)`. -/
def intRange (a b : Int) : List Int := (List.range (b - a).toNat).map fun (k : Nat) => a + (k : Int)

/-- Tile indices `pu + pv * num_tiles_u` visited for a visibility, in loop order,
sdp_tiled_functions.cpp:91-97 (same loops at 195-210, 282-294, and
sdp_tiled_functions.cu:116-122). -/
def tileList (r : Int × Int × Int × Int) : List Int :=
  (intRange r.2.2.1 r.2.2.2).flatMap fun pv =>
    (intRange r.1 r.2.1).map fun pu => pu + pv * T.numU

/-- All (visibility, tile index) items, sdp_tiled_functions.cpp:53-102: visibilities
in loop order, those failing the in-grid test skipped. `cells v` is the grid cell
of visibility `v`. -/
def items (ranges : Int → Int → Int × Int × Int × Int) (cells : Nat → Int × Int) (n : Nat) :
    List (Nat × Int) :=
  (List.range n).flatMap fun v =>
    if T.inGrid (cells v).1 (cells v).2 then
      (T.tileList (ranges (cells v).1 (cells v).2)).map fun t => (v, t)
    else []

/-- `num_skipped`, sdp_tiled_functions.cpp:99. -/
def skipped (cells : Nat → Int × Int) (n : Nat) : Nat :=
  ((List.range n).filter fun v => !T.inGrid (cells v).1 (cells v).2).length

end Tiling

/-- The counting pass over the items: `num_points_in_tiles[..] += 1`,
sdp_tiled_functions.cpp:95 (atomicAdd in sdp_tiled_functions.cu:120). -/
def countPass (counts : Arr Int) : List (Nat × Int) → Option (Arr Int)
  | [] => some counts
  | (_, t) :: rest =>
    match counts.read t with
    | none => none
    | some c =>
      match counts.write t (c + 1) with
      | none => none
      | some counts => countPass counts rest

/-- `sdp_prefix_sum`, sdp_tiled_functions.cpp:106-122: the loop from tile `i` with
running sum `sum`, `k` tiles to go. -/
def prefixLoop (counts : Arr Int) (offsets : Arr Int) (i : Nat) (sum : Int) :
    Nat → Option (Arr Int)
  | 0 => offsets.write i sum
  | k + 1 =>
    match counts.read i with
    | none => none
    | some x =>
      match offsets.write i sum with
      | none => none
      | some offsets => prefixLoop counts offsets (i + 1) (sum + x) k

def prefixSum (numTiles : Nat) (counts offsets : Arr Int) : Option (Arr Int) :=
  prefixLoop counts offsets 0 0 numTiles

/-- The scatter pass, sdp_tiled_functions.cpp:199-208 (`sorted_vis_index` of
286-292 is the same with the visibility number as payload): slot = old offset of
the tile, which is incremented (atomicAdd in sdp_tiled_functions.cu:200).  All
`sorted_*` arrays are indexed alike; one array of (visibility, tile) stands for
them. -/
def scatter (offsets : Arr Int) (out : Arr (Option (Nat × Int))) :
    List (Nat × Int) → Option (Arr Int × Arr (Option (Nat × Int)))
  | [] => some (offsets, out)
  | (v, t) :: rest =>
    match offsets.read t with
    | none => none
    | some off =>
      match offsets.write t (off + 1), out.write off (some (v, t)) with
      | some offsets, some out => scatter offsets out rest
      | _, _ => none

/-! ### The GPU scan, `sdp_prefix_sum_gpu`, sdp_tiled_functions.cu:20-58 -/

section
variable {M : Type} [AddCommMonoid M]

/-- `scratch[threadIdx.x] = 0; scratch[t] = val`, sdp_tiled_functions.cu:40-41. -/
def hsInit (B : Nat) (val : Nat → M) (i : Nat) : M := if i < B then 0 else val (i - B)

/-- One round of the inner loop between barriers, sdp_tiled_functions.cu:44-47:
every thread reads, barrier, every thread adds. -/
def hsRound (B j : Nat) (s : Nat → M) (i : Nat) : M := if i < B then s i else s i + s (i - j)

/-- `for (j = 1; j < blockDim.x; j <<= 1)`, sdp_tiled_functions.cu:42-48. -/
def hsLoop (B : Nat) : Nat → Nat → (Nat → M) → (Nat → M)
  | 0, _, s => s
  | fuel + 1, j, s => if j < B then hsLoop B fuel (2 * j) (hsRound B j s) else s

/-- Scratch contents of one outer iteration when its last barrier is passed,
sdp_tiled_functions.cu:35-50. -/
def blockScan (B : Nat) (val : Nat → M) : Nat → M := hsLoop B B 1 (hsInit B val)

/-- Value loaded by thread `th` in outer iteration `i`, sdp_tiled_functions.cu:35-39. -/
def loadVal (B n : Nat) (counts : Nat → M) (i th : Nat) : M :=
  let idx := th + i * B
  if 0 < idx ∧ idx ≤ n then counts (idx - 1) else 0

/-- `running_total` of thread `th` at the start of outer iteration `i`,
sdp_tiled_functions.cu:30, 56.  There is no barrier between this read of
`scratch[2 * blockDim.x - 1]` and the store to it by the last thread at the start
of the next iteration (line 41): `late i th` says that thread `th` read it, in
iteration `i`, only after that store (the last thread itself cannot be late). -/
def runningTotal (B n : Nat) (counts : Nat → M) (late : Nat → Nat → Bool) (th : Nat) :
    Nat → M
  | 0 => 0
  | i + 1 => runningTotal B n counts late th i +
      (if late i th ∧ th + 1 ≠ B then loadVal B n counts (i + 1) (B - 1)
       else blockScan B (loadVal B n counts i) (2 * B - 1))

/-- `tile_offsets[idx]` as written by thread `idx % B` in iteration `idx / B`,
sdp_tiled_functions.cu:51-54; `none` if it is not written. -/
def gpuOffsets (B n : Nat) (counts : Nat → M) (late : Nat → Nat → Bool) (idx : Nat) :
    Option M :=
  let i := idx / B
  let th := idx % B
  if i < (n + B) / B ∧ idx ≤ n then
    some (blockScan B (loadVal B n counts i) (th + B) + runningTotal B n counts late th i)
  else none

end
end Sdp.Tiles
