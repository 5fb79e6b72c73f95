import Mathlib.Algebra.Order.Floor.Defs
import Mathlib.Algebra.Field.Basic
import Verif.Common.Race
import Verif.Common.AtomicAdd
import Verif.DataModel.Model

/-!
# Model of visibility/sdp_opt_weighting.{cpp,cu}: Briggs weighting of sorted visibilities, tile by tile

Exact arithmetic over an ordered field; indices fit their integer types.  A block does three passes over the
visibilities of a tile, with a barrier after each (sdp_opt_weighting.cu:45-58, 82, 109): additions to the cells of
the tile in shared memory; additions to the two sums, each followed by loads of them; stores of the weights.  Steps
of the threads of a block interleave in every pass.  The blocks have their own shared memory and write to different
visibilities; they are taken one after the other.
-/

namespace Sdp.OptWeighting
open Sdp.Race

section
variable {F : Type} [Field F] [LinearOrder F] [FloorRing F]

/-- C `round`: halves away from zero. -/
def roundC (x : F) : Int := if 0 ≤ x then ⌊x + 1 / 2⌋ else ⌈x - 1 / 2⌉

/-- The sorted arrays. -/
structure Sorted (F : Type) where
  uu : Arr F
  vv : Arr F
  weight : Arr F
  tile : Arr Int
  offsets : Arr Int

/-- `grid_centre`, `top_left_u`, `top_left_v`, sdp_opt_weighting.cpp:54-62 and .cu:49. -/
def centre (grid : Int) : Int := grid.tdiv 2
def topU (grid : Int) : Int := centre grid - (centre grid).tdiv 32 * 32 - 16
def topV (grid : Int) : Int := centre grid - (centre grid).tdiv 16 * 16 - 8

/-- What a block knows of its tile, sdp_opt_weighting.cu:50-55: `start_vis`, `total_vis`, `tile_idx_u`, `tile_idx_v`. -/
structure Tile where
  start : Int
  total : Int
  u : Int
  v : Int
  deriving DecidableEq

/-- sdp_opt_weighting.cu:48-55; `& 32767` and `>> 15`.  `none`: a load outside an array, also the one that follows when
`total_vis` is negative, as it is compared as an unsigned number. -/
def tileOf (p : Sorted F) (grid : Int) (b : Nat) : Option Tile :=
  (p.offsets.read b).bind fun s =>
  (p.offsets.read ((b + 1 : Nat) : Int)).bind fun e =>
  (p.tile.read s).bind fun k =>
  if e < s then none else some ⟨s, e - s, k % 32768 * 32 + topU grid, k / 32768 * 16 + topV grid⟩

/-- `blockDim.x`, sdp_opt_weighting.cpp:116. -/
def width : Nat := 512

/-- The visibilities of thread `t`: `for (i_vis = threadIdx.x + start_vis; i_vis < total_vis; i_vis += blockDim.x)`,
sdp_opt_weighting.cu:59-61, 84-86, 111-113.  `i_vis` has type `size_t`; the bound is a number of visibilities. -/
def visits (k : Tile) (t : Nat) : List Nat :=
  (List.range k.total.toNat).filter fun i => k.start ≤ i ∧ ((i : Int) - k.start) % (width : Int) = t

/-- `tile_grid_idx` of visibility `i`, sdp_opt_weighting.cu:63-76, 88-101, 115-128; `some none`: outside the tile. -/
def cellOf (p : Sorted F) (grid : Int) (k : Tile) (i : Nat) : Option (Option Nat) :=
  (p.uu.read i).bind fun u =>
  (p.vv.read i).bind fun v =>
  let tu := roundC u + centre grid - k.u
  let tv := roundC v + centre grid - k.v
  some (if 0 ≤ tu ∧ tu < 32 ∧ 0 ≤ tv ∧ tv < 16 then some (16 * tu + tv).toNat else none)

/-- First pass of thread `t`: its additions, sdp_opt_weighting.cu:59-80.  `none`: a load outside an array. -/
def addsOf (p : Sorted F) (grid : Int) (k : Tile) (t : Nat) : Option (List (Int × F)) :=
  loop (fun (l : List (Int × F)) (i : Nat) => (cellOf p grid k i).bind fun c =>
    match c with
    | none => some l
    | some c => (p.weight.read i).bind fun w => some (l ++ [((c : Int), w)])) [] (visits k t)

/-- A step of the second pass. -/
inductive Act (F : Type)
  | one (v : F)
  | two (v : F)
  | loadTwo
  | loadOne

/-- Second pass of thread `t`, sdp_opt_weighting.cu:84-107, `cells` being the tile after the first. -/
def actsOf (p : Sorted F) (grid : Int) (k : Tile) (cells : Arr F) (t : Nat) : Option (List (Act F)) :=
  loop (fun (l : List (Act F)) (i : Nat) => (cellOf p grid k i).bind fun c =>
    match c with
    | none => some (l ++ [.loadTwo, .loadOne])
    | some c => (cells.read (c : Int)).bind fun s => some (l ++ [.one s, .two (s * s), .loadTwo, .loadOne]))
    [] (visits k t)

/-- State of the second pass: `sw`, `sw2`, what each thread has still to do, the value of `sw2` it loaded last, and its
`robustness` (`none`: not a number). -/
structure BSt (F : Type) where
  sw : F
  sw2 : F
  todo : Nat → List (Act F)
  got : Nat → F
  rob : Nat → Option F

/-- `numerator / denominator`, sdp_opt_weighting.cu:104-106. -/
def robOf (robust : Int) (s2 s1 : F) : Option F :=
  if s1 = 0 ∨ s2 = 0 then none else some ((5 * 1 / (10 : F) ^ robust) ^ 2 / (s2 / s1))

/-- Thread `t` makes its next step. -/
def bstep (robust : Int) (s : BSt F) (t : Nat) : BSt F :=
  match s.todo t with
  | [] => s
  | .one v :: rest => { s with sw := s.sw + v, todo := Function.update s.todo t rest }
  | .two v :: rest => { s with sw2 := s.sw2 + v, todo := Function.update s.todo t rest }
  | .loadTwo :: rest => { s with got := Function.update s.got t s.sw2, todo := Function.update s.todo t rest }
  | .loadOne :: rest =>
    { s with rob := Function.update s.rob t (robOf robust (s.got t) s.sw), todo := Function.update s.todo t rest }

/-- A schedule of the second pass; `robustness` starts as 0, sdp_opt_weighting.cu:38, 44-45. -/
def brun (robust : Int) (acts : Nat → List (Act F)) (sched : List Nat) : BSt F :=
  sched.foldl (bstep robust) ⟨0, 0, acts, fun _ => 0, fun _ => some 0⟩

/-- Third pass of thread `t`: stores of weights, sdp_opt_weighting.cu:111-132. -/
def storeProg (p : Sorted F) (grid : Int) (k : Tile) (cells : Arr F) (rob : Nat → Option F) (t : Nat) :
    List Nat → Prog F
  | [] => .done
  | i :: rest =>
    .need (cellOf p grid k i) fun c =>
    match c with
    | none => storeProg p grid k cells rob t rest
    | some c =>
      .need (p.weight.read i) fun w =>
      .need (rob t) fun r =>
      .need (cells.read (c : Int)) fun s =>
      .need (if 1 + r * s = 0 then none else some (w / (1 + r * s))) fun v =>
      .write (i : Int) v (storeProg p grid k cells rob t rest)

/-- The tile as it is cleared, sdp_opt_weighting.cu:43-47, one cell per thread. -/
def cleared : Arr F := ⟨width, fun _ => 0⟩

/-- One execution of block `b` that takes output weights `out` to `o`, with a schedule of the second pass that satisfies
`Ok`. -/
def BlockRun (Ok : (Nat → List (Act F)) → List Nat → Prop) (p : Sorted F) (grid robust : Int) (b : Nat) (out o : Arr F) : Prop :=
  ∃ k, tileOf p grid b = some k ∧
  ∃ (adds : Nat → List (Int × F)) (s1 : List Nat) (st1 : ASt F Nat), (∀ t < width, addsOf p grid k t = some (adds t)) ∧
    (∀ t ∈ s1, t < width) ∧ arun true ⟨cleared, adds, fun _ => none⟩ s1 = some st1 ∧ (∀ t < width, st1.todo t = []) ∧
  ∃ (acts : Nat → List (Act F)) (s2 : List Nat), (∀ t < width, actsOf p grid k st1.mem t = some (acts t)) ∧
    (∀ t ∈ s2, t < width) ∧ (∀ t < width, (brun robust acts s2).todo t = []) ∧ Ok acts s2 ∧
  ∃ (s3 : List Nat) (st3 : Race.St F Nat), (∀ t ∈ s3, t < width) ∧
    Race.run ⟨out, fun t => storeProg p grid k st1.mem (brun robust acts s2).rob t (visits k t)⟩ s3 = some st3 ∧
    (∀ t < width, st3.prog t = .done) ∧ o = st3.mem

end

/-! ## The call -/

/-- The low 32 bits of an integer as `double` (IEEE 754, exact for `|n| < 2 ^ 53`): sign, exponent and 52 bits of the
fraction, of which those below bit 32. -/
def lowWord (n : Int) : Nat :=
  if n = 0 then 0 else (n.natAbs - 2 ^ n.natAbs.log2) * 2 ^ (52 - n.natAbs.log2) % 2 ^ 32

/-- `num_tiles`, sdp_opt_weighting.cpp:58-60. -/
def numTiles (grid : Int) : Int := (grid + 31).tdiv 32 * (grid + 15).tdiv 16

/-- What a call launches: how many blocks, and the value of the kernel's `int robust_param`: the launch copies the
first four bytes of the argument, a `double`, sdp_opt_weighting.cpp:118, 147 and .cu:33. -/
structure Launched where
  blocks : Nat
  robust : Int
  deriving DecidableEq

/-- `sdp_optimized_weighting`, sdp_opt_weighting.cpp:25-163: status, and what is launched; `robust` is an integer value
of the `double`.  `sorted` are the six sorted arrays.  A launch with no blocks or more than 2 ^ 31 - 1 is refused. -/
def optCall (cuda : Bool) (uvw freqs vis weights : Mem) (sorted : List Mem) (out : Mem) (grid robust : Int)
    (st : Status) : Status × Option Launched :=
  if st ≠ .success then (st, none)
  else
    let md := getVisMetadata ⟨true, true, true, true, true, true⟩ vis st
    let s := checkUvw uvw .void vis.location (md.1.numTimes.getD 0) (md.1.numBaselines.getD 0) md.2
    let s := checkWeights weights .void vis.location (md.1.numTimes.getD 0) (md.1.numBaselines.getD 0)
      (md.1.numChannels.getD 0) (md.1.numPols.getD 0) s
    let doubles := decide (uvw.type = .double ∧ weights.type = .double ∧ freqs.type = .double)
    match vis.location with
    | .cpu => (if doubles then .memLocation else .dataType, none)
    | .gpu =>
      let s := checkLocation out .gpu s
      let s := (sorted ++ [out]).foldl (fun s m =>
        if s = .success ∧ m.location ≠ .gpu ∧ m.type ≠ .void then .memLocation else s) s
      if s ≠ .success then (s, none)
      else if doubles = false then (.invalidArgument, none)
      else if cuda = false ∨ numTiles grid - 1 ≤ 0 ∨ 2 ^ 31 ≤ numTiles grid - 1 then (.runtime, none)
      else (.success, some ⟨(numTiles grid - 1).toNat, if lowWord robust < 2 ^ 31 then lowWord robust else lowWord robust - 2 ^ 32⟩)
    | .other => (s, none)

end Sdp.OptWeighting
