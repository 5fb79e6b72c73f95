import Verif.OptWeighting.Model

/-!
# Model of the indexed variant: sdp_optimised_indexed_weighting and its kernel

Weights and output are in the order of the visibilities, and an array of the sort says which visibility is at a place
of the sorted arrays.  The kernel declares `sw`, `sw2` and `tile` as `extern __shared__` arrays
(sdp_opt_weighting.cu:173-175): all three start at the same address, so both sums are cell 0 of the tile.  Loads and
atomic additions of shared memory are single steps, made in the order in which they are written.
-/

namespace Sdp.OptWeighting
open Sdp.Race

section
variable {F : Type} [Field F] [LinearOrder F] [FloorRing F]

/-- The sorted arrays, with the weights in the order of the visibilities, and `sorted_index`. -/
structure Indexed (F : Type) where
  p : Sorted F
  index : Arr Int

/-- First pass of thread `t`, sdp_opt_weighting.cu:192-216; `i_channel` is 0 and never above the number of channels
(lines 196-197). -/
def indexAdds (q : Indexed F) (grid : Int) (k : Tile) (t : Nat) : Option (List (Int × F)) :=
  loop (fun (l : List (Int × F)) (i : Nat) => (q.index.read i).bind fun v => (cellOf q.p grid k i).bind fun c =>
    match c with
    | none => some l
    | some c => (q.p.weight.read v).bind fun w => some (l ++ [((c : Int), w)])) [] (visits k t)

/-- A step of the second pass, sdp_opt_weighting.cu:238-244: the load and the addition of `atomicAdd(&sw[0], tile[c])`,
the two loads and the addition of `atomicAdd(&sw2[0], tile[c] * tile[c])`, the loads of `sw2[0]` and of `sw[0]`. -/
inductive Move
  | loadX (c : Nat)
  | addX
  | loadY (c : Nat)
  | loadZ (c : Nat)
  | addYZ
  | loadTwo
  | loadOne

/-- Second pass of thread `t`, sdp_opt_weighting.cu:220-245.  `none`: a load outside an array or the tile. -/
def movesOf (q : Indexed F) (grid : Int) (k : Tile) (t : Nat) : Option (List Move) :=
  loop (fun (l : List Move) (i : Nat) => (cellOf q.p grid k i).bind fun c =>
    match c with
    | none => some (l ++ [.loadTwo, .loadOne])
    | some c => if c < width then
        some (l ++ [.loadX c, .addX, .loadY c, .loadZ c, .addYZ, .loadTwo, .loadOne]) else none) [] (visits k t)

/-- State of the second pass: the tile, what each thread has still to do, its loaded values, and its `robustness`
(`none`: not a number). -/
structure ISt (F : Type) where
  mem : Nat → F
  todo : Nat → List Move
  x : Nat → F
  y : Nat → F
  z : Nat → F
  got : Nat → F
  rob : Nat → Option F

/-- Thread `t` makes its next step, sdp_opt_weighting.cu:238-244; `sw[0]` and `sw2[0]` are cell 0. -/
def istep (robust : Int) (s : ISt F) (t : Nat) : ISt F :=
  match s.todo t with
  | [] => s
  | .loadX c :: rest => { s with x := Function.update s.x t (s.mem c), todo := Function.update s.todo t rest }
  | .addX :: rest => { s with mem := Function.update s.mem 0 (s.mem 0 + s.x t), todo := Function.update s.todo t rest }
  | .loadY c :: rest => { s with y := Function.update s.y t (s.mem c), todo := Function.update s.todo t rest }
  | .loadZ c :: rest => { s with z := Function.update s.z t (s.mem c), todo := Function.update s.todo t rest }
  | .addYZ :: rest =>
    { s with mem := Function.update s.mem 0 (s.mem 0 + s.y t * s.z t), todo := Function.update s.todo t rest }
  | .loadTwo :: rest => { s with got := Function.update s.got t (s.mem 0), todo := Function.update s.todo t rest }
  | .loadOne :: rest =>
    { s with rob := Function.update s.rob t (robOf robust (s.got t) (s.mem 0)), todo := Function.update s.todo t rest }

/-- A schedule of the second pass from tile `mem`; `robustness` starts as 0, sdp_opt_weighting.cu:171. -/
def irun (robust : Int) (mem : Nat → F) (moves : Nat → List Move) (sched : List Nat) : ISt F :=
  sched.foldl (istep robust) ⟨mem, moves, fun _ => 0, fun _ => 0, fun _ => 0, fun _ => 0, fun _ => some 0⟩

/-- Third pass of thread `t`: stores of weights, sdp_opt_weighting.cu:249-272. -/
def indexStore (q : Indexed F) (grid : Int) (k : Tile) (tile : Arr F) (rob : Nat → Option F) (t : Nat) :
    List Nat → Prog F
  | [] => .done
  | i :: rest =>
    .need (q.index.read i) fun j =>
    .need (cellOf q.p grid k i) fun c =>
    match c with
    | none => indexStore q grid k tile rob t rest
    | some c =>
      .need (q.p.weight.read j) fun w =>
      .need (rob t) fun r =>
      .need (tile.read (c : Int)) fun s =>
      .need (if 1 + r * s = 0 then none else some (w / (1 + r * s))) fun v =>
      .write j v (indexStore q grid k tile rob t rest)

/-- One execution of block `b` of the indexed kernel, sdp_opt_weighting.cu:147-273, that takes output weights `out` to
`o`, with a schedule of the second pass that satisfies `Ok`. -/
def IndexRun (Ok : (Nat → List Move) → List Nat → Prop) (q : Indexed F) (grid robust : Int) (b : Nat) (out o : Arr F) :
    Prop :=
  ∃ k, tileOf q.p grid b = some k ∧
  ∃ (adds : Nat → List (Int × F)) (s1 : List Nat) (st1 : ASt F Nat), (∀ t < width, indexAdds q grid k t = some (adds t)) ∧
    (∀ t ∈ s1, t < width) ∧ arun true ⟨cleared, adds, fun _ => none⟩ s1 = some st1 ∧ (∀ t < width, st1.todo t = []) ∧
  ∃ (moves : Nat → List Move) (s2 : List Nat), (∀ t < width, movesOf q grid k t = some (moves t)) ∧
    (∀ t ∈ s2, t < width) ∧ (∀ t < width, (irun robust st1.mem.get moves s2).todo t = []) ∧ Ok moves s2 ∧
  ∃ (s3 : List Nat) (st3 : Race.St F Nat), (∀ t ∈ s3, t < width) ∧
    Race.run ⟨out, fun t => indexStore q grid k ⟨width, (irun robust st1.mem.get moves s2).mem⟩
      (irun robust st1.mem.get moves s2).rob t (visits k t)⟩ s3 = some st3 ∧
    (∀ t < width, st3.prog t = .done) ∧ o = st3.mem

end

/-- `sdp_optimised_indexed_weighting`, sdp_opt_weighting.cpp:166-309: status, and what is launched; `robust` is an
integer value of the `double`.  `sorted` are the six arrays of the sort. -/
def indexCall (cuda : Bool) (uvw vis weights : Mem) (sorted : List Mem) (out : Mem) (grid robust : Int)
    (st : Status) : Status × Option Launched :=
  if st ≠ .success then (st, none)
  else
    let md := getVisMetadata ⟨true, true, true, true, true, true⟩ vis st
    let s := checkUvw uvw .void vis.location (md.1.numTimes.getD 0) (md.1.numBaselines.getD 0) md.2
    let s := checkWeights weights .void vis.location (md.1.numTimes.getD 0) (md.1.numBaselines.getD 0)
      (md.1.numChannels.getD 0) (md.1.numPols.getD 0) s
    let doubles := decide (uvw.type = .double ∧ weights.type = .double)
    match vis.location with
    | .cpu => (if doubles then .memLocation else .dataType, none)
    | .gpu =>
      let s := checkLocation out .gpu s
      let s := (weights :: sorted ++ [out]).foldl (fun s m =>
        if s = .success ∧ m.location ≠ .gpu ∧ m.type ≠ .void then .memLocation else s) s
      if s ≠ .success then (s, none)
      else if doubles = false then (.invalidArgument, none)
      else if cuda = false ∨ numTiles grid - 1 ≤ 0 ∨ 2 ^ 31 ≤ numTiles grid - 1 then (.runtime, none)
      else (.success, some ⟨(numTiles grid - 1).toNat, if lowWord robust < 2 ^ 31 then lowWord robust else lowWord robust - 2 ^ 32⟩)
    | .other => (s, none)

end Sdp.OptWeighting
