import Mathlib.Data.List.Basic
import Verif.GridUtil.Scale

/-!
# C112: errors in `sdp_grid_wstack_wtower_degrid_all` and `sdp_grid_wstack_wtower_grid_all`

The control flow of grid_data/sdp_grid_wstack_wtower.cpp:218-736 around its calls of other functions, with any number of
worker threads and any schedule.  Of a called function only its effect on `*status` is modelled: one that is called after an
error does nothing, else it leaves the given result (its values are the subject of C36, C37 and C89).  A called function, a
test of `*status` and a change of the counter are each one atomic step.
-/

namespace Sdp.Wstack.Err

/-- A function of the setup and its result.  `sdp_gridder_wtower_uvw_create` does not test `*status` on entry
(sdp_gridder_wtower_uvw.cpp:674-682); all others do. -/
structure Sub where
  checked : Bool
  result : Status

/-- `*status` after the function. -/
def Sub.run (st : Status) (s : Sub) : Status :=
  if s.checked = true ∧ st ≠ .success then st else if s.result ≠ .success then s.result else st

/-- `*status` after a function that tests it on entry. -/
def after (st result : Status) : Status := if st ≠ .success then st else result

/-- A chunk of rows of a sub-grid with the results of the functions called for it: channel selection and count
(sdp_grid_wstack_wtower.cpp:410-417, 660-667), visibilities found, then the rest of the loop body (422-437, 672-690). -/
structure Chunk where
  clamp : Status
  diff : Status
  vis : Int
  work : List Status

/-- Where a worker is in its loop, sdp_grid_wstack_wtower.cpp:390-439 and 640-691. -/
inductive Phase where
  /-- `if (*status) break` -/
  | top
  /-- about to pick a chunk -/
  | pick
  /-- before the channel selection -/
  | clamp (c : Chunk)
  /-- before the count -/
  | diff (c : Chunk)
  /-- before `vis_count_check += num_vis` -/
  | add (c : Chunk)
  /-- with the rest of the body to do -/
  | body (c : Chunk) (todo : List Status)
  /-- out of the loop -/
  | out

/-- State of the parallel region: chunks nobody has picked yet, the workers, `*status` and `vis_count_check`. -/
structure Reg where
  pending : List Chunk
  workers : List Phase
  status : Status
  count : Int

/-- One step of a worker in phase `p`: chunks left, its new phase, `*status`, the counter.
sdp_grid_wstack_wtower.cpp:392-437 and 642-690; a count that fails leaves 0 visibilities (401, 651). -/
def move (pending : List Chunk) (st : Status) (count : Int) : Phase → List Chunk × Phase × Status × Int
  | .top => (pending, if st ≠ .success then .out else .pick, st, count)
  | .pick =>
    match pending with
    | [] => ([], .out, st, count)
    | c :: rest => (rest, .clamp c, st, count)
  | .clamp c => (pending, .diff c, after st c.clamp, count)
  | .diff c =>
    if after st c.diff ≠ .success ∨ c.vis = 0 then (pending, .top, after st c.diff, count)
    else (pending, .add c, st, count)
  | .add c => (pending, .body c c.work, st, count + c.vis)
  | .body _ [] => (pending, .top, st, count)
  | .body c (r :: rs) => (pending, .body c rs, after st r, count)
  | .out => (pending, .out, st, count)

/-- A step of worker `i`, if there is one. -/
def Reg.step (s : Reg) (i : Nat) : Reg :=
  match s.workers[i]? with
  | none => s
  | some p =>
    let r := move s.pending s.status s.count p
    ⟨r.1, s.workers.set i r.2.1, r.2.2.1, r.2.2.2⟩

/-- All workers are out of the loop, the end of the parallel region. -/
def Reg.final (s : Reg) : Prop := ∀ p ∈ s.workers, p = .out

/-- The region on entry, sdp_grid_wstack_wtower.cpp:386-390 and 636-640. -/
def Reg.start (chunks : List Chunk) (workers : Nat) (st : Status) : Reg := ⟨chunks, List.replicate workers .top, st, 0⟩

/-- Result of the region for some schedule: `*status` and `vis_count_check`. -/
def Region (chunks : List Chunk) (workers : Nat) (st st' : Status) (count : Int) : Prop :=
  ∃ sched : List Nat, let s := sched.foldl Reg.step (Reg.start chunks workers st)
    s.final ∧ s.status = st' ∧ s.count = count

/-- A w-plane with the results of the functions called for it: selection and count (sdp_grid_wstack_wtower.cpp:355-363,
613-621), preparation of the grid (367-375, 625), counts per sub-grid (95-117), the chunks, and after the region
(705-711; nothing when degridding).  After an error while counting the chunks are not these, but are not looked at. -/
structure Plane where
  clamp : Status
  diff : Status
  numVis : Int
  prep : List Status
  counts : List Status
  chunks : List Chunk
  post : List Status

/-- A w-plane, sdp_grid_wstack_wtower.cpp:354-448 and 612-712, from `*status` equal to success: `none` is `exit(1)`.  The
counts per sub-grid are made in parallel, in any order. -/
def PlaneRun (workers : Nat) (p : Plane) (o : Option Status) : Prop :=
  let st := after (after .success p.clamp) p.diff
  if st ≠ .success ∨ p.numVis = 0 then o = some st
  else ∃ counts : List Status, counts.Perm p.counts ∧ ∃ st' count,
    Region p.chunks workers ((p.prep ++ counts).foldl after st) st' count ∧
    o = if count ≠ p.numVis then none else some (p.post.foldl after st')

/-- The loop over w-planes, sdp_grid_wstack_wtower.cpp:350-449 and 608-713. -/
inductive Planes (workers : Nat) : List Plane → Status → Option Status → Prop
  | nil (st : Status) : Planes workers [] st (some st)
  | quit (p : Plane) (ps : List Plane) {st : Status} (h : st ≠ .success) : Planes workers (p :: ps) st (some st)
  | exit {p : Plane} (ps : List Plane) (h : PlaneRun workers p none) : Planes workers (p :: ps) .success none
  | next {p : Plane} {ps : List Plane} {st : Status} {o : Option Status} (h : PlaneRun workers p (some st))
      (hs : Planes workers ps st o) : Planes workers (p :: ps) .success o

/-- Entry checks, sdp_grid_wstack_wtower.cpp:240-259 and 497-516. -/
def entry (image uvw vis : Mem) (noHeight : Bool) (st : Status) : Status :=
  if st ≠ .success then st
  else if image.location ≠ vis.location ∨ uvw.location ≠ vis.location then .memLocation
  else if vis.numDims ≠ 2 ∨ uvw.numDims ≠ 2 then .invalidArgument
  else if noHeight = true then .invalidArgument
  else .success

/-- How a call ends. -/
inductive Outcome where
  /-- it returns with this status; has the caller's output array been cleared? -/
  | back (st : Status) (cleared : Bool)
  /-- `exit(1)`: the process ends -/
  | killed
deriving DecidableEq

/-- The results of everything a call calls: functions before the parallel loop of the setup (sdp_grid_wstack_wtower.cpp:278-283,
535-540), those of each thread in it (293-308, 550-565), those after it (319-336, 577-594), clearing of the output (340, 598),
the w-planes. -/
structure Trace where
  before : List Sub
  threads : List (List Sub)
  later : List Sub
  clear : Status
  planes : List Plane

/-- A call, sdp_grid_wstack_wtower.cpp:218-472 and 475-736, entered with the checks' result `st`.  `report_timing` and the
functions that free memory do not change `*status`. -/
def Whole (workers : Nat) (st : Status) (t : Trace) (o : Outcome) : Prop :=
  if st ≠ .success then o = .back st false
  else ∃ mid : List Sub, mid.Perm t.threads.flatten ∧
    let s := (t.before ++ mid ++ t.later).foldl Sub.run .success
    ∃ r, Planes workers t.planes (after s t.clear) r ∧
      o = match r with
        | none => .killed
        | some st' => .back st' (decide (after s t.clear = .success))

/-- The grid both calls make, sdp_grid_wstack_wtower.cpp:290-291, 333-335 and 547-548, 591-593: a square as wide as the first
dimension of the image, of the type of the visibilities. -/
def gridOf (image vis : Mem) : Mem :=
  let w := createWrapper none vis.type vis.location [image.shapeDim 0, image.shapeDim 0] none .success
  { w.1 with data := if w.1.numElements * vis.type.size = 0 then none else some ⟨0, 0⟩ }

/-- `sdp_gridder_accumulate_scaled_arrays(grid, image, NULL, 0, status)`, sdp_grid_wstack_wtower.cpp:369. -/
noncomputable def imageToGrid (cuda : Bool) (image vis : Mem) (src : Option (Arr ℂ)) : Status :=
  (GridUtil.accumCall cuda (gridOf image vis) image none 0 .success src ⟨0, fun _ => 0⟩).status

end Sdp.Wstack.Err
