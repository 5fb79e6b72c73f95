import Verif.Tiles.Model
import Verif.WTower.Model
import Verif.Common.Loops
import Verif.Common.Launch
import Verif.DataModel.Model

/-!
# The tiled functions as calls

visibility/sdp_tiled_functions.cpp:31-875 and sdp_tiled_functions.cu:62-288: positions from coordinates and frequencies,
the loops over times, baselines and channels, GPU threads with interleaving atomic additions and stores, checks and
statuses.  Numbers are exact (see `Verif.Tiles.Model`); sizes, indices and positions fit their integer types; integer
arrays have type `int`, and visibilities have the precision of the coordinates.
-/

namespace Sdp.Tiles

section
variable {K : Type} [Field K] [LinearOrder K] [FloorRing K]

/-- The number arguments of a call, sdp_tiled_functions.cpp:306-310. -/
structure Par (K : Type) where
  gridSize : Int
  tileU : Int
  tileV : Int
  support : Int
  cell : K

/-- Tiling of a call, sdp_tiled_functions.cpp:333-342, 531-540, 743-750. -/
def Par.tiling (p : Par K) : Tiling := ⟨p.gridSize, p.tileU, p.tileV, p.support⟩

/-- Contents of the arrays that are read.  `vis` are real and imaginary parts in turn: the functions cast the pointer
to one of real numbers, sdp_tiled_functions.cpp:590, 618 and the kernel names at 655-669. -/
structure Inputs (K : Type) where
  uvw : Arr K
  freqs : Arr K
  vis : Arr K
  weights : Arr K

/-- Numbers of times, baselines and channels. -/
structure Sizes where
  times : Nat
  baselines : Nat
  channels : Nat

/-- `pos_u` and `pos_v` of (time, baseline, channel), sdp_tiled_functions.cpp:57-68, 158-174, 245-261 and
sdp_tiled_functions.cu:91-98, 166-173, 247-254. -/
def posOf (p : Par K) (n : Sizes) (x : Inputs K) (q : Nat × Nat × Nat) : Option (K × K) :=
  let i : Int := 3 * index2 n.baselines q.1 q.2.1
  (x.freqs.read q.2.2).bind fun f =>
  (x.uvw.read i).bind fun u =>
  (x.uvw.read (i + 1)).bind fun v =>
  some (u * (f / 299792458) * (p.gridSize * p.cell), v * (f / 299792458) * (p.gridSize * p.cell))

/-- `grid_u` and `grid_v`, sdp_tiled_functions.cpp:70-73, 176-179, 263-266 and sdp_tiled_functions.cu:100-101, 175-176,
255-256. -/
def cellAt (p : Par K) (pos : K × K) : Int × Int :=
  (WTower.rnd pos.1 + p.tiling.centre, WTower.rnd pos.2 + p.tiling.centre)

/-- Tiles (pu, pv) of the loops, sdp_tiled_functions.cpp:91-97, 195-210, 282-294. -/
def pairs (r : Int × Int × Int × Int) : List (Int × Int) :=
  (Tiling.intRange r.2.2.1 r.2.2.2).flatMap fun pv => (Tiling.intRange r.1 r.2.1).map fun pu => (pu, pv)

/-- Arrays that are written at the slot of a sorted visibility. -/
inductive Col
  | uu | vv | vis | weight | tile | index
  deriving DecidableEq

/-- What they hold. -/
@[reducible] def Val (K : Type) : Col → Type
  | .tile => Int
  | .index => Int
  | _ => K

instance : (c : Col) → Zero (Val K c)
  | .tile => ⟨(0 : Int)⟩
  | .index => ⟨(0 : Int)⟩
  | .uu | .vv | .vis | .weight => ⟨(0 : K)⟩

/-- The sorted arrays. -/
abbrev Out (K : Type) := (c : Col) → Arr (Val K c)

/-- Steps of a thread: fetch-and-add 1 to cell `t` of the array of tiles, whose old value is the slot; add 1 to
`num_skipped[0]`; store at the slot (`none`: the value was to be read outside its array). -/
inductive Act (K : Type)
  | take (t : Int)
  | skip
  | store (c : Col) (v : Option (Val K c))

/-- State: the array of tiles (counts or offsets), `num_skipped`, the sorted arrays, the slot of every thread, and what
every thread has still to do. -/
structure TSt (K ι : Type) where
  cells : Arr Int
  skip : Arr Int
  out : Out K
  reg : ι → Int
  todo : ι → List (Act K)

section
variable {ι : Type} [DecidableEq ι]

/-- Thread `x` makes its next step. -/
def tstep (s : TSt K ι) (x : ι) : Option (TSt K ι) :=
  match s.todo x with
  | [] => some s
  | .take t :: rest =>
    (s.cells.read t).bind fun o => (s.cells.write t (o + 1)).map fun c =>
    { s with cells := c, reg := Function.update s.reg x o, todo := Function.update s.todo x rest }
  | .skip :: rest =>
    (s.skip.read 0).bind fun k => (s.skip.write 0 (k + 1)).map fun c =>
    { s with skip := c, todo := Function.update s.todo x rest }
  | .store c v :: rest =>
    v.bind fun v => ((s.out c).write (s.reg x) v).map fun a =>
    { s with out := Function.update s.out c a, todo := Function.update s.todo x rest }

/-- A schedule. -/
def trun (s : TSt K ι) (sched : List ι) : Option (TSt K ι) := loop tstep s sched

/-- A launch of threads `ts` with steps `acts` (`none`: a load outside an array) can end like this. -/
inductive Launch (acts : ι → Option (List (Act K))) (ts : List ι) (cells skip : Arr Int) (out : Out K) :
    Option (Arr Int × Arr Int × Out K) → Prop
  | load (x : ι) (hx : x ∈ ts) (h : acts x = none) : Launch acts ts cells skip out none
  | fault (l : ι → List (Act K)) (hl : ∀ x ∈ ts, acts x = some (l x)) (sched : List ι) (hs : ∀ x ∈ sched, x ∈ ts)
      (h : trun ⟨cells, skip, out, fun _ => 0, l⟩ sched = none) : Launch acts ts cells skip out none
  | done (l : ι → List (Act K)) (hl : ∀ x ∈ ts, acts x = some (l x)) (sched : List ι) (hs : ∀ x ∈ sched, x ∈ ts)
      (s : TSt K ι) (h : trun ⟨cells, skip, out, fun _ => 0, l⟩ sched = some s) (hd : ∀ x ∈ ts, s.todo x = []) :
      Launch acts ts cells skip out (some (s.cells, s.skip, s.out))

end

/-- What is done for a visibility: nothing can be read outside an array, `inside` for every tile of the loops if it
passes the test of the grid, else `outside`. -/
def visit (ranges : Tiling → Int → Int → Int × Int × Int × Int) (inside : K × K → Int × Int → List (Act K))
    (outside : List (Act K)) (p : Par K) (n : Sizes) (x : Inputs K) (q : Nat × Nat × Nat) : Option (List (Act K)) :=
  (posOf p n x q).bind fun pos =>
  let g := cellAt p pos
  if p.tiling.inGrid g.1 g.2 then some ((pairs (ranges p.tiling g.1 g.2)).flatMap (inside pos)) else some outside

/-- `pu + pv * num_tiles_u`. -/
def Tiling.index (T : Tiling) (t : Int × Int) : Int := t.1 + t.2 * T.numU

/-- Steps of counting a visibility, sdp_tiled_functions.cpp:57-99 and sdp_tiled_functions.cu:91-124. -/
def countActs (ranges : Tiling → Int → Int → Int × Int × Int × Int) (p : Par K) (n : Sizes) (x : Inputs K)
    (q : Nat × Nat × Nat) : Option (List (Act K)) :=
  visit ranges (fun _ t => [.take (p.tiling.index t)]) [.skip] p n x q

/-- Steps of sorting a visibility, sdp_tiled_functions.cpp:158-211 and sdp_tiled_functions.cu:166-208; `i_vis` has one
polarisation. -/
def sortActs (ranges : Tiling → Int → Int → Int × Int × Int × Int) (p : Par K) (n : Sizes) (x : Inputs K)
    (q : Nat × Nat × Nat) : Option (List (Act K)) :=
  let i : Int := index3 n.baselines n.channels q.1 q.2.1 q.2.2
  visit ranges (fun pos t => [.take (p.tiling.index t), .store .uu (some pos.1), .store .vv (some pos.2),
    .store .vis (x.vis.read i), .store .weight (x.weights.read i), .store .tile (some (t.2 * 32768 + t.1))]) [] p n x q

/-- Steps of indexing a visibility on the CPU, sdp_tiled_functions.cpp:245-295. -/
def indexActsCpu (p : Par K) (n : Sizes) (x : Inputs K) (q : Nat × Nat × Nat) : Option (List (Act K)) :=
  let i : Int := index3 n.baselines n.channels q.1 q.2.1 q.2.2
  visit Tiling.rangesCpu (fun _ t => [.take (p.tiling.index t), .store .index (some i),
    .store .tile (some (t.2 * 32768 + t.1))]) [] p n x q

/-- Steps of indexing a visibility on the GPU, sdp_tiled_functions.cu:247-287. -/
def indexActsGpu (p : Par K) (n : Sizes) (x : Inputs K) (q : Nat × Nat × Nat) : Option (List (Act K)) :=
  let i : Int := index3 n.baselines n.channels q.1 q.2.1 q.2.2
  visit Tiling.rangesGpu (fun pos t => [.take (p.tiling.index t), .store .uu (some pos.1), .store .vv (some pos.2),
    .store .index (some i), .store .tile (some (t.2 * 32768 + t.1))]) [] p n x q

/-- The loops on the CPU, sdp_tiled_functions.cpp:53-102, 154-214, 241-298: the steps of all visibilities in turn. -/
def cpuLoops (acts : Nat × Nat × Nat → Option (List (Act K))) (n : Sizes) (cells skip : Arr Int) (out : Out K) :
    Option (Arr Int × Arr Int × Out K) :=
  (loop (fun (s : TSt K Unit) (q : Nat × Nat × Nat) => (acts q).bind fun l =>
    loop (fun (s : TSt K Unit) (a : Act K) => tstep { s with todo := fun _ => [a] } ()) s l)
    ⟨cells, skip, out, fun _ => 0, fun _ => []⟩ (nest3 n.times n.baselines n.channels)).map
  fun s => (s.cells, s.skip, s.out)

/-- A GPU thread (baseline, channel, time), sdp_tiled_functions.cu:83-89, 158-164, 239-245. -/
def guarded (acts : Nat × Nat × Nat → Option (List (Act K))) (n : Sizes) (x : Nat × Nat × Nat) :
    Option (List (Act K)) :=
  if x.1 ≥ n.baselines ∨ x.2.1 ≥ n.channels ∨ x.2.2 ≥ n.times then some [] else acts (x.2.2, x.1, x.2.1)

end

/-- Threads of a launch, sdp_tiled_functions.cpp:401-406, 642-647, 818-823: blocks of 128 x 2 x 2. -/
def threads (n : Sizes) : List (Nat × Nat × Nat) :=
  nest3 (blocks n.baselines 128 * 128) (blocks n.channels 2 * 2) (blocks n.times 2 * 2)

/-- Contents of an array after it is set to zero. -/
def zeroed {α : Type} [Zero α] (a : Arr α) : Arr α := ⟨a.size, fun j => if j < a.size then 0 else a.get j⟩

/-- `sdp_mem_clear_contents`, sdp_mem.cpp:325-362, of an array with data. -/
def clearArr {α : Type} [Zero α] (cuda : Bool) (m : Mem) (st : Status) (a : Arr α) : Status × Arr α :=
  if st ≠ .success ∨ m.numElements = 0 then (st, a)
  else match m.location with
    | .cpu => (st, zeroed a)
    | .gpu => if cuda then (st, zeroed a) else (.memLocation, a)
    | .other => (.memLocation, a)

/-- `sdp_mem_gpu_buffer` and `sdp_mem_gpu_buffer_const` of several arrays, sdp_mem.cpp:581-607. -/
def gpuBuffers (l : List Mem) (st : Status) : Status :=
  l.foldl (fun s m => if s = .success ∧ m.location ≠ .gpu ∧ m.type ≠ .void then .memLocation else s) st

/-- Arrays of the counting call. -/
structure CountArgs where
  uvw : Mem
  freqs : Mem
  vis : Mem
  offsets : Mem
  points : Mem
  skipped : Mem

/-- Output of the counting call: `tile_offsets`, `num_points_in_tiles`, `num_skipped` and `*num_visibilites` (`none`:
not written). -/
structure Counts where
  offsets : Arr Int
  points : Arr Int
  skipped : Arr Int
  num : Option Int

section
variable {K : Type} [Field K] [LinearOrder K] [FloorRing K]

/-- No sorted arrays. -/
def noOut : Out K := fun _ => ⟨0, fun _ => 0⟩

/-- Clearing the output arrays, sdp_tiled_functions.cpp:319-321. -/
def clearCounts (cuda : Bool) (m : CountArgs) (st : Status) (s : Counts) : Status × Counts :=
  let a := clearArr cuda m.offsets st s.offsets
  let b := clearArr cuda m.points a.1 s.points
  let c := clearArr cuda m.skipped b.1 s.skipped
  (c.1, { s with offsets := a.2, points := b.2, skipped := c.2 })

/-- Sizes and status after the checks, sdp_tiled_functions.cpp:345-363. -/
def countCheck (uvw vis : Mem) (st : Status) : DMeta × Status :=
  let md := getVisMetadata {} vis st
  (md.1, checkUvw uvw .void (md.1.location.getD vis.location) (md.1.numTimes.getD 0) (md.1.numBaselines.getD 0) md.2)

/-- Numbers of times, baselines and channels as the metadata give them: zero if they do not. -/
def sizesOf (md : DMeta) : Sizes :=
  ⟨(md.numTimes.getD 0).toNat, (md.numBaselines.getD 0).toNat, (md.numChannels.getD 0).toNat⟩

/-- The rest of the call on the CPU, sdp_tiled_functions.cpp:365-394. -/
def countCpu (p : Par K) (n : Sizes) (x : Inputs K) (s : Counts) : Option Counts :=
  (cpuLoops (countActs Tiling.rangesCpu p n x) n s.points s.skipped noOut).bind fun r =>
  (prefixSum p.tiling.num.toNat r.1 s.offsets).bind fun offs =>
  (offs.read p.tiling.num).map fun k => ⟨offs, r.1, r.2.1, some k⟩

/-- `sdp_prefix_sum_gpu` with 512 threads, sdp_tiled_functions.cu:20-58: cells 0 to `n` of the offsets are written, and
cells 0 to `n - 1` of the counts are read. -/
def scanGpu (late : Nat → Nat → Bool) (n : Nat) (counts offs : Arr Int) : Option (Arr Int) :=
  if n ≤ counts.size ∧ n < offs.size then
    some ⟨offs.size, fun j => (gpuOffsets 512 n counts.get late j).getD (offs.get j)⟩
  else none

/-- The rest of the call on the GPU, sdp_tiled_functions.cpp:428-489, if status and launch are fine. -/
def CountGpu (p : Par K) (n : Sizes) (x : Inputs K) (s : Counts) (o : Option Counts) : Prop :=
  ∃ r, Launch (guarded (countActs Tiling.rangesGpu p n x) n) (threads n) s.points s.skipped (noOut (K := K)) r ∧
    match r with
    | none => o = none
    | some r => ∃ late, o = (scanGpu late p.tiling.num.toNat r.1 s.offsets).bind fun offs =>
        (offs.read p.tiling.num).bind fun k => (r.2.1.read 0).map fun _ => ⟨offs, r.1, r.2.1, some k⟩

/-- `sdp_count_and_prefix_sum`, sdp_tiled_functions.cpp:302-490: a call on output `s` can end with `o`: status and output,
`none` after an access outside an array or through a null pointer, or a division by zero.  On the GPU any error leads
to a copy without data, which is then read.  `cuda`: built with CUDA. -/
def CountCalls (cuda : Bool) (m : CountArgs) (p : Par K) (x : Inputs K) (st : Status) (s : Counts)
    (o : Option (Status × Counts)) : Prop :=
  if p.tileU = 0 ∨ p.tileV = 0 then o = none
  else
    let c := clearCounts cuda m st s
    let md := countCheck m.uvw m.vis c.1
    match m.vis.location with
    | .cpu =>
      if m.uvw.type = .double ∧ m.freqs.type = .double then
        if m.uvw.location = .cpu ∧ m.freqs.location = .cpu ∧ m.offsets.location = .cpu ∧ m.points.location = .cpu ∧
            m.skipped.location = .cpu then
          o = (countCpu p (sizesOf md.1) x c.2).map fun r => (md.2, r)
        else o = none
      else o = some (md.2, c.2)
    | .gpu =>
      let ok := decide (m.uvw.type = .double ∧ m.freqs.type = .double ∨ m.uvw.type = .float ∧ m.freqs.type = .float)
      let st := gpuBuffers [m.uvw, m.freqs, m.points, m.skipped] (if ok then md.2 else .dataType)
      if st ≠ .success ∨ cuda = false ∨ threads (sizesOf md.1) = [] ∨ m.offsets.location ≠ .gpu then o = none
      else ∃ r, CountGpu p (sizesOf md.1) x c.2 r ∧ o = r.map fun r => (.success, r)
    | .other => o = some (md.2, c.2)

/-- Arrays of the sorting call. -/
structure SortArgs where
  uvw : Mem
  freqs : Mem
  vis : Mem
  weights : Mem
  out : Col → Mem
  offsets : Mem

/-- Clearing the sorted arrays `cols` in turn. -/
def clearCols (cuda : Bool) (m : Col → Mem) (cols : List Col) (st : Status) (s : Out K) : Status × Out K :=
  cols.foldl (fun (r : Status × Out K) (c : Col) =>
    let a := clearArr cuda (m c) r.1 (r.2 c)
    (a.1, Function.update r.2 c a.2)) (st, s)

/-- Both coordinates of a call are single or double precision. -/
def sameReal (l : List Mem) : Bool := decide ((∀ m ∈ l, m.type = .double) ∨ ∀ m ∈ l, m.type = .float)

/-- `sdp_bucket_sort`, sdp_tiled_functions.cpp:493-709, on offsets `offs` and sorted arrays `s`; outcomes as for
`CountCalls`. -/
def SortCalls (cuda : Bool) (m : SortArgs) (p : Par K) (x : Inputs K) (st : Status) (offs : Arr Int) (s : Out K)
    (o : Option (Status × Arr Int × Out K)) : Prop :=
  if st ≠ .success then o = some (st, offs, s)
  else if p.tileU = 0 ∨ p.tileV = 0 then o = none
  else
    let c := clearCols cuda m.out [.uu, .tile, .vv, .weight, .vis] st s
    let md := countCheck m.uvw m.vis c.1
    let st := checkWeights m.weights .void (md.1.location.getD m.vis.location) (md.1.numTimes.getD 0)
      (md.1.numBaselines.getD 0) (md.1.numChannels.getD 0) (md.1.numPols.getD 0) md.2
    let n := sizesOf md.1
    match m.vis.location with
    | .cpu =>
      if sameReal [m.uvw, m.weights, m.freqs] = false then o = some (.dataType, offs, c.2)
      else if ∀ a ∈ [m.uvw, m.freqs, m.weights, m.offsets, m.out .uu, m.out .vv, m.out .vis, m.out .weight, m.out .tile],
          a.location = .cpu then
        o = (cpuLoops (sortActs Tiling.rangesCpu p n x) n offs ⟨0, fun _ => 0⟩ c.2).map fun r => (st, r.1, r.2.2)
      else o = none
    | .gpu =>
      let st := if sameReal [m.uvw, m.weights, m.freqs] then st else .dataType
      let st := gpuBuffers [m.uvw, m.freqs, m.vis, m.weights, m.offsets, m.out .uu, m.out .vv, m.out .vis,
        m.out .weight, m.out .tile] st
      if st ≠ .success then o = some (st, offs, c.2)
      else if cuda = false ∨ threads n = [] then o = some (.runtime, offs, c.2)
      else ∃ r, Launch (guarded (sortActs Tiling.rangesGpu p n x) n) (threads n) offs ⟨0, fun _ => 0⟩ c.2 r ∧
        o = r.map fun r => (.success, r.1, r.2.2)
    | .other => o = some (st, offs, c.2)

/-- `sdp_tiled_indexing`, sdp_tiled_functions.cpp:712-875; `n` are the sizes the caller gives (not negative). -/
def IndexCalls (cuda : Bool) (m : SortArgs) (p : Par K) (n : Sizes) (x : Inputs K) (st : Status) (offs : Arr Int)
    (s : Out K) (o : Option (Status × Arr Int × Out K)) : Prop :=
  if st ≠ .success then o = some (st, offs, s)
  else if p.tileU = 0 ∨ p.tileV = 0 then o = none
  else
    let c := clearCols cuda m.out [.tile, .index, .vv, .uu] st s
    let st := checkUvw m.uvw .void m.uvw.location n.times n.baselines c.1
    match m.uvw.location with
    | .cpu =>
      if sameReal [m.uvw, m.freqs] = false then o = some (.dataType, offs, c.2)
      else if ∀ a ∈ [m.freqs, m.offsets, m.out .index, m.out .tile], a.location = .cpu then
        o = (cpuLoops (indexActsCpu p n x) n offs ⟨0, fun _ => 0⟩ c.2).map fun r => (st, r.1, r.2.2)
      else o = none
    | .gpu =>
      let st := if sameReal [m.uvw, m.freqs] then st else .dataType
      let st := gpuBuffers [m.uvw, m.freqs, m.offsets, m.out .uu, m.out .vv, m.out .index, m.out .tile] st
      if st ≠ .success then o = some (st, offs, c.2)
      else if cuda = false ∨ threads n = [] then o = some (.runtime, offs, c.2)
      else ∃ r, Launch (guarded (indexActsGpu p n x) n) (threads n) offs ⟨0, fun _ => 0⟩ c.2 r ∧
        o = r.map fun r => (.success, r.1, r.2.2)
    | .other => o = some (st, offs, c.2)

end
end Sdp.Tiles
