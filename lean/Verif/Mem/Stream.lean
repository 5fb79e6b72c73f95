import Verif.Mem.Model
/-!
# Copies on CUDA streams

`sdp_mem_copy_contents` and `sdp_mem_copy_contents_async`
(utility/sdp_mem.cpp:444-565) and `sdp_cuda_stream_synchronize`
(utility/sdp_device_wrapper.cpp:117-122) as called one after the other by one
host thread, with the device working on its queues at the same time.

Simplifications.
* One status variable is passed to all the calls, as the C examples do.
* `cells` is all memory, host and device; `live` gives the size of each
  allocation and does not change: allocation and release are not in the
  program.  The location in a descriptor is taken to be the true one.
* A copy given to CUDA moves bytes one at a time, in any order, and reads a
  byte some time before it writes it (staging buffers); this has more
  behaviours than any real device.
* Streams made by `cudaStreamCreate` (device_wrapper.cpp:98-105) wait for the
  default stream and it waits for them ("legacy" default stream).
* `cudaMemcpy` uses the default stream.  It returns when the copy is done if
  one side is on the host and at once if both are on the device.
-/

namespace Sdp.Stream

/-- One byte still to be copied by the device: number of the copy it belongs
to, stream (`none` is the default one), where from, where to, and the value if
it has been read. -/
structure Move where
  op : Nat
  stream : Option Nat
  dst : Ptr
  src : Ptr
  held : Option UInt8
  deriving DecidableEq

/-- Contents of memory. -/
abbrev Cells := Ptr → UInt8

/-- Arguments of the two copy functions, sdp_mem.cpp:444-451 and 502-510, and
whether the CUDA call made for it returns `cudaSuccess`. -/
structure Xfer where
  dst : Option Mem
  src : Option Mem
  offDst : Int
  offSrc : Int
  n : Int
  ok : Bool

/-- A call made by the host thread. -/
inductive Call where
  /-- `sdp_mem_copy_contents`, sdp_mem.cpp:444-499. -/
  | copy (x : Xfer)
  /-- `sdp_mem_copy_contents_async`, sdp_mem.cpp:502-565; the stream is `none`
  for a NULL handle (L515). -/
  | async (x : Xfer) (stream : Option Nat)
  /-- `sdp_cuda_stream_synchronize`, sdp_device_wrapper.cpp:117-122. -/
  | wait (stream : Nat)

/-- What the common part of the copy functions decides to do. -/
inductive Act where
  | skip
  | fail (status : Status)
  | host (dst src : Ptr) (n : Nat)
  | dev (oneHost : Bool) (dst src : Ptr) (n : Nat)
  | ub

/-- Are the `n` bytes from `p` inside a live allocation? -/
def inside (live : Nat → Option Int) (p : Ptr) (n : Nat) : Bool :=
  match live p.block with
  | some size => decide (0 ≤ p.off ∧ p.off + n ≤ size)
  | none => false

/-- Do two ranges of `n` bytes overlap? -/
def overlap (p q : Ptr) (n : Nat) : Bool :=
  decide (p.block = q.block ∧ p.off < q.off + n ∧ q.off < p.off + n)

/-- `data + start`, sdp_mem.cpp:464-465 and 525-526. -/
def advance (p : Ptr) (k : Int) : Ptr := { p with off := p.off + k }

/-- Checks and choices of sdp_mem.cpp:456-490 and of sdp_mem.cpp:517-551, which
are the same.  `cuda` is `SDP_HAVE_CUDA`.  Negative counts become huge
`size_t` values: undefined. -/
def act (cuda : Bool) (live : Nat → Option Int) (x : Xfer) (status : Status) :
    Act :=
  if status ≠ .success then .skip
  else match x.dst, x.src with
  | some d, some s =>
    match d.data, s.data with
    | some pd, some ps =>
      if s.numElements = 0 ∨ x.n = 0 then .skip
      else
        let esz := s.type.size
        let bytes := (esz * x.n).toNat
        let dp := advance pd (esz * x.offDst)
        let sp := advance ps (esz * x.offSrc)
        let bad := x.n < 0 ∨ inside live dp bytes = false ∨
          inside live sp bytes = false ∨ overlap dp sp bytes = true
        match s.location, d.location, cuda with
        | .cpu, .cpu, _ => if bad then .ub else .host dp sp bytes
        | .cpu, .gpu, true =>
          if x.ok = false then .fail .memCopyFailure
          else if bad then .ub else .dev true dp sp bytes
        | .gpu, .cpu, true =>
          if x.ok = false then .fail .memCopyFailure
          else if bad then .ub else .dev true dp sp bytes
        | .gpu, .gpu, true =>
          if x.ok = false then .fail .memCopyFailure
          else if bad then .ub else .dev false dp sp bytes
        | _, _, _ => .fail .memLocation
    | _, _ => .skip
  | _, _ => .skip

/-- Store one byte. -/
def put (c : Cells) (p : Ptr) (v : UInt8) : Cells :=
  fun q => if q = p then v else c q

/-- `memcpy` of `n` bytes, sdp_mem.cpp:467-470 and 528-531: byte `i` goes to
`dp + i` (the ranges do not overlap). -/
def memcpy (c : Cells) (dp sp : Ptr) : Nat → Cells
  | 0 => c
  | n + 1 => put (memcpy c dp sp n) (advance dp n) (c (advance sp n))

/-- The bytes of one copy handed to the device. -/
def bytesOf (op : Nat) (stream : Option Nat) (dp sp : Ptr) (n : Nat) : List Move :=
  (List.range n).map fun (i : Nat) =>
    ⟨op, stream, advance dp i, advance sp i, none⟩

/-- The whole machine: memory, bytes not yet copied in the order they were
handed over, next copy number, calls not yet made, status variable, and the
copy the host waits for inside `cudaMemcpy`. -/
structure Config where
  cells : Cells
  pending : List Move
  next : Nat
  todo : List Call
  status : Status
  blocked : Option Nat

/-- What the host thread can do next. -/
inductive Host where
  | stuck
  | fault
  | next (c : Config)

/-- Make one copy call: `stream` as in sdp_mem.cpp:514-516 (`none` for
`cudaMemcpy`), `sync` for `cudaMemcpy`. -/
def issue (cuda : Bool) (live : Nat → Option Int) (c : Config) (rest : List Call)
    (x : Xfer) (stream : Option Nat) (sync : Bool) : Host :=
  match act cuda live x c.status with
  | .skip => .next { c with todo := rest }
  | .fail e => .next { c with todo := rest, status := e }
  | .ub => .fault
  | .host dp sp n => .next { c with
      todo := rest
      cells := memcpy c.cells dp sp n }
  | .dev oneHost dp sp n => .next { c with
      todo := rest
      pending := c.pending ++ bytesOf c.next stream dp sp n
      next := c.next + 1
      blocked := if sync = true ∧ oneHost = true ∧ n ≠ 0 then some c.next else none }

/-- The host thread: wait inside `cudaMemcpy`, or make the next call.
`cudaStreamSynchronize` (sdp_device_wrapper.cpp:117-122) returns when nothing
is left on the stream. -/
def host (cuda : Bool) (live : Nat → Option Int) (c : Config) : Host :=
  match c.blocked with
  | some k =>
    if c.pending.any (fun m => m.op == k) then .stuck
    else .next { c with blocked := none }
  | none =>
    match c.todo with
    | [] => .stuck
    | .wait s :: rest =>
      if c.pending.any (fun m => m.stream == some s) then .stuck
      else .next { c with todo := rest }
    | .copy x :: rest => issue cuda live c rest x none true
    | .async x s :: rest => issue cuda live c rest x s false

/-- Does CUDA order later work on stream `t` after earlier work on `s`? -/
def orders (s t : Option Nat) : Bool := s == t || s.isNone || t.isNone

/-- A byte can be worked on when all earlier work ordered before it, except
other bytes of the same copy, is done. -/
def ready (earlier : List Move) (m : Move) : Bool :=
  earlier.all fun e => !orders e.stream m.stream || e.op == m.op

/-- One step of the host thread or of the device. -/
inductive Step (cuda : Bool) (live : Nat → Option Int) : Config → Config → Prop where
  | host {c c'} : host cuda live c = .next c' → Step cuda live c c'
  | fetch {c : Config} {pre m post} : c.pending = pre ++ m :: post →
      ready pre m = true → m.held = none →
      Step cuda live c
        { c with pending := pre ++ { m with held := some (c.cells m.src) } :: post }
  | store {c : Config} {pre m post v} : c.pending = pre ++ m :: post →
      ready pre m = true → m.held = some v →
      Step cuda live c
        { c with pending := pre ++ post, cells := put c.cells m.dst v }

/-- Everything that can happen after `c`, in any number of steps. -/
inductive Reach (cuda : Bool) (live : Nat → Option Int) : Config → Config → Prop where
  | here {c} : Reach cuda live c c
  | step {a b c} : Reach cuda live a b → Step cuda live b c → Reach cuda live a c

/-- The machine before the first call. -/
def start (cells : Cells) (prog : List Call) : Config :=
  ⟨cells, [], 0, prog, .success, none⟩

end Sdp.Stream
