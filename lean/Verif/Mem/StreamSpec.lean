import Verif.Mem.Stream
/-!
# Specification: what copies on streams should do

A program is described by a list of jobs.  A job says which bytes are to be
moved where, who moves them, and on which stream.
-/

namespace Sdp.Stream

/-- A copy of `n` bytes from `src` to `dst`.  `host`: the processor does it
itself.  Otherwise the device does, on `stream`, and if `blocks` the caller
waits for the end of it. -/
structure Copy where
  host : Bool
  stream : Option Nat
  blocks : Bool
  dst : Ptr
  src : Ptr
  n : Nat
  deriving DecidableEq

/-- What a program does: copies, and waiting for streams. -/
inductive Job where
  | copy (c : Copy)
  | wait (stream : Nat)

/-- `p` is one of the `n` bytes from `start`. -/
def In (p start : Ptr) (n : Nat) : Prop :=
  p.block = start.block ∧ start.off ≤ p.off ∧ p.off < start.off + n

instance (p start : Ptr) (n : Nat) : Decidable (In p start n) := by
  unfold In; infer_instance

/-- Memory after the copy has been done, and nothing else. -/
def Copy.apply (k : Copy) (c : Cells) : Cells := fun p =>
  if In p k.dst k.n then c ⟨k.src.block, k.src.off + (p.off - k.dst.off)⟩ else c p

/-- Memory after the copies of the jobs, done one after the other. -/
def inOrder : List Job → Cells → Cells
  | [], c => c
  | .copy k :: rest, c => inOrder rest (k.apply c)
  | .wait _ :: rest, c => inOrder rest c

/-- Arguments that make one of the copy functions move `n` bytes from `src` to
`dst`; `onHost` says that both arrays are in host memory. -/
structure Given (live : Nat → Option Int) (x : Xfer) (onHost : Bool)
    (dst src : Ptr) (n : Nat) : Prop where
  args : ∃ d s pd ps, x.dst = some d ∧ x.src = some s ∧ d.data = some pd ∧
    s.data = some ps ∧
    dst = ⟨pd.block, pd.off + s.type.size * x.offDst⟩ ∧
    src = ⟨ps.block, ps.off + s.type.size * x.offSrc⟩ ∧
    (n : Int) = s.type.size * x.n ∧ 0 < x.n ∧ s.numElements ≠ 0 ∧
    d.location ≠ .other ∧ s.location ≠ .other ∧
    (onHost = true ↔ d.location = .cpu ∧ s.location = .cpu)
  cudaOk : x.ok = true
  dstLive : ∃ size, live dst.block = some size ∧ 0 ≤ dst.off ∧ dst.off + n ≤ size
  srcLive : ∃ size, live src.block = some size ∧ 0 ≤ src.off ∧ src.off + n ≤ size
  apart : ∀ p, ¬ (In p dst n ∧ In p src n)

/-- One of the two arrays of the call is in host memory. -/
def OneHost (x : Xfer) : Prop :=
  (∃ d, x.dst = some d ∧ d.location = .cpu) ∨ (∃ s, x.src = some s ∧ s.location = .cpu)

/-- The job describes the call. -/
def Describes (live : Nat → Option Int) : Job → Call → Prop
  | .copy k, .copy x => Given live x k.host k.dst k.src k.n ∧ k.stream = none ∧
      (k.blocks = true ↔ k.host = false ∧ OneHost x ∧ k.n ≠ 0)
  | .copy k, .async x s => Given live x k.host k.dst k.src k.n ∧ k.stream = s ∧
      k.blocks = false
  | .wait s, .wait t => s = t
  | _, _ => False

/-- No byte written by one copy is read or written by the other. -/
def Apart (a b : Copy) : Prop :=
  ∀ p, ¬ (In p a.dst a.n ∧ In p b.dst b.n) ∧ ¬ (In p a.dst a.n ∧ In p b.src b.n) ∧
    ¬ (In p a.src a.n ∧ In p b.dst b.n)

/-- Same stream, or one of the two is the default stream, which all other
streams wait for and which waits for them. -/
def Ordered (s t : Option Nat) : Prop := s = t ∨ s = none ∨ t = none

/-- Once the job has returned, the device has finished the earlier copy. -/
def Awaits : Job → Copy → Prop
  | .wait s, a => a.stream = some s
  | .copy k, _ => k.host = false ∧ k.blocks = true

/-- Until one of the jobs waits for the copy `a`, each of them either does not
touch the same memory or is put by the device after `a`. -/
def SafeAfter (a : Copy) : List Job → Prop
  | [] => True
  | j :: rest =>
    (∀ b, j = .copy b → Apart a b ∨ (b.host = false ∧ Ordered a.stream b.stream)) ∧
    (Awaits j a ∨ SafeAfter a rest)

/-- No two copies of the program that the device may do at the same time, or
that the processor does while the device is at work, touch the same memory. -/
def Separated : List Job → Prop
  | [] => True
  | .copy a :: rest => (a.host = true ∨ SafeAfter a rest) ∧ Separated rest
  | .wait _ :: rest => Separated rest

end Sdp.Stream
