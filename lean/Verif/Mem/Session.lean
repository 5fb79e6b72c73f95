import Verif.Mem.Model

/-!
A caller's session with the array API: a table of handles over one heap.
Handles are numbered in order of creation and never reused; using a handle
whose descriptor has been freed (or never existed) is undefined behaviour.
-/

namespace Sdp

/-- Heap plus the handle table (`none` = descriptor freed). -/
structure Session where
  heap : Heap
  objs : List (Option Mem)

/-- API calls that create, share or release arrays (sdp_mem.cpp:164-322,
607-627, 741-752). -/
inductive MemOp where
  | create (allocOk : Bool) (type : MemType) (loc : MemLocation)
      (shape : List Int) (status : Status)
  | wrap (data : Option Ptr) (type : MemType) (loc : MemLocation)
      (shape : List Int) (stride : Option (List Int)) (status : Status)
  | share (k : Nat)
  | slice (k : Nat) (offsets shape : List Int) (status : Status)
  | copy (allocOk : Bool) (k : Nat) (loc : MemLocation) (status : Status)
  | retain (k : Nat)
  | release (k : Nat)

/-- The live array behind a handle. -/
def Session.obj (s : Session) (k : Nat) : Option Mem := (s.objs.getD k none)

/-- One API call. A refused slice (`NULL` result) adds a dead handle. -/
def Session.step (s : Session) : MemOp → Outcome Session
  | .create ok t l sh st =>
    let r := memCreate s.heap ok t l sh st
    .ok ⟨r.1, s.objs ++ [some r.2.1]⟩
  | .wrap d t l sh str st =>
    .ok ⟨s.heap, s.objs ++ [some (createWrapper d t l sh str st).1]⟩
  | .share k => match s.obj k with
    | some m => .ok ⟨s.heap, s.objs ++ [some (createAlias m)]⟩
    | none => .ub
  | .slice k o sh st => match s.obj k with
    | some m => .ok ⟨s.heap, s.objs ++ [(createSlice m o sh st).1]⟩
    | none => .ub
  | .copy ok k l st => match s.obj k with
    | some m => match createCopy s.heap ok m l st with
      | .ok r => .ok ⟨r.1, s.objs ++ [some r.2.1]⟩
      | .ub => .ub
    | none => .ub
  | .retain k => match s.obj k with
    | some m => .ok ⟨s.heap, s.objs.set k (some m.refInc)⟩
    | none => .ub
  | .release k => match s.obj k with
    | some m => match memFree s.heap m with
      | .ok r => .ok ⟨r.1, s.objs.set k r.2⟩
      | .ub => .ub
    | none => .ub

/-- A whole history. -/
def Session.run (s : Session) : List MemOp → Outcome Session
  | [] => .ok s
  | op :: ops => match s.step op with
    | .ok s' => s'.run ops
    | .ub => .ub

/-- A fresh session: blocks below `base` belong to the caller, nothing has been
allocated by the library. -/
def Session.Fresh (s : Session) : Prop :=
  s.objs = [] ∧ ∀ b, s.heap.next ≤ b → s.heap.blocks b = none

end Sdp
