import Mathlib.Data.Multiset.AddSub

/-!
# C114: memory that a call allocates for itself

Programs keep of a function what bears on the memory it allocates: where arrays and handles are made and released, where
`*status` is tested, where an array is read or written without such a test, and the branches, loops and returns between.  What a
branch depends on is not modelled, so both sides are possible; a loop runs any number of times; each allocation and each call
may fail.  Undefined behaviour (access to memory that is not there, or a second release) is the exit `fault`, or
`crash` if it happens while a prolate function is made.  Simplified as in
C113: `calloc` of structures, shapes and strides succeeds, and a descriptor with its shape and stride is one block.
-/

namespace Sdp.Temps

/-- What a local pointer points to: the blocks it is responsible for (a descriptor or structure first), the block that its data
is in (`none`: no elements, or memory of the caller), and whether it can be used (the data are there, the handle is complete). -/
structure Item where
  desc : Nat
  more : List Nat
  data : Option Nat
  usable : Bool

/-- The blocks that releasing it frees. -/
def Item.blocks (i : Item) : Multiset Nat := (i.desc :: i.more : List Nat)

/-- The blocks that a pointer, perhaps null, is responsible for. -/
def held : Option Item → Multiset Nat
  | none => 0
  | some i => i.blocks

/-- `*status` (is it success?), the local pointers (`none` is null; a pointer is not changed by releasing what it points to), the
allocated blocks, and the next block; blocks are never reused. -/
structure St where
  ok : Bool
  vars : Nat → Option Item
  live : Multiset Nat
  next : Nat

/-- Can the program go to what the pointer points to? -/
def St.Reach (s : St) (x : Nat) : Prop :=
  ∃ i, s.vars x = some i ∧ i.usable = true ∧ i.desc ∈ s.live ∧ ∀ d, i.data = some d → d ∈ s.live

/-- Assignment to a pointer. -/
def St.set (s : St) (x : Nat) (v : Option Item) : St := { s with vars := fun y => if y = x then v else s.vars y }

/-- Allocation of `n` blocks, starting at `s.next`. -/
def St.more (s : St) (n : Nat) : St :=
  { s with live := ((List.range n).map (s.next + ·) : Multiset Nat) + s.live, next := s.next + n }

/-- An object of `n + 1` new blocks. -/
def St.fresh (s : St) (n : Nat) (data : Option Nat) (usable : Bool) : Item :=
  ⟨s.next, (List.range n).map (s.next + 1 + ·), data, usable⟩

/-- A pointer to such an object. -/
def St.put (s : St) (x n : Nat) (data : Option Nat) (usable : Bool) : St :=
  (s.more (n + 1)).set x (some (s.fresh n data usable))

/-- `*status` after something that may go wrong. -/
def St.err (s : St) (ok : Bool) : St := { s with ok := ok }

/-- The commands. -/
inductive Prog where
  | nop
  | seq (a b : Prog)
  /-- `x = 0` -/
  | null (x : Nat)
  /-- `x = sdp_mem_create(…)` -/
  | make (x : Nat)
  /-- `x = sdp_mem_create_wrapper_for_slice(y, …)` with offsets and shape inside `y` -/
  | slice (x y : Nat)
  /-- `x = sdp_mem_create_wrapper(…)` for memory of the caller, or `x = sdp_mutex_create()` -/
  | wrap (x : Nat)
  /-- `x = sdp_fft_create(…)` of the arrays -/
  | fft (x : Nat) (args : List Nat)
  /-- `x = sdp_pswf_create(…)` -/
  | pswf (x : Nat)
  /-- a call that lets a prolate function allocate more, `sdp_pswf_generate`, `sdp_pswf_values`, `sdp_pswf_coeff` -/
  | grow (x : Nat)
  /-- `x = sdp_gridder_wtower_uvw_create(…)` -/
  | tower (x : Nat)
  /-- a function that returns at once if there is an error, and otherwise uses the arguments and may fail -/
  | call (args : List Nat)
  /-- access to data without a test of `*status` -/
  | touch (args : List Nat)
  /-- `sdp_mem_free(x)`, `sdp_mem_ref_dec(x)`, `sdp_fft_free(x)`, … -/
  | free (x : Nat)
  | either (a b : Prog)
  | loop (a : Prog)
  /-- `if (*status) { … }` -/
  | ifErr (a : Prog)
  /-- `if (!*status) { … }` -/
  | ifOk (a : Prog)
  | ret
  | brk
  /-- `exit(1)` -/
  | halt
  /-- a call of a function with this body -/
  | fn (a : Prog)

/-- Ways to leave a program. -/
inductive Exit where
  | next | brk | ret | halt | fault
  /-- undefined behaviour inside `sdp_pswf_create` or a function that calls it (C113) -/
  | crash
deriving DecidableEq

open Prog Exit

/-- What can happen.  The state left by a fault is the one it happens in, except that where a function with an error code of its
own goes wrong, the failure is noted in `ok`. -/
inductive Exec : Prog → St → Exit → St → Prop where
  | nop {s} : Exec nop s next s
  | seq {a b s s' e t} : Exec a s next s' → Exec b s' e t → Exec (seq a b) s e t
  | cut {a b s e t} : e ≠ next → Exec a s e t → Exec (seq a b) s e t
  | null {x s} : Exec (null x) s next (s.set x none)
  /-- `sdp_mem_create`, utility/sdp_mem.cpp:164-177 and 40-44, after an error -/
  | makeErr {x s} : s.ok = false → Exec (make x) s next (s.put x 0 none false)
  /-- `sdp_mem_create`: descriptor and data -/
  | make {x s} : s.ok = true → Exec (make x) s next (s.put x 1 (some (s.next + 1)) true)
  /-- `sdp_mem_create` of an array without elements, utility/sdp_mem.cpp:44 -/
  | makeEmpty {x s} : s.ok = true → Exec (make x) s next (s.put x 0 none true)
  /-- `sdp_mem_create`: no memory for the data, utility/sdp_mem.cpp:45-87 -/
  | makeFail {x s} : s.ok = true → Exec (make x) s next ((s.put x 0 none false).err false)
  /-- utility/sdp_mem.cpp:234-297 -/
  | slice {x y s i} : s.vars y = some i → i.desc ∈ s.live → Exec (slice x y) s next (s.put x 0 i.data i.usable)
  | sliceNull {x y s} : s.vars y = none → Exec (slice x y) s fault s
  | sliceGone {x y s i} : s.vars y = some i → i.desc ∉ s.live → Exec (slice x y) s fault s
  /-- utility/sdp_mem.cpp:180-231 and utility/sdp_thread_support.cpp:21-28 -/
  | wrap {x s} : Exec (wrap x) s next (s.put x 0 none true)
  /-- `sdp_fft_create`, fourier_transforms/sdp_fft.cpp:824-825, after an error -/
  | fftErr {x l s} : s.ok = false → Exec (fft x l) s next (s.set x none)
  /-- fourier_transforms/sdp_fft.cpp:824-825: the checks fail -/
  | fftRefused {x l s} : s.ok = true → (∀ y ∈ l, s.Reach y) → Exec (fft x l) s next ((s.set x none).err false)
  /-- fourier_transforms/sdp_fft.cpp:828-879: a handle, perhaps with an error -/
  | fft {x l s n ok} : s.ok = true → (∀ y ∈ l, s.Reach y) → Exec (fft x l) s next ((s.put x n none ok).err ok)
  | fftFault {x l s} : s.ok = true → (∃ y ∈ l, ¬ s.Reach y) → Exec (fft x l) s fault s
  /-- fourier_transforms/sdp_pswf.cpp:616-639 -/
  | pswf {x s} : Exec (pswf x) s next (s.put x 2 none true)
  /-- the same without memory for the coefficients, which are written nevertheless -/
  | pswfFault {x s} : Exec (pswf x) s crash (s.err false)
  /-- fourier_transforms/sdp_pswf.cpp:642-677 and 710-777 -/
  | grow {x s n ok i} : (ok = true → s.ok = true) → s.vars x = some i → i.desc ∈ s.live →
      Exec (grow x) s next (((s.more n).set x (some { i with more := (List.range n).map (s.next + ·) ++ i.more })).err ok)
  | growNull {x s} : s.vars x = none → Exec (grow x) s fault s
  | growGone {x s i} : s.vars x = some i → i.desc ∉ s.live → Exec (grow x) s fault s
  /-- `sdp_gridder_wtower_uvw_create`, grid_data/sdp_gridder_wtower_uvw.cpp:674-681: size refused -/
  | towerRefused {x s} : Exec (tower x) s next ((s.set x none).err false)
  /-- grid_data/sdp_gridder_wtower_uvw.cpp:683-722: a handle, perhaps with an error -/
  | tower {x s n ok} : (ok = true → s.ok = true) → Exec (tower x) s next ((s.put x n none ok).err ok)
  /-- the same when a prolate function goes wrong -/
  | towerFault {x s} : Exec (tower x) s crash (s.err false)
  | callErr {l s} : s.ok = false → Exec (call l) s next s
  | call {l s ok} : s.ok = true → (∀ y ∈ l, s.Reach y) → Exec (call l) s next (s.err ok)
  | callFault {l s} : s.ok = true → (∃ y ∈ l, ¬ s.Reach y) → Exec (call l) s fault s
  | touch {l s} : (∀ y ∈ l, s.Reach y) → Exec (touch l) s next s
  | touchFault {l s} : (∃ y ∈ l, ¬ s.Reach y) → Exec (touch l) s fault s
  /-- utility/sdp_mem.cpp:607-627, fourier_transforms/sdp_fft.cpp:939-961, utility/sdp_thread_support.cpp:31-38 -/
  | freeNull {x s} : s.vars x = none → Exec (free x) s next s
  | free {x s i} : s.vars x = some i → i.blocks ≤ s.live → Exec (free x) s next { s with live := s.live - i.blocks }
  | freeFault {x s i} : s.vars x = some i → ¬ i.blocks ≤ s.live → Exec (free x) s fault s
  | left {a b s e t} : Exec a s e t → Exec (either a b) s e t
  | right {a b s e t} : Exec b s e t → Exec (either a b) s e t
  | loopEnd {a s} : Exec (loop a) s next s
  | loopStep {a s s' e t} : Exec a s next s' → Exec (loop a) s' e t → Exec (loop a) s e t
  | loopBreak {a s t} : Exec a s Exit.brk t → Exec (loop a) s next t
  | loopExit {a s e t} : e ≠ next → e ≠ Exit.brk → Exec a s e t → Exec (loop a) s e t
  | ifErr {a s e t} : s.ok = false → Exec a s e t → Exec (ifErr a) s e t
  | ifErrNot {a s} : s.ok = true → Exec (ifErr a) s next s
  | ifOk {a s e t} : s.ok = true → Exec a s e t → Exec (ifOk a) s e t
  | ifOkNot {a s} : s.ok = false → Exec (ifOk a) s next s
  | ret {s} : Exec ret s Exit.ret s
  | brk {s} : Exec brk s Exit.brk s
  | halt {s} : Exec halt s Exit.halt s
  | fnNext {a s t} : Exec a s next t → Exec (fn a) s next t
  | fnRet {a s t} : Exec a s Exit.ret t → Exec (fn a) s next t
  | fnExit {a s e t} : e ≠ next → e ≠ Exit.ret → Exec a s e t → Exec (fn a) s e t

/-- Commands one after the other. -/
def sq : List Prog → Prog
  | [] => nop
  | a :: l => seq a (sq l)

end Sdp.Temps
