/-!
# Model of `sdp_Mem` (src/ska-sdp-func/utility/sdp_mem.{h,cpp})

CPU build (`SDP_HAVE_CUDA` undefined).  `int32_t`/`int64_t` are `Int`/`Nat`
(no overflow).  Log messages are dropped.
-/

namespace Sdp

/-- `sdp_Error`, utility/sdp_errors.h:13-35. -/
inductive Status
  | success | runtime | invalidArgument | dataType | memAllocFailure
  | memCopyFailure | memLocation
  deriving DecidableEq, Repr

/-- `sdp_MemType`, utility/sdp_mem.h:73-99.  `complexBit` is the bare
`SDP_MEM_COMPLEX = 32` flag value. -/
inductive MemType
  | void | char | int | float | double | complexBit | complexFloat | complexDouble
  deriving DecidableEq, Repr

/-- `sdp_MemLocation`, utility/sdp_mem.h:106-113.  `other` is any other integer
a C caller may put in the enum. -/
inductive MemLocation
  | cpu | gpu | other
  deriving DecidableEq, Repr

/-- `sdp_mem_type_size`, sdp_mem.cpp:1157-1176. -/
def MemType.size : MemType → Int
  | .char => 1
  | .int => 4
  | .float => 4
  | .double => 8
  | .complexFloat => 8
  | .complexDouble => 16
  | .void => 0
  | .complexBit => 0

/-- A data pointer: allocation number and byte offset into it. -/
structure Ptr where
  block : Nat
  off : Int
  deriving DecidableEq, Repr

/-- `struct sdp_Mem`, sdp_mem.cpp:20-33. -/
structure Mem where
  type : MemType
  location : MemLocation
  isCContiguous : Bool
  isOwner : Bool
  isReadOnly : Bool
  numDims : Nat
  numElements : Int
  refCount : Int
  shape : List Int
  stride : List Int
  data : Option Ptr
  deriving DecidableEq, Repr

/-- Loop over dimensions, last to first, of `sdp_mem_create_wrapper`,
sdp_mem.cpp:212-217, for `stride == NULL`: returns the running
`num_elements` and the computed strides.  (Recursion on the list handles the
later dimensions first, exactly as the descending loop does.) -/
def defaultStrideLoop (esz : Int) : List Int → Int × List Int
  | [] => (1, [])
  | n :: rest =>
    let r := defaultStrideLoop esz rest
    (r.1 * n, (r.1 * esz) :: r.2)

/-- Running `num_elements` of the same loop, sdp_mem.cpp:212-217. -/
def numElementsLoop : List Int → Int
  | [] => 1
  | n :: rest => numElementsLoop rest * n

/-- Contiguity loop, sdp_mem.cpp:220-229: returns (`is_c_contiguous`,
local `num_elements`) after visiting the dimensions last to first. -/
def contiguityLoop (esz : Int) : List Int → List Int → Bool × Int
  | n :: ns, s :: ss =>
    let r := contiguityLoop esz ns ss
    (r.1 && decide (s = r.2 * esz), r.2 * n)
  | _, _ => (true, 1)

/-- `sdp_mem_create_wrapper`, sdp_mem.cpp:180-231.  `stride = none` is a NULL
stride pointer.  Assumes, as the C code must, that the shape (and stride, when
given) arrays hold `num_dims` values, so `num_dims` is the list length. -/
def createWrapper (data : Option Ptr) (type : MemType) (location : MemLocation)
    (shape : List Int) (stride : Option (List Int)) (status : Status) :
    Mem × Status :=
  let base : Mem :=
    { type := type, location := location, isCContiguous := false,
      isOwner := false, isReadOnly := false, numDims := shape.length,
      numElements := 0, refCount := 1, shape := [], stride := [], data := data }
  if type = .void then (base, status)
  else if type.size ≤ 0 then (base, .dataType)
  else if shape = [] then ({ base with numElements := 1 }, status)
  else
    let str := match stride with
      | some s => s
      | none => (defaultStrideLoop type.size shape).2
    ({ base with
        numElements := numElementsLoop shape
        shape := shape
        stride := str
        isCContiguous := (contiguityLoop type.size shape str).1 }, status)

/-- Byte-addressed heap: `blocks b = none` means never allocated or freed.
`next` is the next fresh allocation number. -/
structure Heap where
  next : Nat
  blocks : Nat → Option (List UInt8)

/-- Replace the contents of one block. -/
def Heap.set (h : Heap) (b : Nat) (c : Option (List UInt8)) : Heap :=
  ⟨h.next, fun b' => if b' = b then c else h.blocks b'⟩

/-- `sdp_mem_alloc`, sdp_mem.cpp:40-87, CPU-only build.  `allocOk` is the
result of `calloc` (environment choice). -/
def memAlloc (h : Heap) (allocOk : Bool) (m : Mem) (status : Status) :
    Heap × Mem × Status :=
  let m := { m with isOwner := true }
  let bytes := m.numElements * m.type.size
  if status ≠ .success ∨ bytes = 0 then (h, m, status)
  else match m.location with
    | .cpu =>
      if allocOk then
        ({ h.set h.next (some (List.replicate bytes.toNat 0)) with next := h.next + 1 },
         { m with data := some ⟨h.next, 0⟩ }, status)
      else (h, m, .memAllocFailure)
    | .gpu => (h, m, .memLocation)
    | .other => (h, m, .memLocation)

/-- `sdp_mem_create`, sdp_mem.cpp:164-177. -/
def memCreate (h : Heap) (allocOk : Bool) (type : MemType)
    (location : MemLocation) (shape : List Int) (status : Status) :
    Heap × Mem × Status :=
  let (m, status) := createWrapper none type location shape none status
  memAlloc h allocOk m status

/-- Sum of `offset[i] * stride[i]`, sdp_mem.cpp:283-286 (also the address
computed by the view operators, sdp_mem_view.h:119-226). -/
def dot : List Int → List Int → Int
  | i :: is, s :: ss => i * s + dot is ss
  | _, _ => 0

/-- First check loop of the slice wrapper, sdp_mem.cpp:251-264: is every offset
in `[0, shape)`?  Offsets has (at least) `num_dims` entries. -/
def sliceOffsetsOk : List Int → List Int → Bool
  | o :: os, n :: ns => decide (¬ (o ≥ n ∨ o < 0)) && sliceOffsetsOk os ns
  | _, _ => true

/-- Second check loop, sdp_mem.cpp:265-278: is every slice dimension at most
the corresponding trailing source dimension?  Both lists are the trailing
dimensions, in order. -/
def sliceShapeOk : List Int → List Int → Bool
  | k :: ks, n :: ns => decide (¬ (k > n)) && sliceShapeOk ks ns
  | _, _ => true

/-- `sdp_mem_create_wrapper_for_slice`, sdp_mem.cpp:234-297.  The pointer
arithmetic on a NULL `src->data` (undefined in C) yields `none` here. -/
def createSlice (src : Mem) (offsets sliceShape : List Int) (status : Status) :
    Option Mem × Status :=
  if sliceShape.length > src.numDims then (none, .invalidArgument)
  else if ¬ sliceOffsetsOk offsets src.shape then (none, .invalidArgument)
  else
    let drop := src.numDims - sliceShape.length
    if ¬ sliceShapeOk sliceShape (src.shape.drop drop) then
      (none, .invalidArgument)
    else
      let offset := dot offsets src.stride
      let r := createWrapper
        (src.data.map fun p => { p with off := p.off + offset })
        src.type src.location sliceShape (some (src.stride.drop drop)) status
      (some r.1, r.2)

/-- `sdp_mem_create_alias`, sdp_mem.cpp:300-307 (its local status is dropped).
`shape`/`stride` of `src` may be empty for a zero-dimensional array. -/
def createAlias (src : Mem) : Mem :=
  (createWrapper src.data src.type src.location src.shape (some src.stride)
    .success).1

/-- Outcome of an operation that touches memory. -/
inductive Outcome (α : Type) where
  | ok (a : α)
  | ub
  deriving DecidableEq, Repr

/-- `memcpy(dst, src, n)` on the heap: undefined unless both byte ranges are
inside live blocks (and, for `memcpy`, do not overlap inside one block). -/
def memcpyHeap (h : Heap) (dst src : Ptr) (n : Nat) : Outcome Heap :=
  match h.blocks dst.block, h.blocks src.block with
  | some bd, some bs =>
    if 0 ≤ dst.off ∧ dst.off + n ≤ bd.length ∧ 0 ≤ src.off ∧
        src.off + n ≤ bs.length ∧
        (dst.block = src.block → dst.off + n ≤ src.off ∨ src.off + n ≤ dst.off) then
      let d := dst.off.toNat
      let bytes := (bs.drop src.off.toNat).take n
      .ok (h.set dst.block (some (bd.take d ++ bytes ++ bd.drop (d + n))))
    else .ub
  | _, _ => .ub

/-- `sdp_mem_copy_contents`, sdp_mem.cpp:444-499, CPU-only build.  Negative
byte counts become huge `size_t` values in C: undefined here. -/
def copyContents (h : Heap) (dst src : Mem) (offDst offSrc n : Int)
    (status : Status) : Outcome (Heap × Status) :=
  match dst.data, src.data with
  | some pd, some ps =>
    if status ≠ .success then .ok (h, status)
    else if src.numElements = 0 ∨ n = 0 then .ok (h, status)
    else if src.location = .cpu ∧ dst.location = .cpu then
      let esz := src.type.size
      if n < 0 then .ub
      else match memcpyHeap h { pd with off := pd.off + esz * offDst }
            { ps with off := ps.off + esz * offSrc } (esz * n).toNat with
        | .ok h' => .ok (h', status)
        | .ub => .ub
    else .ok (h, .memLocation)
  | _, _ => .ok (h, status)

/-- `sdp_mem_create_copy`, sdp_mem.cpp:310-322. -/
def createCopy (h : Heap) (allocOk : Bool) (src : Mem) (location : MemLocation)
    (status : Status) : Outcome (Heap × Mem × Status) :=
  let r := createWrapper none src.type location src.shape (some src.stride) status
  let a := memAlloc h allocOk r.1 r.2
  match copyContents a.1 a.2.1 src 0 0 src.numElements a.2.2 with
  | .ok x => .ok (x.1, a.2.1, x.2)
  | .ub => .ub

/-- `memset(p, 0, n)`. -/
def memsetZero (h : Heap) (p : Ptr) (n : Nat) : Outcome Heap :=
  match h.blocks p.block with
  | some bd =>
    if 0 ≤ p.off ∧ p.off + n ≤ bd.length then
      let d := p.off.toNat
      .ok (h.set p.block
        (some (bd.take d ++ List.replicate n 0 ++ bd.drop (d + n))))
    else .ub
  | none => .ub

/-- `sdp_mem_clear_portion`, sdp_mem.cpp:332-362, CPU-only build. -/
def clearPortion (h : Heap) (m : Mem) (start n : Int) (status : Status) :
    Outcome (Heap × Status) :=
  if status ≠ .success ∨ n = 0 then .ok (h, status)
  else match m.location with
    | .cpu =>
      match m.data with
      | none => .ub
      | some p =>
        if n < 0 then .ub
        else match memsetZero h { p with off := p.off + start * m.type.size }
              (n * m.type.size).toNat with
          | .ok h' => .ok (h', status)
          | .ub => .ub
    | _ => .ok (h, .memLocation)

/-- `sdp_mem_clear_contents`, sdp_mem.cpp:325-329. -/
def clearContents (h : Heap) (m : Mem) (status : Status) :
    Outcome (Heap × Status) :=
  if status ≠ .success ∨ m.numElements = 0 then .ok (h, status)
  else clearPortion h m 0 m.numElements status

/-! ### Queries -/

/-- `sdp_mem_is_c_contiguous`, sdp_mem.cpp:630-633. -/
def Mem.queryCContiguous (m : Mem) : Bool :=
  if m.data.isNone then false else m.isCContiguous

/-- `sdp_mem_is_read_only`, sdp_mem.cpp:684-687. -/
def Mem.queryReadOnly (m : Mem) : Bool :=
  if m.data.isNone then true else m.isReadOnly

/-- `sdp_mem_num_elements`, sdp_mem.cpp:702-705. -/
def Mem.queryNumElements (m : Mem) : Int :=
  if m.data.isNone then 0 else m.numElements

/-- `sdp_mem_is_floating_point`, sdp_mem.cpp:636-640. -/
def Mem.queryFloatingPoint (m : Mem) : Bool :=
  if m.data.isNone then false else decide (m.type = .float ∨ m.type = .double)

/-- `sdp_mem_is_complex`, sdp_mem.cpp:643-647 (`type & 32 == 32`). -/
def Mem.queryComplex (m : Mem) : Bool :=
  if m.data.isNone then false
  else decide (m.type = .complexBit ∨ m.type = .complexFloat ∨
    m.type = .complexDouble)

/-- `sdp_mem_is_double`, sdp_mem.cpp:659-663 (`type & 8 == 8`). -/
def Mem.queryDouble (m : Mem) : Bool :=
  if m.data.isNone then false
  else decide (m.type = .double ∨ m.type = .complexDouble)

/-- `sdp_mem_shape_dim`, sdp_mem.cpp:1132-1135.  (For `SDP_MEM_VOID` arrays with
`num_dims > 0` the C code would dereference a NULL shape; here 0.) -/
def Mem.shapeDim (m : Mem) (dim : Int) : Int :=
  if dim < 0 ∨ dim ≥ m.numDims then 0 else m.shape.getD dim.toNat 0

/-- `sdp_mem_stride_bytes_dim`, sdp_mem.cpp:1138-1141. -/
def Mem.strideBytesDim (m : Mem) (dim : Int) : Int :=
  if dim < 0 ∨ dim ≥ m.numDims then 0 else m.stride.getD dim.toNat 0

/-- `sdp_mem_stride_elements_dim`, sdp_mem.cpp:1144-1148 (C division truncates
towards zero). -/
def Mem.strideElementsDim (m : Mem) (dim : Int) : Int :=
  if m.type.size > 0 then Int.tdiv (m.strideBytesDim dim) m.type.size else 0

/-- `sdp_mem_is_complex4`, sdp_mem.cpp:650-656. -/
def Mem.queryComplex4 (m : Mem) : Bool :=
  m.queryComplex &&
    (decide (m.numDims > 1 ∧ m.shapeDim (m.numDims - 1) = 4) ||
     decide (m.numDims > 2 ∧ m.shapeDim (m.numDims - 1) = 2 ∧
       m.shapeDim (m.numDims - 2) = 2))

/-- `sdp_mem_is_matching`, sdp_mem.cpp:666-681. -/
def isMatching (m1 m2 : Mem) (checkLocation : Bool) : Bool :=
  decide (m1.type = m2.type) &&
  (!checkLocation || decide (m1.location = m2.location)) &&
  decide (m1.numDims = m2.numDims) &&
  (List.range m1.numDims).all fun i =>
    decide (m1.shape.getD i 0 = m2.shape.getD i 0) &&
    decide (m1.stride.getD i 0 = m2.stride.getD i 0)

/-! ### Parameter checks (sdp_mem.cpp:1217-1453) -/

/-- `sdp_mem_check_writeable_at`, sdp_mem.cpp:1217-1234. -/
def checkWriteable (m : Mem) (status : Status) : Status :=
  if status ≠ .success then status
  else if m.queryReadOnly then .invalidArgument else status

/-- `sdp_mem_check_c_contiguity_at`, sdp_mem.cpp:1237-1254. -/
def checkCContiguity (m : Mem) (status : Status) : Status :=
  if status ≠ .success then status
  else if !m.queryCContiguous then .invalidArgument else status

/-- `sdp_mem_check_location_at`, sdp_mem.cpp:1257-1277. -/
def checkLocation (m : Mem) (loc : MemLocation) (status : Status) : Status :=
  if status ≠ .success then status
  else if m.location ≠ loc then .memLocation else status

/-- `sdp_mem_check_num_dims_at`, sdp_mem.cpp:1280-1300. -/
def checkNumDims (m : Mem) (n : Int) (status : Status) : Status :=
  if status ≠ .success then status
  else if (m.numDims : Int) ≠ n then .invalidArgument else status

/-- `sdp_mem_check_dim_size_at`, sdp_mem.cpp:1303-1323. -/
def checkDimSize (m : Mem) (dim size : Int) (status : Status) : Status :=
  if status ≠ .success then status
  else if m.shapeDim dim ≠ size then .invalidArgument else status

/-- `sdp_mem_check_shape_dim_at`, sdp_mem.cpp:1357-1387. -/
def checkShapeDim (m : Mem) (dim expected : Int) (status : Status) : Status :=
  if status ≠ .success then status
  else if (m.numDims : Int) ≤ dim then .invalidArgument
  else if m.shapeDim dim ≠ expected then .invalidArgument else status

/-- `sdp_mem_check_shape_at`, sdp_mem.cpp:1326-1354. -/
def checkShape (m : Mem) (expected : List Int) (status : Status) : Status :=
  if status ≠ .success then status
  else if m.numDims ≠ expected.length then .invalidArgument
  else (List.range expected.length).foldl
    (fun st (d : Nat) => checkShapeDim m (d : Int) (expected.getD d 0) st) status

/-- `sdp_mem_check_same_shape_at`, sdp_mem.cpp:1390-1430: no test of the
incoming status, and it is skipped when a dimension does not exist. -/
def checkSameShape (m : Mem) (dim : Int) (m2 : Mem) (dim2 : Int)
    (status : Status) : Status :=
  if dim < m.numDims ∧ dim2 < m2.numDims ∧ m.shapeDim dim ≠ m2.shapeDim dim2 then
    .invalidArgument
  else status

/-- `sdp_mem_check_type_at`, sdp_mem.cpp:1433-1453. -/
def checkType (m : Mem) (type : MemType) (status : Status) : Status :=
  if status ≠ .success then status
  else if m.type ≠ type then .dataType else status

/-! ### Reference counting -/

/-- `sdp_mem_ref_inc`, sdp_mem.cpp:747-752 (non-NULL handle). -/
def Mem.refInc (m : Mem) : Mem := { m with refCount := m.refCount + 1 }

/-- Effect of `sdp_mem_free`, sdp_mem.cpp:607-627 (= `sdp_mem_ref_dec`,
sdp_mem.cpp:741-744), CPU-only build.  `alive = none` afterwards means the descriptor
itself was freed. Freeing a block that is not live is undefined. -/
def memFree (h : Heap) (m : Mem) : Outcome (Heap × Option Mem) :=
  let m := { m with refCount := m.refCount - 1 }
  if m.refCount > 0 then .ok (h, some m)
  else match m.isOwner, m.data, m.location with
    | true, some p, .cpu =>
      if p.off = 0 ∧ (h.blocks p.block).isSome then
        .ok (h.set p.block none, none)
      else .ub
    | _, _, _ => .ok (h, none)

/-! ### Views (sdp_mem_view.h) -/

/-- `sdp_MemView`, sdp_mem_view.h:86-96: pointer, shape and stride in elements. -/
structure View where
  ptr : Option Ptr
  shape : List Int
  stride : List Int
  deriving DecidableEq, Repr

/-- Common tail of both overloads, sdp_mem_view.h:362-369 and sdp_mem_view.h:415-420. -/
def mkView (m : Mem) (numDims : Nat) (status : Status) : View :=
  { ptr := m.data
    shape := (List.range numDims).map fun (d : Nat) =>
      if status ≠ .success then 0 else m.shapeDim (d : Int)
    stride := (List.range numDims).map fun (d : Nat) =>
      if status ≠ .success then 0 else m.strideElementsDim (d : Int) }

/-- Writeable overload of `sdp_mem_check_and_view_at`, sdp_mem_view.h:338-369. -/
def checkAndView (m : Mem) (type : MemType) (numDims : Nat) (loc : MemLocation)
    (status : Status) : View × Status :=
  let st := checkWriteable m (checkLocation m loc
    (checkNumDims m numDims (checkType m type status)))
  (mkView m numDims st, st)

/-- Const overload, sdp_mem_view.h:392-421. -/
def checkAndViewConst (m : Mem) (type : MemType) (numDims : Nat)
    (loc : MemLocation) (status : Status) : View × Status :=
  let st := checkLocation m loc (checkNumDims m numDims (checkType m type status))
  (mkView m numDims st, st)

/-- Byte offset of `view(i0, i1, …)`, sdp_mem_view.h:119-226: element index
`Σ stride[k]*i_k`, scaled by `sizeof(num_t)`. -/
def View.byteOffset (v : View) (esz : Int) (idx : List Int) : Int :=
  esz * dot idx v.stride

/-! ### Filling through a view -/

/-- All multi-indices of a shape in loop order, as the nested loops of
`set_value_1d/2d/3d` visit them, sdp_mem.cpp:105-159. -/
def allIndices : List Int → List (List Int)
  | [] => [[]]
  | n :: ns => (List.range n.toNat).flatMap fun (i : Nat) =>
      (allIndices ns).map fun t => (i : Int) :: t

/-- Element memory used for the fill model: element address ↦ value. -/
def fillView {α : Type} (mem : Int → α) (base : Int) (v : View) (value : α) :
    Int → α :=
  (allIndices v.shape).foldl
    (fun mm idx => fun a => if a = base + dot idx v.stride then value else mm a) mem

/-- `sdp_mem_set_value`, sdp_mem.cpp:832-918, CPU branch.  Element memory is
abstract (`α` values at element addresses, `base` the address of element 0);
supported types and ranks as in the switch statements. -/
def setValue {α : Type} (mem : Int → α) (base : Int) (m : Mem) (value : α)
    (status : Status) : (Int → α) × Status :=
  if status ≠ .success then (mem, status)
  else if m.numDims = 1 ∨ m.numDims = 2 ∨ m.numDims = 3 then
    if m.type = .complexDouble ∨ m.type = .complexFloat ∨ m.type = .double ∨
        m.type = .float ∨ m.type = .int then
      let r := checkAndView m m.type m.numDims .cpu status
      (fillView mem base r.1 value, r.2)
    else (mem, .dataType)
  else (mem, .invalidArgument)

end Sdp
