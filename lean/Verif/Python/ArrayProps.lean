import Verif.Python.ArraySpec
import Verif.Mem.Props2

/-!
C118, arrays: what C sees is the array that was given.
-/

namespace Verif.Python.Array

open Sdp Sdp.MemSpec

theorem memType_size (d : DType) (t : MemType) (h : memType d = some t) :
    t.size = d.itemsize ∧ t ≠ .void ∧ 0 < t.size := by
  cases d <;> simp only [memType, Option.some.injEq, reduceCtorEq] at h <;> subst h <;>
    exact ⟨rfl, by decide, by decide⟩

theorem memType_supported (d : DType) : d.supported ↔ ∃ t, memType d = some t := by
  cases d <;> simp [DType.supported, memType]

theorem prod_ofNat (l : List Nat) : (l.map Int.ofNat).prod = ((l.prod : Nat) : Int) := by
  induction l with
  | nil => rfl
  | cons a l ih => simp only [List.map_cons, List.prod_cons, ih]; push_cast; rfl

/-- What the wrapper of an array of a supported type is. -/
theorem wrap_mem (p : Ptr) (t : MemType) (l : MemLocation) (shape : List Nat) (strides : List Int)
    (ro : Bool) (hs : strides.length = shape.length) (hv : t ≠ .void) (ht : 0 < t.size) :
    ∃ m, wrap (some p) t l (shape.map Int.ofNat) strides ro = .mem m ∧ m.type = t ∧ m.location = l ∧
      m.shape = shape.map Int.ofNat ∧ m.stride = strides ∧ m.numDims = shape.length ∧
      m.numElements = (shape.prod : Nat) ∧ m.data = some p ∧ m.isReadOnly = ro ∧ m.isOwner = false ∧
      (m.queryCContiguous = true ↔
        (createWrapper (some p) t l (shape.map Int.ofNat) (some strides) .success).1.queryCContiguous = true) := by
  unfold wrap createWrapper
  dsimp only
  simp only [if_neg hv, if_neg (show ¬ t.size ≤ 0 by omega)]
  by_cases he : shape.map Int.ofNat = []
  · rw [if_pos he]
    have hn : shape = [] := by simpa using he
    subst hn
    have : strides = [] := List.length_eq_zero_iff.1 hs
    subst this
    exact ⟨_, rfl, rfl, rfl, rfl, rfl, rfl, rfl, rfl, rfl, rfl, Iff.rfl⟩
  · rw [if_neg he]
    refine ⟨_, rfl, rfl, rfl, rfl, rfl, ?_, ?_, rfl, rfl, rfl, Iff.rfl⟩
    · simp [setReadOnly]
    · show numElementsLoop _ = _
      rw [numElementsLoop_eq, prod_ofNat]

/-- What C knows about a NumPy or CuPy array: its type, place, shape, strides and
first element; elements have NumPy's addresses; nothing is owned; and a NumPy
array that may not be written may not be written by C either. -/
structure Same (a : NdArray) (m : Mem) : Prop where
  size : m.type.size = a.dtype.itemsize
  dims : m.numDims = a.shape.length
  shape : m.shape = a.shape.map Int.ofNat
  count : m.numElements = (a.shape.prod : Nat)
  owner : m.isOwner = false
  address : ∀ idx, m.data.map (fun p => (⟨p.block, p.off + byteAddr idx m.stride⟩ : Ptr)) = some (a.address idx)
  view : ∀ (st : Status), (∀ s ∈ a.strides, (a.dtype.itemsize : Int) ∣ s) →
    ∀ (t : MemType) (n : Nat) (l : MemLocation), (checkAndView m t n l st).2 = .success →
    ∀ idx, (checkAndView m t n l st).1.ptr.map
      (fun p => (⟨p.block, p.off + (checkAndView m t n l st).1.byteOffset m.type.size idx⟩ : Ptr)) =
        some (a.address idx)

theorem same_of (a : NdArray) (hv : a.Valid) (t : MemType) (l : MemLocation) (ro : Bool)
    (ht : memType a.dtype = some t) :
    ∃ m, wrap (some a.data) t l (a.shape.map Int.ofNat) a.strides ro = .mem m ∧ Same a m ∧ m.type = t ∧
      m.location = l ∧ m.isReadOnly = ro := by
  obtain ⟨h1, h2, h3⟩ := memType_size _ _ ht
  obtain ⟨m, hm, e1, e2, e3, e4, e5, e6, e7, e8, e9, -⟩ := wrap_mem a.data t l a.shape a.strides ro hv h2 h3
  refine ⟨m, hm, ⟨by rw [e1, h1], e5, e3, e6, e9, ?_, ?_⟩, e1, e2, e8⟩
  · intro idx
    rw [e7, e4]
    rfl
  · intro st hd t' n l' hok idx
    have hc := C07_view_partial m t' n l' st (by rw [e1]; exact h3) (by rw [e5, e3, List.length_map])
      (by rw [e5, e4]; exact hv.symm)
    obtain ⟨hp, -, ha⟩ := hc.2.1 hok
    rw [hp, e7, ha (by rw [e4, e1, h1]; exact hd) idx, e4]
    rfl

/-- **C118.** A NumPy array of a supported element type, of any shape and
strides, gives a `Mem` that describes exactly this array, in memory of the
CPU, writeable exactly if the array is. -/
theorem C118_numpy (a : NdArray) (hv : a.Valid) (hs : a.dtype.supported) :
    ∃ m, memInit [.numpy a] = .mem m ∧ Same a m ∧ m.location = .cpu ∧ m.isReadOnly = !a.writeable := by
  obtain ⟨t, ht⟩ := (memType_supported _).1 hs
  obtain ⟨m, hm, h, -, h2, h3⟩ := same_of a hv t .cpu (!a.writeable) ht
  exact ⟨m, by simp only [memInit, ht, hm], h, h2, h3⟩

/-- **C118.** The same for CuPy arrays, in memory of the GPU. -/
theorem C118_cupy (a : NdArray) (hv : a.Valid) (hs : a.dtype.supported) :
    ∃ m, memInit [.cupy a] = .mem m ∧ Same a m ∧ m.location = .gpu ∧ m.isReadOnly = false := by
  obtain ⟨t, ht⟩ := (memType_supported _).1 hs
  obtain ⟨m, hm, h, -, h2, h3⟩ := same_of a hv t .gpu false ht
  exact ⟨m, by simp only [memInit, ht, hm], h, h2, h3⟩

/-- **C118.** Two element types give the same C type only if they are the same:
an array is never read as elements of another kind. -/
theorem C118_types (a b : NdArray) (ha : a.Valid) (hb : b.Valid) (m n : Mem)
    (h1 : memInit [.numpy a] = .mem m) (h2 : memInit [.numpy b] = .mem n) (h : m.type = n.type) :
    a.dtype = b.dtype := by
  have key : ∀ (a : NdArray) (m : Mem), a.Valid → memInit [.numpy a] = .mem m → memType a.dtype = some m.type := by
    intro a m ha h1
    rcases ht : memType a.dtype with _ | t
    · simp [memInit, ht] at h1
    · obtain ⟨m', hm, -, e, -⟩ := same_of a ha t .cpu (!a.writeable) ht
      simp only [memInit, ht, hm, Made.mem.injEq] at h1
      rw [← h1, e]
  have ka := key a m ha h1
  have kb := key b n hb h2
  rw [h, ← kb] at ka
  revert ka kb
  cases a.dtype <;> cases b.dtype <;> simp [memType]

/-- **C118.** Anything else is refused with `TypeError`. -/
theorem C118_refused (a : NdArray) (h : ¬ a.dtype.supported) :
    memInit [.numpy a] = .typeError ∧ memInit [.cupy a] = .typeError ∧ memInit [.anything] = .typeError := by
  have : memType a.dtype = none := by
    rcases ht : memType a.dtype with _ | t
    · rfl
    · exact absurd ((memType_supported _).2 ⟨t, ht⟩) h
  refine ⟨?_, ?_, rfl⟩ <;> simp only [memInit, this]

/-- **C118.** `None` gives a null array, which no C function can write to or take
for an array of numbers. -/
theorem C118_none : ∃ m, memInit [.none] = .mem m ∧ m.data = none ∧ m.type = .void ∧
    ∀ (t : MemType) (n : Nat) (l : MemLocation) (st : Status), (checkAndView m t n l st).2 ≠ .success := by
  refine ⟨_, rfl, rfl, rfl, ?_⟩
  intro t n l st
  unfold checkAndView checkWriteable
  dsimp only
  split <;> rename_i h
  · exact h
  · simp [Mem.queryReadOnly, setReadOnly, createWrapper]

/-- C118 is false of several arguments: they are forgotten, and a null array is
made without an error. -/
theorem C118_two_arrays_false (a b : NdArray) : memInit [.numpy a, .numpy b] = memInit [.none] := rfl

/-- C118 is false of arrays whose strides are not multiples of the element size,
such as one field of an array of packed structures (here one byte and a
double): C accepts them, and reads elements at other addresses. -/
theorem C118_field_false : ∃ (a : NdArray) (m : Mem), a.Valid ∧ a.dtype.supported ∧ memInit [.numpy a] = .mem m ∧
    (checkAndView m .double 1 .cpu .success).2 = .success ∧
    (checkAndView m .double 1 .cpu .success).1.ptr.map
      (fun p => (⟨p.block, p.off + (checkAndView m .double 1 .cpu .success).1.byteOffset 8 [1]⟩ : Ptr)) ≠
        some (a.address [1]) := by
  refine ⟨⟨.float64, [3], [9], ⟨0, 1⟩, true⟩, _, rfl, trivial, rfl, by decide, by decide⟩

/-- **C118.** An array that NumPy calls contiguous is contiguous for C, if it has
no axis of length zero or one and at least one axis.  Missing: these,
`C118_contiguous_false`. -/
theorem C118_contiguous_partial (a : NdArray) (hv : a.Valid) (hs : a.dtype.supported) (m : Mem)
    (hm : memInit [.numpy a] = .mem m) (hne : a.shape ≠ []) (h1 : 1 ∉ a.shape) (h0 : 0 ∉ a.shape) :
    m.queryCContiguous = true ↔ Contiguous a.dtype.itemsize a.shape a.strides := by
  obtain ⟨t, ht⟩ := (memType_supported _).1 hs
  obtain ⟨hz, h2, h3⟩ := memType_size _ _ ht
  obtain ⟨m', hm', -, -, -, -, -, -, -, -, -, hc⟩ :=
    wrap_mem a.data t .cpu a.shape a.strides (!a.writeable) hv h2 h3
  have e : m = m' := by
    simp only [memInit, ht, hm', Made.mem.injEq] at hm
    exact hm.symm
  subst e
  rw [hc, C02_contiguity_exact _ _ _ _ _ _ h3 (by rw [List.length_map]; exact hv), hz]
  unfold RowMajor Contiguous
  constructor
  · rintro ⟨-, -, -, h⟩
    refine Or.inr fun i hi _ => ?_
    rw [h i hi, ← List.map_drop, prod_ofNat]
  · rintro (h | h)
    · exact absurd h h0
    · refine ⟨rfl, by simpa using hne, by rw [List.length_map]; exact hv, fun i hi => ?_⟩
      rw [h i hi (fun e => h1 (List.mem_of_getElem? e)), ← List.map_drop, prod_ofNat]

/-- C118 is false of axes of length one: the transpose of a column of three
numbers is contiguous for NumPy and not for C, which then refuses it. -/
theorem C118_contiguous_false : ∃ (a : NdArray) (m : Mem), a.Valid ∧ a.dtype.supported ∧
    memInit [.numpy a] = .mem m ∧ Contiguous a.dtype.itemsize a.shape a.strides ∧
    checkCContiguity m .success = .invalidArgument := by
  refine ⟨⟨.float64, [1, 3], [8, 8], ⟨0, 0⟩, true⟩, _, rfl, trivial, rfl, ?_, by decide⟩
  refine Or.inr fun i hi h => ?_
  match i, hi with
  | 0, _ => exact absurd rfl h
  | 1, _ => rfl
  | i + 2, hi => exact absurd hi (by simp)

/-- The hypotheses hold for a strided, read-only array of complex numbers with a
reversed axis. -/
example : ∃ m, memInit [.numpy ⟨.complex128, [4, 5], [160, -32], ⟨3, 144⟩, false⟩] = .mem m ∧
    m.isReadOnly = true ∧ m.data.map (fun p => p.off + byteAddr [2, 1] m.stride) = some 432 :=
  ⟨_, rfl, rfl, rfl⟩

end Verif.Python.Array
