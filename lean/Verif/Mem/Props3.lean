import Verif.Mem.Props2
import Verif.Mem.Extra

/-! # C01, C03, C06, C08 (continued) and C55–C58 -/

namespace Sdp
open MemSpec

/-- Bytes of one element, by kind of number (specification): a real or integer scalar of the
given width, twice that for a complex number. -/
def MemSpec.elementBytes : MemType → Option Int
  | .char => some 1
  | .int => some 4
  | .float => some 4
  | .double => some 8
  | .complexFloat => some (2 * 4)
  | .complexDouble => some (2 * 8)
  | .void => none
  | .complexBit => none

/-- C01: the element sizes used for strides and storage are those of the C types. -/
theorem C01_element_sizes (t : MemType) : t.size = (elementBytes t).getD 0 := by
  cases t <;> rfl

theorem sliceOffsetsOk_iff : ∀ (o n : List Int), o.length = n.length →
    (sliceOffsetsOk o n = true ↔ List.Forall₂ (fun i n => 0 ≤ i ∧ i < n) o n)
  | [], [], _ => by simp [sliceOffsetsOk]
  | o :: os, n :: ns, h => by
    have ih := sliceOffsetsOk_iff os ns (by simpa using h)
    simp only [sliceOffsetsOk, Bool.and_eq_true, decide_eq_true_eq, ih, List.forall₂_cons]
    constructor
    · rintro ⟨a, b⟩; exact ⟨by omega, b⟩
    · rintro ⟨a, b⟩; exact ⟨by omega, b⟩

theorem sliceShapeOk_iff : ∀ (k n : List Int), k.length = n.length →
    (sliceShapeOk k n = true ↔ List.Forall₂ (fun k n => k ≤ n) k n)
  | [], [], _ => by simp [sliceShapeOk]
  | o :: os, n :: ns, h => by
    have ih := sliceShapeOk_iff os ns (by simpa using h)
    simp only [sliceShapeOk, Bool.and_eq_true, decide_eq_true_eq, ih, List.forall₂_cons]
    constructor
    · rintro ⟨a, b⟩; exact ⟨by omega, b⟩
    · rintro ⟨a, b⟩; exact ⟨by omega, b⟩

/-- C03: a slice is accepted exactly when its rank does not exceed the parent's, every offset
is a parent index and every extent is at most the parent's; a refused slice is NULL with an
invalid-argument status. -/
theorem C03_slice_accepted_iff (src : Mem) (offsets sliceShape : List Int) (st : Status)
    (hd : src.numDims = src.shape.length) (ho : offsets.length = src.shape.length) :
    ((createSlice src offsets sliceShape st).1.isSome = true ↔
      sliceShape.length ≤ src.shape.length ∧ InRange offsets src.shape ∧
      List.Forall₂ (fun k n => k ≤ n) sliceShape
        (src.shape.drop (src.shape.length - sliceShape.length))) ∧
    ((createSlice src offsets sliceShape st).1 = none →
      (createSlice src offsets sliceShape st).2 = .invalidArgument) := by
  have h1 := sliceOffsetsOk_iff offsets src.shape ho
  unfold createSlice
  rw [hd]
  by_cases hr : sliceShape.length > src.shape.length
  · rw [if_pos hr]
    constructor
    · constructor
      · intro h; cases h
      · intro h; omega
    · intro _; rfl
  · rw [if_neg hr]
    have h2 := sliceShapeOk_iff sliceShape
      (src.shape.drop (src.shape.length - sliceShape.length)) (by simp; omega)
    by_cases ha : sliceOffsetsOk offsets src.shape = true
    · rw [if_neg (by simpa using ha)]
      dsimp only
      by_cases hb : sliceShapeOk sliceShape
          (src.shape.drop (src.shape.length - sliceShape.length)) = true
      · rw [if_neg (by simpa using hb)]
        refine ⟨⟨fun _ => ⟨by omega, h1.1 ha, h2.1 hb⟩, fun _ => rfl⟩, fun h => ?_⟩
        cases h
      · rw [if_pos (by simpa using hb)]
        refine ⟨⟨fun h => ?_, fun h => absurd (h2.2 h.2.2) hb⟩, fun _ => rfl⟩
        cases h
    · rw [if_pos (by simpa using ha)]
      refine ⟨⟨fun h => ?_, fun h => absurd (h1.2 h.2.1) ha⟩, fun _ => rfl⟩
      cases h

/-- Documented error code of each check. -/
def Check.code : Check → Status
  | .location .. => .memLocation
  | .type .. => .dataType
  | _ => .invalidArgument

theorem checkShape_code (m : Mem) (e : List Int) (ds : List Nat) (st : Status)
    (hst : st = .success ∨ st = .invalidArgument) :
    ds.foldl (fun st (d : Nat) => checkShapeDim m (d : Int) (e.getD d 0) st) st = .success ∨
    ds.foldl (fun st (d : Nat) => checkShapeDim m (d : Int) (e.getD d 0) st) st =
      .invalidArgument := by
  induction ds generalizing st with
  | nil => exact hst
  | cons d ds ih =>
    rw [List.foldl_cons]
    apply ih
    simp only [checkShapeDim]
    rcases hst with rfl | rfl
    · simp only [ne_eq, not_true_eq_false, if_false]
      split
      · exact Or.inr rfl
      · split
        · exact Or.inr rfl
        · exact Or.inl rfl
    · right; simp

/-- C06: a failing check reports its own kind of error: location errors for location checks,
data-type errors for type checks, invalid-argument errors for the others. -/
theorem C06_error_codes (c : Check) (h : ¬ c.Holds) : c.run .success = c.code := by
  have hn : c.run .success ≠ .success := fun e => h ((Check.run_success_iff c _).1 e).2
  cases c with
  | shape m e =>
    simp only [Check.run, Check.code] at hn ⊢
    unfold checkShape at hn ⊢
    simp only [ne_eq, not_true_eq_false, if_false] at hn ⊢
    split at hn
    · rename_i hh; rw [if_pos hh]
    · rename_i hh
      rw [if_neg hh]
      rcases checkShape_code m e (List.range e.length) .success (Or.inl rfl) with h1 | h1
      · exact absurd h1 hn
      · exact h1
  | _ =>
    simp only [Check.run, Check.code, checkWriteable, checkCContiguity, checkLocation,
      checkNumDims, checkDimSize, checkShapeDim, checkSameShape, checkType] at hn ⊢
    split_ifs at hn ⊢ <;> simp_all

/-- The first failing check of a sequence determines the reported code (no same-shape
check after it). -/
theorem C06_first_failure (pre post : List Check) (c : Check) (hpre : ∀ x ∈ pre, x.Holds)
    (hc : ¬ c.Holds) (hpost : ∀ x ∈ post, x.isSameShape = false) :
    (pre ++ c :: post).foldl (fun s c => c.run s) .success = c.code := by
  rw [List.foldl_append, (C06_success_iff_all_hold pre .success).2 ⟨rfl, hpre⟩,
    List.foldl_cons, C06_error_codes c hc]
  exact C06_error_preserved_partial post _ (by cases c <;> simp [Check.code]) hpost

/-- C08: clearing a whole contiguous array zeroes exactly its elements. -/
theorem C08_clear_contents (h : Heap) (m : Mem) (p : Ptr) (bs : List UInt8)
    (hl : m.location = .cpu) (hp : m.data = some p) (hb : h.blocks p.block = some bs)
    (hsz : 0 < m.type.size) (hn : 0 ≤ m.numElements) (h0 : 0 ≤ p.off)
    (hin : p.off + m.numElements * m.type.size ≤ bs.length) :
    ∃ h' bs', clearContents h m .success = .ok (h', .success) ∧
      (∀ b, b ≠ p.block → h'.blocks b = h.blocks b) ∧ h'.blocks p.block = some bs' ∧
      bs'.length = bs.length ∧
      ∀ i : Nat, i < bs.length → bs'[i]? =
        if p.off ≤ (i : Int) ∧ (i : Int) < p.off + m.numElements * m.type.size
        then some 0 else bs[i]? := by
  by_cases hz : m.numElements = 0
  · refine ⟨h, bs, by simp [clearContents, hz], fun _ _ => rfl, hb, rfl, fun i hi => ?_⟩
    rw [hz, if_neg (by omega)]
  · obtain ⟨h', bs', e, a, b, c, d⟩ := C08_clear_portion h m p bs 0 m.numElements (by omega)
      (le_refl _) hl hp hb h0 (by simpa using hin) hsz
    refine ⟨h', bs', ?_, b, a, c, fun i hi => ?_⟩
    · unfold clearContents
      rw [if_neg (by simp [hz]), e]
    · rw [d i hi]; simp

/-! ## C55 — aliases -/

/-- C55: an alias of an array (a descriptor built by the library, so its derived fields are
consistent) has the same type, location, shape, strides, element count, contiguity and data
pointer, is a separate handle with one reference, and never owns the data. -/
theorem C55_alias_same_elements_partial (d : Option Ptr) (t : MemType) (l : MemLocation)
    (shape : List Int) (stride : Option (List Int)) (st : Status) (hsz : 0 < t.size) :
    let m := (createWrapper d t l shape stride st).1
    let a := createAlias m
    a.type = m.type ∧ a.location = m.location ∧ a.shape = m.shape ∧ a.stride = m.stride ∧
    a.numDims = m.numDims ∧ a.numElements = m.numElements ∧
    a.isCContiguous = m.isCContiguous ∧ a.data = m.data ∧ a.isOwner = false ∧
    a.refCount = 1 := by
  have hv : t ≠ .void := by rintro rfl; simp [MemType.size] at hsz
  by_cases hs : shape = []
  · subst hs
    simp [createWrapper, createAlias, hv, not_le.2 hsz]
  · simp [createWrapper, createAlias, hv, not_le.2 hsz, hs]

/-- Aliases of created arrays likewise. -/
theorem C55_alias_of_created_partial (h : Heap) (ok : Bool) (t : MemType) (l : MemLocation)
    (shape : List Int) (st : Status) (hsz : 0 < t.size) :
    let m := (memCreate h ok t l shape st).2.1
    let a := createAlias m
    a.type = m.type ∧ a.location = m.location ∧ a.shape = m.shape ∧ a.stride = m.stride ∧
    a.numDims = m.numDims ∧ a.numElements = m.numElements ∧
    a.isCContiguous = m.isCContiguous ∧ a.data = m.data ∧ a.isOwner = false := by
  have hv : t ≠ .void := by rintro rfl; simp [MemType.size] at hsz
  have key : ∀ m : Mem, (∃ d c o r, m = { (createWrapper none t l shape none st).1 with
      data := d, isOwner := o, isReadOnly := r, refCount := c }) →
      (createAlias m).type = m.type ∧ (createAlias m).location = m.location ∧
      (createAlias m).shape = m.shape ∧ (createAlias m).stride = m.stride ∧
      (createAlias m).numDims = m.numDims ∧ (createAlias m).numElements = m.numElements ∧
      (createAlias m).isCContiguous = m.isCContiguous ∧ (createAlias m).data = m.data ∧
      (createAlias m).isOwner = false := by
    rintro m ⟨d, c, o, r, rfl⟩
    by_cases hs : shape = []
    · subst hs
      simp [createWrapper, createAlias, hv, not_le.2 hsz]
    · simp [createWrapper, createAlias, hv, not_le.2 hsz, hs]
  apply key
  simp only [memCreate, memAlloc]
  split
  · exact ⟨_, _, _, _, rfl⟩
  · split
    · split
      · exact ⟨_, _, _, _, rfl⟩
      · exact ⟨_, _, _, _, rfl⟩
    · exact ⟨_, _, _, _, rfl⟩
    · exact ⟨_, _, _, _, rfl⟩

/-- The read-only protection is not inherited: an alias, and a slice, of a read-only array
pass the writeable check. -/
theorem C55_read_only_lost_false :
    ∃ (m s : Mem), m.isReadOnly = true ∧ checkWriteable m .success ≠ .success ∧
      checkWriteable (createAlias m) .success = .success ∧
      (createSlice m [0] [1] .success).1 = some s ∧ checkWriteable s .success = .success :=
  ⟨{ (createWrapper (some ⟨0, 0⟩) .float .cpu [2] none .success).1 with isReadOnly := true }, _,
    rfl, by decide, by decide, rfl, by decide⟩

/-! ## C56 — matching arrays -/

/-- C56: two arrays match exactly when type, rank, every extent and every stride agree, and
(if asked) the location. -/
theorem C56_matching_exact (m1 m2 : Mem) (loc : Bool)
    (h1 : m1.shape.length = m1.numDims) (h1' : m1.stride.length = m1.numDims)
    (h2 : m2.shape.length = m2.numDims) (h2' : m2.stride.length = m2.numDims) :
    isMatching m1 m2 loc = true ↔
      m1.type = m2.type ∧ (loc = true → m1.location = m2.location) ∧
      m1.shape = m2.shape ∧ m1.stride = m2.stride := by
  have ext : ∀ (a b : List Int), a.length = b.length →
      (∀ i < a.length, a.getD i 0 = b.getD i 0) → a = b := by
    intro a b hl hh
    apply List.ext_getElem hl
    intro i hi hi'
    have := hh i hi
    rw [List.getD_eq_getElem?_getD, List.getD_eq_getElem?_getD, List.getElem?_eq_getElem hi,
      List.getElem?_eq_getElem hi'] at this
    simpa using this
  simp only [isMatching, Bool.and_eq_true, decide_eq_true_eq, List.all_eq_true, List.mem_range,
    Bool.or_eq_true, Bool.not_eq_true']
  constructor
  · rintro ⟨⟨⟨a, b⟩, c⟩, d⟩
    refine ⟨a, fun h => ?_, ext _ _ (by omega) fun i hi => (d i (by omega)).1,
      ext _ _ (by omega) fun i hi => (d i (by omega)).2⟩
    rcases b with b | b
    · rw [b] at h; cases h
    · exact b
  · rintro ⟨a, b, c, d⟩
    refine ⟨⟨⟨a, ?_⟩, by rw [← h1, ← h2, c]⟩, fun i _ => ⟨by rw [c], by rw [d]⟩⟩
    cases loc
    · exact Or.inl rfl
    · exact Or.inr (b rfl)

/-! ## C57 — scaling -/

/-- C57: scaling a contiguous floating-point CPU array multiplies every element once; in
every other case the elements are unchanged and an error is reported (an earlier error is
kept). -/
theorem C57_scale_exact_partial {α : Type} (mul : α → α) (m : Mem) (s : Store α) (st : Status)
    (hn : m.queryNumElements ≤ s.n) :
    ∃ s' st', scaleReal mul m s st = some (s', st') ∧ s'.n = s.n ∧
      (st' = .success ↔ st = .success ∧ m.data ≠ none ∧ m.isCContiguous = true ∧
        m.location = .cpu ∧ (m.type = .float ∨ m.type = .double ∨ m.type = .complexFloat ∨
          m.type = .complexDouble)) ∧
      (st' = .success → ∀ i : Nat, s'.get i =
        if (i : Int) < m.numElements then mul (s.get i) else s.get i) ∧
      (st' ≠ .success → s' = s) ∧ (st ≠ .success → st' = st) := by
  by_cases hst : st = .success
  swap
  · exact ⟨s, st, by simp [scaleReal, hst], rfl, by simp [hst], fun h => absurd h hst,
      fun _ => rfl, fun _ => rfl⟩
  subst hst
  by_cases hc : m.queryCContiguous = true
  swap
  · refine ⟨s, .invalidArgument, by simp [scaleReal, hc], rfl, ?_, by simp, by simp, by simp⟩
    simp only [Mem.queryCContiguous] at hc
    cases hd : m.data <;> simp_all
  have hd : m.data ≠ none ∧ m.isCContiguous = true := by
    simp only [Mem.queryCContiguous] at hc
    cases hd : m.data <;> simp_all
  have hq : m.queryNumElements = m.numElements := by
    cases hdd : m.data
    · exact absurd hdd hd.1
    · simp [Mem.queryNumElements, hdd]
  by_cases ht : m.type = .complexDouble ∨ m.type = .complexFloat ∨ m.type = .double ∨
      m.type = .float
  · cases hl : m.location
    · refine ⟨⟨s.n, fun i => if (i : Int) < m.queryNumElements then mul (s.get i) else s.get i⟩,
        .success, by simp [scaleReal, hc, hl, ht, hn], rfl, ?_, ?_, fun h => absurd rfl h,
        fun h => absurd rfl h⟩
      · constructor
        · intro _; refine ⟨rfl, hd.1, hd.2, rfl, ?_⟩; tauto
        · intro _; rfl
      · intro _ i; simp only [hq]
    · exact ⟨s, .runtime, by simp [scaleReal, hc, hl, ht], rfl, by simp, by simp,
        by simp, by simp⟩
    · exact ⟨s, .memLocation, by simp [scaleReal, hc, hl, ht], rfl, by simp, by simp,
        by simp, by simp⟩
  · refine ⟨s, .dataType, ?_, rfl, ?_, by simp, by simp, by simp⟩
    · cases hl : m.location <;> simp [scaleReal, hc, hl, ht]
    · simp only [reduceCtorEq, false_iff]; tauto

/-- Scaling does not honour the read-only flag. -/
theorem C57_scale_read_only_false :
    ∃ (m : Mem) (s s' : Store Int), m.isReadOnly = true ∧ m.queryReadOnly = true ∧
      scaleReal (fun x => 2 * x) m s .success = some (s', .success) ∧ s.get 0 = 1 ∧
      s'.get 0 = 2 :=
  ⟨{ (createWrapper (some ⟨0, 0⟩) .float .cpu [2] none .success).1 with isReadOnly := true },
    ⟨2, fun _ => 1⟩, _, rfl, rfl, rfl, rfl, rfl⟩

/-! ## C58 — precision conversion -/

/-- The documented conversions: real to real and complex to complex, between single and
double precision. -/
inductive MemSpec.PrecisionPair : MemType → MemType → Prop
  | realDown : PrecisionPair .double .float
  | realUp : PrecisionPair .float .double
  | complexDown : PrecisionPair .complexDouble .complexFloat
  | complexUp : PrecisionPair .complexFloat .complexDouble

theorem convertible_iff (a b : MemType) : convertible a b = true ↔ PrecisionPair a b := by
  simp only [convertible, decide_eq_true_eq]
  constructor
  · rintro (⟨rfl, rfl⟩ | ⟨rfl, rfl⟩ | ⟨rfl, rfl⟩ | ⟨rfl, rfl⟩) <;> constructor
  · rintro (_ | _ | _ | _) <;> simp

/-- C58: converting a contiguous, non-empty CPU array between single and double precision,
when the allocation succeeds: a new array of the requested type and the same shape holding the
converted value of every element; the source is not written. -/
theorem C58_convert_exact_partial {α : Type} (cast : α → α) (z : α) (h : Heap) (src : Mem)
    (s : Store α) (t : MemType) (hc : src.queryCContiguous = true)
    (hpos : ∀ n ∈ src.shape, 0 ≤ n)
    (hn : src.numElements = src.shape.prod) (hne : src.shape.prod ≠ 0)
    (hs : (s.n : Int) = src.numElements) (ht : PrecisionPair src.type t) :
    ∃ m v, convertPrecision cast z h true src s t .success = some (some (m, v), .success) ∧
      m.type = t ∧ m.shape = src.shape ∧ m.numElements = src.numElements ∧
      (v.n : Int) = src.numElements ∧ ∀ i < v.n, v.get i = cast (s.get i) := by
  rw [← convertible_iff] at ht
  have hsz : 0 < t.size := by
    simp only [convertible, decide_eq_true_eq] at ht
    rcases ht with h | h | h | h <;> rw [h.2] <;> decide
  obtain ⟨a1, a2, a3, a4, a5, a6, a7, a8, a9⟩ := C01_create_layout h t src.shape hsz hpos
  obtain ⟨bytes, b1, b2⟩ := a8 hne
  have hd : src.data ≠ none := by
    intro e; simp [Mem.queryCContiguous, e] at hc
  have hq : src.queryNumElements = src.numElements := by
    cases hdd : src.data
    · exact absurd hdd hd
    · simp [Mem.queryNumElements, hdd]
  have hpp := prod_nonneg' _ hpos
  refine ⟨_, ⟨src.numElements.toNat, fun i => cast (s.get i)⟩, ?_, a2, a5, by rw [a6, hn], ?_,
    fun _ _ => rfl⟩
  · unfold convertPrecision
    rw [if_neg (by simp), hc, if_neg (by simp)]
    simp only [ht, if_true, hq]
    rw [if_neg (by omega), b1]
    simp only
    rw [if_pos (by omega), a1]
  · simp only; omega

/-- An unsupported pair of types is refused with a data-type error, but a (zeroed) array is
returned as well, not NULL. -/
theorem C58_unsupported_returns_array {α : Type} (cast : α → α) (z : α) (h : Heap) (ok : Bool)
    (src : Mem) (s : Store α) (t : MemType) (hc : src.queryCContiguous = true)
    (ht : ¬ PrecisionPair src.type t) :
    ∃ m v, convertPrecision cast z h ok src s t .success = some (some (m, v), .dataType) := by
  rw [← convertible_iff] at ht
  unfold convertPrecision
  rw [if_neg (by simp), hc, if_neg (by simp)]
  simp only [ht]
  exact ⟨_, _, rfl⟩

/-- If the allocation of the result fails, the conversion stores through a NULL pointer. -/
theorem C58_alloc_failure_false :
    ∃ (h : Heap) (src : Mem) (s : Store Int), src.queryCContiguous = true ∧
      PrecisionPair src.type .float ∧
      (convertPrecision id 0 h false src s .float .success).isNone = true :=
  ⟨⟨0, fun _ => none⟩, (createWrapper (some ⟨0, 0⟩) .double .cpu [2] none .success).1,
    ⟨2, fun _ => 1⟩, rfl, .realDown, rfl⟩

/-- Non-vacuity for C58: a 2-element double array. -/
example : ∃ src : Mem, src.queryCContiguous = true ∧ src.numElements = src.shape.prod ∧
    src.shape.prod ≠ 0 ∧ PrecisionPair src.type .float :=
  ⟨(createWrapper (some ⟨0, 0⟩) .double .cpu [2] none .success).1, rfl, rfl, by decide, .realDown⟩

end Sdp
