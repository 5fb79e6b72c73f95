import Verif.Mem.Props

/-! # Property theorems C05–C08: copies, checks, views, fills -/

namespace Sdp
open MemSpec

/-- `n` bytes of a block starting at byte `off` (specification helper). -/
def MemSpec.bytesAt (bs : List UInt8) (off : Int) (n : Int) : List UInt8 :=
  (bs.drop off.toNat).take n.toNat

/-! ## C05 — copying an array -/

/-- A copy of a C-contiguous CPU array with at least one element, whose storage
is a live block: succeeds, has the same type, shape and strides, owns a fresh
block, leaves every other block alone, and every element has the same bytes. -/
theorem C05_copy_contiguous_partial (h : Heap) (src : Mem) (p : Ptr) (bs : List UInt8)
    (hsz : 0 < src.type.size) (hne : src.shape ≠ []) (hpos : ∀ n ∈ src.shape, 0 ≤ n)
    (hprod : src.shape.prod ≠ 0)
    (hnum : src.numElements = src.shape.prod) (hloc : src.location = .cpu)
    (hrm : RowMajor src.type.size src.shape src.stride) (hp : src.data = some p)
    (hlive : h.blocks p.block = some bs) (hold : p.block < h.next) (h0 : 0 ≤ p.off)
    (hin : p.off + src.type.size * src.shape.prod ≤ bs.length) :
    ∃ h' m bs', createCopy h true src .cpu .success = .ok (h', m, .success) ∧
      m.type = src.type ∧ m.shape = src.shape ∧ m.stride = src.stride ∧
      m.isOwner = true ∧ m.data = some ⟨h.next, 0⟩ ∧
      (∀ b, b ≠ h.next → h'.blocks b = h.blocks b) ∧
      h'.blocks h.next = some bs' ∧ (bs'.length : Int) = src.type.size * src.shape.prod ∧
      ∀ idx, InRange idx src.shape →
        bytesAt bs' (byteAddr idx m.stride) src.type.size =
        bytesAt bs (p.off + byteAddr idx src.stride) src.type.size := by
  have hv : src.type ≠ .void := by intro e; rw [e] at hsz; simp [MemType.size] at hsz
  have hnn : 0 ≤ src.shape.prod := prod_nonneg' _ hpos
  have hpp : 0 < src.shape.prod := by omega
  have hbytes : 0 < src.shape.prod * src.type.size := mul_pos hpp hsz
  set N := (src.shape.prod * src.type.size).toNat with hN
  have hNc : (N : Int) = src.shape.prod * src.type.size := Int.toNat_of_nonneg hbytes.le
  have hNc' : (src.type.size * src.shape.prod).toNat = N := by rw [mul_comm]
  -- the wrapper
  have hw : createWrapper none src.type .cpu src.shape (some src.stride) .success =
      ({ type := src.type, location := .cpu,
         isCContiguous := (contiguityLoop src.type.size src.shape src.stride).1,
         isOwner := false, isReadOnly := false, numDims := src.shape.length,
         numElements := src.shape.prod, refCount := 1, shape := src.shape,
         stride := src.stride, data := none }, .success) := by
    unfold createWrapper
    dsimp only
    rw [if_neg hv, if_neg (by omega), if_neg hne, numElementsLoop_eq]
  set bs' := bytesAt bs p.off N with hbs'
  have hbl : bs'.length = N := by
    simp only [hbs', bytesAt, List.length_take, List.length_drop, Int.toNat_natCast]
    have : (p.off.toNat : Int) = p.off := Int.toNat_of_nonneg h0
    have h3 : p.off + (N : Int) ≤ bs.length := by rw [hNc, mul_comm]; exact hin
    omega
  refine ⟨⟨h.next + 1, fun b => if b = h.next then some bs' else h.blocks b⟩,
    { type := src.type, location := .cpu,
      isCContiguous := (contiguityLoop src.type.size src.shape src.stride).1,
      isOwner := true, isReadOnly := false, numDims := src.shape.length,
      numElements := src.shape.prod, refCount := 1, shape := src.shape,
      stride := src.stride, data := some ⟨h.next, 0⟩ }, bs', ?_,
    rfl, rfl, rfl, rfl, rfl, ?_, ?_, ?_, ?_⟩
  · unfold createCopy
    dsimp only
    rw [hw]
    have hal : memAlloc h true
       { type := src.type, location := MemLocation.cpu,
         isCContiguous := (contiguityLoop src.type.size src.shape src.stride).1,
         isOwner := false, isReadOnly := false, numDims := src.shape.length,
         numElements := src.shape.prod, refCount := 1, shape := src.shape,
         stride := src.stride, data := none } .success =
        ({ (h.set h.next (some (List.replicate N 0))) with next := h.next + 1 },
         { type := src.type, location := .cpu,
           isCContiguous := (contiguityLoop src.type.size src.shape src.stride).1,
           isOwner := true, isReadOnly := false, numDims := src.shape.length,
           numElements := src.shape.prod, refCount := 1, shape := src.shape,
           stride := src.stride, data := some ⟨h.next, 0⟩ }, .success) := by
      unfold memAlloc
      dsimp only
      rw [if_neg (by simp; omega)]
      rfl
    rw [hal]
    dsimp only
    unfold copyContents
    simp only [hp, hloc, hnum]
    rw [if_neg (by simp), if_neg (by simp [hprod]), if_pos ⟨trivial, trivial⟩,
      if_neg (by omega)]
    have hm : memcpyHeap { (h.set h.next (some (List.replicate N 0))) with next := h.next + 1 }
        ⟨h.next, 0 + src.type.size * 0⟩ ⟨p.block, p.off + src.type.size * 0⟩
        (src.type.size * src.shape.prod).toNat =
        .ok ⟨h.next + 1, fun b => if b = h.next then some bs' else h.blocks b⟩ := by
      unfold memcpyHeap
      have hb1 : ((h.set h.next (some (List.replicate N 0))).blocks h.next) = some (List.replicate N 0) := by simp [Heap.set]
      have hb2 : ((h.set h.next (some (List.replicate N 0))).blocks p.block) = some bs := by
        simp only [Heap.set]; rw [if_neg (by omega)]; exact hlive
      simp only [hb1, hb2, mul_zero, add_zero, hNc']
      rw [if_pos]
      · congr 1
        simp only [Heap.set, Heap.mk.injEq, true_and]
        funext b
        by_cases hb : b = h.next
        · simp only [hb, if_true]
          simp [hbs', bytesAt]
        · simp [hb]
      · refine ⟨le_refl _, by simp, h0, ?_, ?_⟩
        · rw [hNc, mul_comm]; exact hin
        · intro he; omega
    rw [hm]
  · intro b hb; simp [hb]
  · simp
  · rw [hbl, hNc, mul_comm]
  · intro idx hi
    dsimp only
    have hb := byteAddr_rowMajor _ _ _ _ hrm hi.length
    have hf := flatIndex_bounds hi
    have ha0 : 0 ≤ byteAddr idx src.stride := by rw [hb]; exact mul_nonneg hsz.le hf.1
    have ha1 : byteAddr idx src.stride + src.type.size ≤ N := by
      have : src.type.size * (flatIndex idx src.shape + 1) ≤ src.type.size * src.shape.prod :=
        mul_le_mul_of_nonneg_left (by omega) hsz.le
      rw [hb, hNc]; linarith
    simp only [hbs', bytesAt, Int.toNat_natCast]
    rw [List.drop_take, List.take_take, List.drop_drop]
    congr 1
    · omega
    · congr 1; omega

/-- Non-vacuity of the hypotheses: a 2×2 int array inside a 20-byte block. -/
example : ∃ (h : Heap) (src : Mem) (p : Ptr) (bs : List UInt8),
    0 < src.type.size ∧ src.shape ≠ [] ∧ src.shape.prod ≠ 0 ∧
    RowMajor src.type.size src.shape src.stride ∧ src.data = some p ∧
    h.blocks p.block = some bs ∧ p.off + src.type.size * src.shape.prod ≤ bs.length := by
  refine ⟨⟨1, fun b => if b = 0 then some (List.replicate 20 7) else none⟩,
    (createWrapper (some ⟨0, 4⟩) .int .cpu [2, 2] none .success).1, ⟨0, 4⟩, _,
    by decide, by decide, by decide, ?_, rfl, rfl, by decide⟩
  exact rowMajor_default 4 [2, 2]

/-- The code violates C05 for strided sources: the copy of a live two-element
strided array reports success, but its second element lies outside the storage
allocated for the copy. -/
theorem C05_copy_strided_false :
    ∃ (h h' : Heap) (src m : Mem) (bs bs' : List UInt8) (q : Ptr) (idx : List Int),
      src = (createWrapper (some ⟨0, 0⟩) .char .cpu [2] (some [2]) .success).1 ∧
      h.blocks 0 = some bs ∧ (∀ i, InRange i src.shape →
        0 ≤ byteAddr i src.stride ∧ byteAddr i src.stride + 1 ≤ bs.length) ∧
      createCopy h true src .cpu .success = .ok (h', m, .success) ∧
      m.shape = src.shape ∧ InRange idx m.shape ∧ m.data = some q ∧
      h'.blocks q.block = some bs' ∧ (bs'.length : Int) < q.off + byteAddr idx m.stride + 1 := by
  refine ⟨⟨1, fun b => if b = 0 then some [1, 2, 3] else none⟩, _, _, _, [1, 2, 3], _, _, [1],
    rfl, rfl, ?_, rfl, rfl, ?_, rfl, rfl, by decide⟩
  · intro i hi
    have hs : (createWrapper (some ⟨0, 0⟩) .char .cpu [2] (some [2]) .success).1.shape = [2] := rfl
    have ht : (createWrapper (some ⟨0, 0⟩) .char .cpu [2] (some [2]) .success).1.stride = [2] := rfl
    rw [hs] at hi
    rw [ht]
    cases hi with
    | cons h1 h2 => cases h2; simp [byteAddr]; omega
  · show InRange [1] [2]
    simp [InRange]

/-! ## C06 — parameter checks -/

/-- The array checks of the API. -/
inductive Check where
  | writeable (m : Mem)
  | contiguous (m : Mem)
  | location (m : Mem) (l : MemLocation)
  | numDims (m : Mem) (n : Int)
  | dimSize (m : Mem) (dim size : Int)
  | shapeDim (m : Mem) (dim size : Int)
  | shape (m : Mem) (expected : List Int)
  | sameShape (m : Mem) (dim : Int) (m2 : Mem) (dim2 : Int)
  | type (m : Mem) (t : MemType)

/-- Running one check. -/
def Check.run : Check → Status → Status
  | .writeable m => checkWriteable m
  | .contiguous m => checkCContiguity m
  | .location m l => checkLocation m l
  | .numDims m n => checkNumDims m n
  | .dimSize m d s => checkDimSize m d s
  | .shapeDim m d s => checkShapeDim m d s
  | .shape m e => checkShape m e
  | .sameShape m d m2 d2 => checkSameShape m d m2 d2
  | .type m t => checkType m t

/-- What each check is documented to establish. -/
def Check.Holds : Check → Prop
  | .writeable m => m.data ≠ none ∧ m.isReadOnly = false
  | .contiguous m => m.data ≠ none ∧ m.isCContiguous = true
  | .location m l => m.location = l
  | .numDims m n => (m.numDims : Int) = n
  | .dimSize m d s => m.shapeDim d = s
  | .shapeDim m d s => d < m.numDims ∧ m.shapeDim d = s
  | .shape m e => m.numDims = e.length ∧ ∀ d : Nat, d < e.length → m.shapeDim d = e.getD d 0
  | .sameShape m d m2 d2 => d < m.numDims → d2 < m2.numDims → m.shapeDim d = m2.shapeDim d2
  | .type m t => m.type = t

/-- Whether the check is the same-shape check. -/
def Check.isSameShape : Check → Bool
  | .sameShape .. => true
  | _ => false

theorem checkShape_fold (m : Mem) (e : List Int) (ds : List Nat) (st : Status) :
    ds.foldl (fun st (d : Nat) => checkShapeDim m (d : Int) (e.getD d 0) st) st = .success ↔
      st = .success ∧ ∀ d ∈ ds, (d : Int) < m.numDims ∧ m.shapeDim d = e.getD d 0 := by
  induction ds generalizing st with
  | nil => simp
  | cons d ds ih =>
    rw [List.foldl_cons, ih]
    simp only [checkShapeDim, List.mem_cons, forall_eq_or_imp]
    by_cases h1 : st = .success
    · subst h1
      by_cases h2 : (m.numDims : Int) ≤ d
      · simp [h2]; intro h; omega
      · by_cases h3 : m.shapeDim d = e.getD d 0
        · simp only [h3, ne_eq, not_true_eq_false, if_false, h2, true_and, and_true]
          constructor
          · intro h; exact ⟨by omega, h⟩
          · intro h; exact h.2
        · simp only [ne_eq, not_true_eq_false, if_false, h2, h3, not_false_eq_true, if_true]
          simp
    · simp [h1]

theorem Check.run_success_iff (c : Check) (st : Status) :
    c.run st = .success ↔ st = .success ∧ c.Holds := by
  by_cases hst : st = .success
  · subst hst
    cases c with
    | writeable m =>
      cases hd : m.data <;> cases hr : m.isReadOnly <;>
        simp [Check.run, Check.Holds, checkWriteable, Mem.queryReadOnly, hd, hr]
    | contiguous m =>
      cases hd : m.data <;> cases hr : m.isCContiguous <;>
        simp [Check.run, Check.Holds, checkCContiguity, Mem.queryCContiguous, hd, hr]
    | location m l => simp [Check.run, Check.Holds, checkLocation]
    | numDims m n => simp [Check.run, Check.Holds, checkNumDims]
    | dimSize m d s => simp [Check.run, Check.Holds, checkDimSize]
    | shapeDim m d s =>
      simp only [Check.run, Check.Holds, checkShapeDim]
      by_cases h2 : (m.numDims : Int) ≤ d
      · simp [h2]
      · by_cases h3 : m.shapeDim d = s
        · simp [h2, h3]; omega
        · simp [h2, h3]
    | shape m e =>
      simp only [Check.run, Check.Holds, checkShape]
      by_cases h : m.numDims = e.length
      · simp only [ne_eq, not_true_eq_false, if_false, h, true_and]
        rw [checkShape_fold]
        simp only [List.mem_range, true_and]
        constructor
        · intro hh d hd; exact (hh d hd).2
        · intro hh d hd; exact ⟨by omega, hh d hd⟩
      · simp [h]
    | sameShape m d m2 d2 =>
      simp only [Check.run, Check.Holds, checkSameShape]
      by_cases h1 : d < m.numDims <;> by_cases h2 : d2 < m2.numDims <;>
        by_cases h3 : m.shapeDim d = m2.shapeDim d2 <;> simp [h1, h2, h3]
    | type m t => simp [Check.run, Check.Holds, checkType]
  · cases c with
    | sameShape m d m2 d2 =>
      simp only [Check.run, checkSameShape]
      split <;> simp [hst]
    | _ => simp [Check.run, checkWriteable, checkCContiguity, checkLocation, checkNumDims,
        checkDimSize, checkShapeDim, checkShape, checkType, hst]

/-- C06, second half: after any sequence of checks, success means exactly that
the incoming status was success and every checked condition holds; in
particular no check ever clears an error. -/
theorem C06_success_iff_all_hold (cs : List Check) (st : Status) :
    cs.foldl (fun s c => c.run s) st = .success ↔ st = .success ∧ ∀ c ∈ cs, c.Holds := by
  induction cs generalizing st with
  | nil => simp
  | cons c cs ih =>
    rw [List.foldl_cons, ih, Check.run_success_iff]
    simp [and_assoc]

/-- C06, first half, for sequences without the same-shape check: an earlier
error code comes out unchanged. -/
theorem C06_error_preserved_partial (cs : List Check) (st : Status) (hst : st ≠ .success)
    (hno : ∀ c ∈ cs, c.isSameShape = false) :
    cs.foldl (fun s c => c.run s) st = st := by
  induction cs with
  | nil => rfl
  | cons c cs ih =>
    have h1 : c.run st = st := by
      have := hno c (by simp)
      cases c <;> simp_all [Check.run, Check.isSameShape, checkWriteable, checkCContiguity,
        checkLocation, checkNumDims, checkDimSize, checkShapeDim, checkShape, checkType]
    rw [List.foldl_cons, h1]
    exact ih fun c hc => hno c (by simp [hc])

/-- The same-shape check violates the first half of C06: a data-type error is
replaced by an invalid-argument error. -/
theorem C06_error_preserved_false :
    ∃ (cs : List Check) (st : Status), st ≠ .success ∧
      cs.foldl (fun s c => c.run s) st ≠ st :=
  ⟨[.sameShape (createWrapper (some ⟨0, 0⟩) .int .cpu [2] none .success).1 0
      (createWrapper (some ⟨0, 0⟩) .int .cpu [3] none .success).1 0], .dataType,
    by decide, by decide⟩

example : (∀ c ∈ [Check.numDims (createWrapper (some ⟨0, 0⟩) .int .cpu [2] none .success).1 1,
    Check.type (createWrapper (some ⟨0, 0⟩) .int .cpu [2] none .success).1 .int], c.Holds) := by
  intro c hc
  simp at hc
  rcases hc with rfl | rfl
  · show ((1 : Nat) : Int) = 1; rfl
  · show MemType.int = MemType.int; rfl

/-! ## C07 — views -/

theorem view_status (m : Mem) (t : MemType) (n : Nat) (l : MemLocation) (st : Status) :
    (checkAndView m t n l st).2 = .success ↔
      st = .success ∧ m.type = t ∧ m.numDims = n ∧ m.location = l ∧ m.data ≠ none ∧
        m.isReadOnly = false := by
  have := C06_success_iff_all_hold [.type m t, .numDims m n, .location m l, .writeable m] st
  simp only [List.foldl_cons, List.foldl_nil, Check.run] at this
  simp only [checkAndView, this]
  simp [Check.Holds]

theorem viewConst_status (m : Mem) (t : MemType) (n : Nat) (l : MemLocation) (st : Status) :
    (checkAndViewConst m t n l st).2 = .success ↔
      st = .success ∧ m.type = t ∧ m.numDims = n ∧ m.location = l := by
  have := C06_success_iff_all_hold [.type m t, .numDims m n, .location m l] st
  simp only [List.foldl_cons, List.foldl_nil, Check.run] at this
  simp only [checkAndViewConst, this]
  simp [Check.Holds]

theorem mkView_success_shape (m : Mem) (hs : m.numDims = m.shape.length) :
    (mkView m m.numDims .success).shape = m.shape := by
  apply List.ext_getElem
  · simp [mkView, hs]
  · intro i h1 h2
    simp only [mkView, ne_eq, not_true_eq_false, if_false, List.getElem_map,
      List.getElem_range, Mem.shapeDim]
    rw [if_neg (by omega)]
    simp [List.getD_eq_getElem?_getD, List.getElem?_eq_getElem h2]

theorem mkView_success_stride (m : Mem) (hs : m.numDims = m.stride.length)
    (hz : 0 < m.type.size) :
    (mkView m m.numDims .success).stride = m.stride.map fun s => Int.tdiv s m.type.size := by
  apply List.ext_getElem
  · simp [mkView, hs]
  · intro i h1 h2
    have h2' : i < m.stride.length := by simpa using h2
    simp only [mkView, ne_eq, not_true_eq_false, if_false, List.getElem_map,
      List.getElem_range, Mem.strideElementsDim, Mem.strideBytesDim]
    rw [if_pos hz, if_neg (by omega)]
    simp [List.getD_eq_getElem?_getD, List.getElem?_eq_getElem h2']

theorem dot_tdiv (e : Int) (he : 0 < e) (s idx : List Int) (hd : ∀ x ∈ s, e ∣ x) :
    e * dot idx (s.map fun x => Int.tdiv x e) = dot idx s := by
  induction s generalizing idx with
  | nil => cases idx <;> simp [dot]
  | cons a s ih =>
    cases idx with
    | nil => simp [dot]
    | cons i idx =>
      obtain ⟨q, hq⟩ := hd a (by simp)
      have : Int.tdiv a e = q := by rw [hq]; exact Int.mul_tdiv_cancel_left q he.ne'
      simp only [List.map_cons, dot, this]
      rw [mul_add, ih idx fun x hx => hd x (by simp [hx]), hq]; ring

/-- C07 for writeable views: the status is success exactly when the incoming
status was and type, rank, location and writability match; then the view has the
array's pointer and shape, and (strides being whole elements) addresses exactly
the array's bytes; otherwise every dimension of the view is zero, so that there
is no index to visit (rank ≥ 1). -/
theorem C07_view_partial (m : Mem) (t : MemType) (n : Nat) (l : MemLocation) (st : Status)
    (hz : 0 < m.type.size) (hs : m.numDims = m.shape.length)
    (hs' : m.numDims = m.stride.length) :
    let r := checkAndView m t n l st
    (r.2 = .success ↔ st = .success ∧ m.type = t ∧ m.numDims = n ∧ m.location = l ∧
      m.data ≠ none ∧ m.isReadOnly = false) ∧
    (r.2 = .success → r.1.ptr = m.data ∧ r.1.shape = m.shape ∧
      ((∀ s ∈ m.stride, m.type.size ∣ s) →
        ∀ idx, r.1.byteOffset m.type.size idx = byteAddr idx m.stride)) ∧
    (r.2 ≠ .success → r.1.shape = List.replicate n 0 ∧
      (0 < n → ∀ idx, ¬ InRange idx r.1.shape)) := by
  intro r
  refine ⟨view_status m t n l st, fun h => ?_, fun h => ?_⟩
  · have hn : m.numDims = n := ((view_status m t n l st).1 h).2.2.1
    have hr : r.1 = mkView m m.numDims .success := by
      show mkView m n r.2 = _
      rw [h, hn]
    rw [hr]
    refine ⟨rfl, mkView_success_shape m hs, fun hd idx => ?_⟩
    unfold View.byteOffset
    rw [mkView_success_stride m hs' hz, dot_tdiv _ hz _ _ hd, dot_eq_byteAddr]
  · have hr : r.1 = mkView m n r.2 := rfl
    have hshape : r.1.shape = List.replicate n 0 := by
      rw [hr]
      simp only [mkView, ne_eq, h, not_false_eq_true, if_true]
      simp
    refine ⟨hshape, fun hn idx hi => ?_⟩
    rw [hshape] at hi
    cases n with
    | zero => omega
    | succ n =>
      rw [List.replicate_succ] at hi
      cases hi with
      | cons h1 _ => omega

/-- C07 for const views (no writability requirement). -/
theorem C07_const_view_partial (m : Mem) (t : MemType) (n : Nat) (l : MemLocation) (st : Status)
    (hz : 0 < m.type.size) (hs : m.numDims = m.shape.length)
    (hs' : m.numDims = m.stride.length) :
    let r := checkAndViewConst m t n l st
    (r.2 = .success ↔ st = .success ∧ m.type = t ∧ m.numDims = n ∧ m.location = l) ∧
    (r.2 = .success → r.1.ptr = m.data ∧ r.1.shape = m.shape ∧
      ((∀ s ∈ m.stride, m.type.size ∣ s) →
        ∀ idx, r.1.byteOffset m.type.size idx = byteAddr idx m.stride)) ∧
    (r.2 ≠ .success → r.1.shape = List.replicate n 0) := by
  intro r
  refine ⟨viewConst_status m t n l st, fun h => ?_, fun h => ?_⟩
  · have hn : m.numDims = n := ((viewConst_status m t n l st).1 h).2.2.1
    have hr : r.1 = mkView m m.numDims .success := by
      show mkView m n r.2 = _
      rw [h, hn]
    rw [hr]
    refine ⟨rfl, mkView_success_shape m hs, fun hd idx => ?_⟩
    unfold View.byteOffset
    rw [mkView_success_stride m hs' hz, dot_tdiv _ hz _ _ hd, dot_eq_byteAddr]
  · have hr : r.1 = mkView m n r.2 := rfl
    rw [hr]
    simp only [mkView, ne_eq, h, not_false_eq_true, if_true]
    simp

/-- Without whole-element strides the address claim of C07 is false of the code:
a float array with a 6-byte stride is viewed with a 4-byte stride. -/
theorem C07_view_stride_false :
    ∃ (m : Mem) (v : View) (idx : List Int),
      m = (createWrapper (some ⟨0, 0⟩) .float .cpu [3] (some [6]) .success).1 ∧
      checkAndView m .float 1 .cpu .success = (v, .success) ∧ InRange idx m.shape ∧
      v.byteOffset m.type.size idx ≠ byteAddr idx m.stride := by
  refine ⟨_, _, [1], rfl, rfl, ?_, by decide⟩
  show InRange [1] [3]
  simp [InRange]

/-- Any array with zero elements has no storage and is therefore reported
read-only, so a writeable view of it is refused (a corner of C07). -/
theorem C07_empty_array_refused (h : Heap) (ok : Bool) (t : MemType) (shape : List Int)
    (hz : shape.prod = 0) (hsz : 0 < t.size) (n : Nat) :
    (checkAndView (memCreate h ok t .cpu shape .success).2.1 t n .cpu .success).2
      ≠ .success := by
  rw [ne_eq, view_status]
  have hv : t ≠ .void := by rintro rfl; simp [MemType.size] at hsz
  have f := createWrapper_facts none t .cpu shape none .success
  have key : (createWrapper none t .cpu shape none .success).1.numElements = 0 := by
    unfold createWrapper
    dsimp only
    rw [if_neg hv, if_neg (by omega)]
    split
    · rename_i he; subst he; simp at hz
    · simp [numElementsLoop_eq, hz]
  have : (memCreate h ok t .cpu shape .success).2.1.data = none := by
    simp only [memCreate, memAlloc, key]
    rw [if_pos (Or.inr (by simp))]
    exact f.2.2.2
  rw [this]; simp

/-! ## C08 — clear, copy, fill: exact footprints -/

theorem bytes_splice_get (bd mid : List UInt8) (d n : Nat) (hn : mid.length = n)
    (hd : d + n ≤ bd.length) (i : Nat) :
    (bd.take d ++ mid ++ bd.drop (d + n))[i]? =
      if d ≤ i ∧ i < d + n then mid[i - d]? else bd[i]? := by
  have h1 : (bd.take d).length = d := by simp; omega
  by_cases ha : i < d
  · rw [if_neg (by omega), List.append_assoc, List.getElem?_append_left (by omega),
      List.getElem?_take_of_lt ha]
  · by_cases hb : i < d + n
    · rw [if_pos (by omega), List.append_assoc, List.getElem?_append_right (by omega),
        List.getElem?_append_left (by omega), h1]
    · rw [if_neg (by omega), List.getElem?_append_right (by simp; omega)]
      simp only [List.length_append, h1, hn, List.getElem?_drop]
      congr 1; omega

/-- Clearing elements `[start, start+n)` of an array whose storage is block `p`:
exactly those bytes become zero; every other byte of every block is unchanged;
the access is defined exactly when the byte range is inside the block. -/
theorem C08_clear_portion (h : Heap) (m : Mem) (p : Ptr) (bs : List UInt8) (start n : Int)
    (hn : 0 < n) (hs : 0 ≤ start) (hloc : m.location = .cpu) (hp : m.data = some p)
    (hlive : h.blocks p.block = some bs) (h0 : 0 ≤ p.off)
    (hin : p.off + (start + n) * m.type.size ≤ bs.length) (hz : 0 < m.type.size) :
    ∃ h' bs', clearPortion h m start n .success = .ok (h', .success) ∧
      h'.blocks p.block = some bs' ∧ (∀ b, b ≠ p.block → h'.blocks b = h.blocks b) ∧
      bs'.length = bs.length ∧
      ∀ i : Nat, i < bs.length → bs'[i]? =
        if p.off + start * m.type.size ≤ i ∧ (i : Int) < p.off + (start + n) * m.type.size
        then some 0 else bs[i]? := by
  have hnz : 0 < n * m.type.size := mul_pos hn hz
  have hsz : 0 ≤ start * m.type.size := mul_nonneg hs hz.le
  have hexp : (start + n) * m.type.size = start * m.type.size + n * m.type.size := by ring
  have c1 : ((n * m.type.size).toNat : Int) = n * m.type.size := Int.toNat_of_nonneg hnz.le
  set N := (n * m.type.size).toNat
  set d := (p.off + start * m.type.size).toNat with hd
  have c2 : (d : Int) = p.off + start * m.type.size := Int.toNat_of_nonneg (by omega)
  have hdN : d + N ≤ bs.length := by omega
  refine ⟨h.set p.block (some (bs.take d ++ List.replicate N 0 ++ bs.drop (d + N))),
    bs.take d ++ List.replicate N 0 ++ bs.drop (d + N), ?_,
    by simp [Heap.set], ?_, ?_, ?_⟩
  · unfold clearPortion
    rw [if_neg (by simp; omega)]
    simp only [hloc, hp]
    rw [if_neg (by omega)]
    have : memsetZero h ⟨p.block, p.off + start * m.type.size⟩ N =
        .ok (h.set p.block (some (bs.take d ++ List.replicate N 0 ++ bs.drop (d + N)))) := by
      unfold memsetZero
      simp only [hlive]
      rw [if_pos]
      constructor <;> omega
    rw [this]
  · intro b hb; simp [Heap.set, hb]
  · simp; omega
  · intro i hi
    rw [bytes_splice_get _ _ _ _ (by simp) hdN]
    by_cases hc : d ≤ i ∧ i < d + N
    · rw [if_pos hc, if_pos (by omega), List.getElem?_replicate, if_pos (by omega)]
    · rw [if_neg hc, if_neg (by omega)]

/-- Copying `n` elements between arrays stored in different blocks: destination
bytes of elements `[offDst, offDst+n)` become the source bytes of
`[offSrc, offSrc+n)`; nothing else changes. -/
theorem C08_copy_contents (h : Heap) (dst src : Mem) (pd ps : Ptr) (bd bs : List UInt8)
    (offDst offSrc n : Int) (hn : 0 < n) (ho : 0 ≤ offDst) (ho' : 0 ≤ offSrc)
    (hl : dst.location = .cpu) (hl' : src.location = .cpu)
    (hpd : dst.data = some pd) (hps : src.data = some ps) (hblk : pd.block ≠ ps.block)
    (hd : h.blocks pd.block = some bd) (hs : h.blocks ps.block = some bs)
    (h0 : 0 ≤ pd.off) (h0' : 0 ≤ ps.off) (hz : 0 < src.type.size)
    (hne : src.numElements ≠ 0)
    (hind : pd.off + src.type.size * (offDst + n) ≤ bd.length)
    (hins : ps.off + src.type.size * (offSrc + n) ≤ bs.length) :
    ∃ h' bd', copyContents h dst src offDst offSrc n .success = .ok (h', .success) ∧
      h'.blocks pd.block = some bd' ∧ (∀ b, b ≠ pd.block → h'.blocks b = h.blocks b) ∧
      bd'.length = bd.length ∧
      (∀ i : Nat, i < bd.length →
        ¬ (pd.off + src.type.size * offDst ≤ i ∧
           (i : Int) < pd.off + src.type.size * (offDst + n)) → bd'[i]? = bd[i]?) ∧
      ∀ j : Nat, (j : Int) < src.type.size * n →
        bd'[(pd.off + src.type.size * offDst).toNat + j]? =
        bs[(ps.off + src.type.size * offSrc).toNat + j]? := by
  have hN : 0 < src.type.size * n := mul_pos hz hn
  have e1 : src.type.size * (offDst + n) = src.type.size * offDst + src.type.size * n := by ring
  have e2 : src.type.size * (offSrc + n) = src.type.size * offSrc + src.type.size * n := by ring
  have p1 : 0 ≤ src.type.size * offDst := mul_nonneg hz.le ho
  have p2 : 0 ≤ src.type.size * offSrc := mul_nonneg hz.le ho'
  have c1 : ((src.type.size * n).toNat : Int) = src.type.size * n := Int.toNat_of_nonneg hN.le
  set N := (src.type.size * n).toNat
  set d := (pd.off + src.type.size * offDst).toNat with hdd
  set s := (ps.off + src.type.size * offSrc).toNat with hss
  have c2 : (d : Int) = pd.off + src.type.size * offDst := Int.toNat_of_nonneg (by omega)
  have c3 : (s : Int) = ps.off + src.type.size * offSrc := Int.toNat_of_nonneg (by omega)
  have hml : ((bs.drop s).take N).length = N := by simp; omega
  have hdN : d + N ≤ bd.length := by omega
  refine ⟨h.set pd.block (some (bd.take d ++ (bs.drop s).take N ++ bd.drop (d + N))),
    bd.take d ++ (bs.drop s).take N ++ bd.drop (d + N), ?_,
    by simp [Heap.set], ?_, ?_, ?_, ?_⟩
  · unfold copyContents
    simp only [hpd, hps]
    rw [if_neg (by simp), if_neg (by simp [hne]; omega), if_pos ⟨hl', hl⟩, if_neg (by omega)]
    have : memcpyHeap h ⟨pd.block, pd.off + src.type.size * offDst⟩
        ⟨ps.block, ps.off + src.type.size * offSrc⟩ N =
        .ok (h.set pd.block (some (bd.take d ++ (bs.drop s).take N ++ bd.drop (d + N)))) := by
      unfold memcpyHeap
      simp only [hd, hs]
      rw [if_pos]
      refine ⟨by omega, by omega, by omega, by omega, fun he => absurd he hblk⟩
    rw [this]
  · intro b hb; simp [Heap.set, hb]
  · simp; omega
  · intro i hi hc
    rw [bytes_splice_get _ _ _ _ hml hdN, if_neg (by omega)]
  · intro j hj
    rw [bytes_splice_get _ _ _ _ hml hdN, if_pos (by omega)]
    rw [show d + j - d = j by omega, List.getElem?_take_of_lt (by omega), List.getElem?_drop]

theorem mem_allIndices (shape idx : List Int) :
    idx ∈ allIndices shape ↔ InRange idx shape := by
  induction shape generalizing idx with
  | nil => simp [allIndices, InRange]
  | cons n ns ih =>
    simp only [allIndices, List.mem_flatMap, List.mem_range, List.mem_map]
    constructor
    · rintro ⟨i, hi, t, ht, rfl⟩
      rw [inRange_cons]
      exact ⟨⟨by omega, by omega⟩, (ih t).1 ht⟩
    · intro h
      cases h with
      | @cons i _ t _ h1 h2 =>
        exact ⟨i.toNat, by omega, t, (ih t).2 h2, by congr 1; omega⟩

theorem fold_fill {α : Type} (l : List (List Int)) (mem : Int → α) (base : Int) (s : List Int)
    (v : α) (a : Int) :
    ((∃ idx ∈ l, a = base + dot idx s) →
      l.foldl (fun mm idx => fun a => if a = base + dot idx s then v else mm a) mem a = v) ∧
    ((¬ ∃ idx ∈ l, a = base + dot idx s) →
      l.foldl (fun mm idx => fun a => if a = base + dot idx s then v else mm a) mem a = mem a) := by
  induction l generalizing mem with
  | nil => simp
  | cons x l ih =>
    rw [List.foldl_cons]
    constructor
    · rintro ⟨idx, hm, he⟩
      by_cases hl : ∃ idx ∈ l, a = base + dot idx s
      · exact (ih _).1 hl
      · rw [(ih _).2 hl, if_pos]
        rcases List.mem_cons.1 hm with rfl | hm
        · exact he
        · exact absurd ⟨idx, hm, he⟩ hl
    · intro hn
      have hl : ¬ ∃ idx ∈ l, a = base + dot idx s := by
        rintro ⟨idx, hm, he⟩; exact hn ⟨idx, by simp [hm], he⟩
      rw [(ih _).2 hl, if_neg]
      intro he; exact hn ⟨x, by simp, he⟩

/-- Filling an array with a value: on success exactly the elements reachable
through the shape and (element) strides hold the value, everything else is
unchanged; on failure nothing changes.  Success means rank 1–3, a supported
type, CPU location and writeable storage. -/
theorem C08_set_value {α : Type} (mem : Int → α) (base : Int) (m : Mem) (v : α) (st : Status)
    (hs : m.numDims = m.shape.length) (hs' : m.numDims = m.stride.length)
    (hz : 0 < m.type.size) :
    ((setValue mem base m v st).2 = .success ↔
      st = .success ∧ 1 ≤ m.numDims ∧ m.numDims ≤ 3 ∧ m.type ≠ .char ∧ m.location = .cpu ∧
      m.data ≠ none ∧ m.isReadOnly = false) ∧
    ((setValue mem base m v st).2 = .success → ∀ a,
      ((∃ idx, InRange idx m.shape ∧
          a = base + byteAddr idx (m.stride.map fun s => Int.tdiv s m.type.size)) →
        (setValue mem base m v st).1 a = v) ∧
      ((¬ ∃ idx, InRange idx m.shape ∧
          a = base + byteAddr idx (m.stride.map fun s => Int.tdiv s m.type.size)) →
        (setValue mem base m v st).1 a = mem a)) ∧
    ((setValue mem base m v st).2 ≠ .success → (setValue mem base m v st).1 = mem) := by
  by_cases hst : st = .success
  swap
  · simp [setValue, hst]
  subst hst
  by_cases hn : m.numDims = 1 ∨ m.numDims = 2 ∨ m.numDims = 3
  swap
  · simp only [setValue, ne_eq, not_true_eq_false, if_false, hn]
    simp; omega
  by_cases ht : m.type = .complexDouble ∨ m.type = .complexFloat ∨ m.type = .double ∨
        m.type = .float ∨ m.type = .int
  swap
  · have hc : m.type = .char := by
      cases hm : m.type <;> simp_all [MemType.size]
    simp [setValue, hn, hc]
  have hset : setValue mem base m v .success =
      (fillView mem base (checkAndView m m.type m.numDims .cpu .success).1 v,
       (checkAndView m m.type m.numDims .cpu .success).2) := by
    simp only [setValue, ne_eq, not_true_eq_false, if_false, hn, ht, if_true]
  have hch : m.type ≠ .char := by rcases ht with h | h | h | h | h <;> rw [h] <;> decide
  rw [hset]
  have hvs := view_status m m.type m.numDims .cpu .success
  refine ⟨?_, ?_, ?_⟩
  · dsimp only
    rw [hvs]
    constructor
    · rintro ⟨-, -, -, h1, h2, h3⟩
      exact ⟨rfl, by omega, by omega, hch, h1, h2, h3⟩
    · rintro ⟨-, -, -, -, h1, h2, h3⟩
      exact ⟨rfl, rfl, rfl, h1, h2, h3⟩
  · intro h a
    have hr : (checkAndView m m.type m.numDims .cpu .success).1 =
        mkView m m.numDims .success := by
      show mkView m m.numDims (checkAndView m m.type m.numDims .cpu .success).2 = _
      rw [h]
    dsimp only
    rw [hr]
    unfold fillView
    rw [mkView_success_shape m hs, mkView_success_stride m hs' hz]
    have := fold_fill (allIndices m.shape) mem base
      (m.stride.map fun s => Int.tdiv s m.type.size) v a
    simp only [mem_allIndices, dot_eq_byteAddr] at this
    simp only [dot_eq_byteAddr]
    exact this
  · intro h
    have hr : (checkAndView m m.type m.numDims .cpu .success).1 =
        mkView m m.numDims (checkAndView m m.type m.numDims .cpu .success).2 := rfl
    dsimp only at h ⊢
    rw [hr]
    have hsh : (mkView m m.numDims (checkAndView m m.type m.numDims .cpu .success).2).shape =
        List.replicate m.numDims 0 := by
      simp only [mkView, ne_eq, h, not_false_eq_true, if_true]
      simp
    unfold fillView
    rw [hsh]
    rcases hn with h | h | h <;> rw [h] <;> rfl

/-- Non-vacuity for C08: a writable 2×2 double array is filled successfully. -/
example : (setValue (fun _ => (0 : Int)) 0
    (createWrapper (some ⟨0, 0⟩) .double .cpu [2, 2] none .success).1 7 .success).2
    = .success := by decide

end Sdp
