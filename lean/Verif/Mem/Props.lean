import Verif.Mem.Lemmas
import Verif.Mem.SessionLemmas

/-! # Property theorems C01–C08: arrays -/

namespace Sdp
open MemSpec

/-! ## C01 — allocation layout -/

/-- Creating an array (CPU, allocation succeeds): element count, row-major
strides, zero-filled storage of exactly the right size, all elements inside it,
distinct elements on disjoint bytes, and no gaps. -/
theorem C01_create_layout (h : Heap) (type : MemType) (shape : List Int)
    (hsz : 0 < type.size) (hpos : ∀ n ∈ shape, 0 ≤ n) :
    let r := memCreate h true type .cpu shape .success
    let m := r.2.1
    r.2.2 = .success ∧ m.type = type ∧ m.location = .cpu ∧
    m.numDims = shape.length ∧ m.shape = shape ∧
    m.numElements = shape.prod ∧
    RowMajor type.size shape m.stride ∧
    (shape.prod ≠ 0 → ∃ bytes, m.data = some ⟨h.next, 0⟩ ∧
      r.1.blocks h.next = some bytes ∧ (bytes.length : Int) = type.size * shape.prod ∧
      (∀ b ∈ bytes, b = 0) ∧ ∀ b, b ≠ h.next → r.1.blocks b = h.blocks b) ∧
    (∀ idx, InRange idx shape → 0 ≤ byteAddr idx m.stride ∧
      byteAddr idx m.stride + type.size ≤ type.size * shape.prod) ∧
    (∀ idx idx', InRange idx shape → InRange idx' shape → idx ≠ idx' →
      byteAddr idx m.stride + type.size ≤ byteAddr idx' m.stride ∨
      byteAddr idx' m.stride + type.size ≤ byteAddr idx m.stride) ∧
    (∀ k, 0 ≤ k → k < shape.prod → ∃ idx, InRange idx shape ∧
      byteAddr idx m.stride = type.size * k) := by
  have hv : type ≠ .void := by rintro rfl; simp [MemType.size] at hsz
  -- the descriptor built by the wrapper
  have key : ∃ c, createWrapper none type .cpu shape none .success =
      ({ type := type, location := .cpu, isCContiguous := c, isOwner := false,
         isReadOnly := false, numDims := shape.length, numElements := shape.prod,
         refCount := 1, shape := shape, stride := (defaultStrideLoop type.size shape).2,
         data := none }, .success) := by
    unfold createWrapper
    dsimp only
    rw [if_neg hv, if_neg (by omega)]
    split
    · rename_i he; subst he; exact ⟨false, by simp [defaultStrideLoop]⟩
    · exact ⟨_, by rw [numElementsLoop_eq]⟩
  obtain ⟨c, key⟩ := key
  have hr : ∀ mm : Mem, mm.stride = (defaultStrideLoop type.size shape).2 →
      RowMajor type.size shape mm.stride := fun mm e => by rw [e]; exact rowMajor_default _ _
  have hlay : ∀ stride, RowMajor type.size shape stride →
    (∀ idx, InRange idx shape → 0 ≤ byteAddr idx stride ∧
      byteAddr idx stride + type.size ≤ type.size * shape.prod) ∧
    (∀ idx idx', InRange idx shape → InRange idx' shape → idx ≠ idx' →
      byteAddr idx stride + type.size ≤ byteAddr idx' stride ∨
      byteAddr idx' stride + type.size ≤ byteAddr idx stride) ∧
    (∀ k, 0 ≤ k → k < shape.prod → ∃ idx, InRange idx shape ∧
      byteAddr idx stride = type.size * k) := by
    intro stride hs
    refine ⟨?_, ?_, ?_⟩
    · intro idx hi
      rw [byteAddr_rowMajor _ _ _ _ hs hi.length]
      have b := flatIndex_bounds hi
      constructor
      · exact mul_nonneg hsz.le b.1
      · have : type.size * (flatIndex idx shape + 1) ≤ type.size * shape.prod :=
          mul_le_mul_of_nonneg_left (by omega) hsz.le
        linarith
    · intro idx idx' hi hi' hne
      rw [byteAddr_rowMajor _ _ _ _ hs hi.length, byteAddr_rowMajor _ _ _ _ hs hi'.length]
      have hne' : flatIndex idx shape ≠ flatIndex idx' shape :=
        fun he => hne (flatIndex_inj hi hi' he)
      rcases lt_or_gt_of_ne hne' with hl | hl
      · left
        have : type.size * (flatIndex idx shape + 1) ≤ type.size * flatIndex idx' shape :=
          mul_le_mul_of_nonneg_left (by omega) hsz.le
        linarith
      · right
        have : type.size * (flatIndex idx' shape + 1) ≤ type.size * flatIndex idx shape :=
          mul_le_mul_of_nonneg_left (by omega) hsz.le
        linarith
    · intro k h0 hk
      obtain ⟨idx, hi, he⟩ := flatIndex_surj shape hpos k h0 hk
      exact ⟨idx, hi, by rw [byteAddr_rowMajor _ _ _ _ hs hi.length, he]⟩
  simp only [memCreate, key, memAlloc]
  by_cases hz : shape.prod * type.size = 0
  · have hz' : shape.prod = 0 := by
      rcases mul_eq_zero.1 hz with h | h
      · exact h
      · omega
    rw [if_pos (Or.inr hz)]
    exact ⟨rfl, rfl, rfl, rfl, rfl, rfl, rowMajor_default _ _,
      fun hn => absurd hz' hn, hlay _ (rowMajor_default _ _)⟩
  · rw [if_neg (by simp [hz])]
    refine ⟨rfl, rfl, rfl, rfl, rfl, rfl, rowMajor_default _ _,
      fun _ => ⟨List.replicate (shape.prod * type.size).toNat 0, rfl, ?_, ?_, ?_, ?_⟩,
      hlay _ (rowMajor_default _ _)⟩
    · simp [Heap.set]
    · have : 0 ≤ shape.prod * type.size := mul_nonneg (prod_nonneg' _ hpos) hsz.le
      simp [Int.toNat_of_nonneg this, mul_comm]
    · intro b hb; exact (List.mem_replicate.1 hb).2
    · intro b hb; simp [Heap.set, hb]

/-- Non-vacuity: a 2×3 array of doubles. -/
example : 0 < MemType.double.size ∧ (∀ n ∈ [2, (3 : Int)], 0 ≤ n) ∧
    InRange [1, 2] [2, 3] ∧ InRange [0, 2] [2, 3] ∧ [1, (2 : Int)] ≠ [0, 2] := by
  refine ⟨by decide, by decide, ?_, ?_, by decide⟩ <;> simp [InRange]

/-- If the host allocation fails (non-empty array), the caller sees the
allocation error, no data pointer, and an unchanged heap. -/
theorem C01_alloc_failure (h : Heap) (type : MemType) (shape : List Int)
    (hsz : 0 < type.size) (hne : shape.prod ≠ 0) :
    let r := memCreate h false type .cpu shape .success
    r.2.2 = .memAllocFailure ∧ r.2.1.data = none ∧ r.1 = h := by
  have hv : type ≠ .void := by rintro rfl; simp [MemType.size] at hsz
  have key : (createWrapper none type .cpu shape none .success).1.numElements = shape.prod
      ∧ (createWrapper none type .cpu shape none .success).1.type = type
      ∧ (createWrapper none type .cpu shape none .success).2 = .success := by
    unfold createWrapper
    dsimp only
    rw [if_neg hv, if_neg (by omega)]
    split
    · rename_i he; subst he; simp
    · simp [numElementsLoop_eq]
  have f := createWrapper_facts none type .cpu shape none .success
  simp only [memCreate, memAlloc]
  rw [key.1, key.2.1, key.2.2, f.2.2.1, f.2.2.2]
  rw [if_neg]
  · simp
  · simp only [ne_eq, not_true_eq_false, mul_eq_zero, false_or, not_or]
    exact ⟨hne, by omega⟩

/-! ## C02 — contiguity -/

/-- Wrapping caller memory: the contiguity query is true exactly when there is
data, the rank is at least one and the strides are row-major. -/
theorem C02_contiguity_exact (p : Option Ptr) (type : MemType) (loc : MemLocation)
    (shape stride : List Int) (st : Status) (hsz : 0 < type.size)
    (hlen : stride.length = shape.length) :
    (createWrapper p type loc shape (some stride) st).1.queryCContiguous = true ↔
      p.isSome = true ∧ shape ≠ [] ∧ RowMajor type.size shape stride := by
  have hv : type ≠ .void := by rintro rfl; simp [MemType.size] at hsz
  unfold createWrapper
  dsimp only
  rw [if_neg hv, if_neg (by omega)]
  split
  · rename_i he
    cases p <;> simp [Mem.queryCContiguous, he]
  · rename_i hne
    cases p
    · simp [Mem.queryCContiguous]
    · simp [Mem.queryCContiguous, hne, contiguityLoop_fst _ _ _ hlen]

/-- Hence an array that passes the contiguity check has flat element `k` at byte
`k * size`, for every multi-index. -/
theorem C02_contiguous_flat (p : Option Ptr) (type : MemType) (loc : MemLocation)
    (shape stride : List Int) (st : Status) (hsz : 0 < type.size)
    (hlen : stride.length = shape.length)
    (hc : checkCContiguity (createWrapper p type loc shape (some stride) st).1 .success
      = .success) (idx : List Int) (hi : InRange idx shape) :
    byteAddr idx (createWrapper p type loc shape (some stride) st).1.stride =
      type.size * flatIndex idx shape := by
  have hq : (createWrapper p type loc shape (some stride) st).1.queryCContiguous = true := by
    unfold checkCContiguity at hc
    by_contra h
    simp [h] at hc
  rw [C02_contiguity_exact _ _ _ _ _ _ hsz hlen] at hq
  have : (createWrapper p type loc shape (some stride) st).1.stride = stride := by
    have hv : type ≠ .void := by rintro rfl; simp [MemType.size] at hsz
    unfold createWrapper
    dsimp only
    rw [if_neg hv, if_neg (by omega), if_neg hq.2.1]
  rw [this]
  exact byteAddr_rowMajor _ _ _ _ hq.2.2 hi.length

example : (createWrapper (some ⟨0, 0⟩) .float .cpu [2, 3] (some [12, 4]) .success).1.queryCContiguous
    = true := by decide
example : (createWrapper (some ⟨0, 0⟩) .float .cpu [2, 3] (some [16, 4]) .success).1.queryCContiguous
    = false := by decide

/-! ## C03 — slices -/

/-- Elementwise sum of an offset vector with a (shorter) trailing index. -/
def shiftIndex (offsets idx : List Int) : List Int :=
  List.zipWith (· + ·) offsets (List.replicate (offsets.length - idx.length) 0 ++ idx)

theorem dot_add_pad (o : List Int) : ∀ (s idx : List Int), o.length = s.length →
    idx.length ≤ o.length →
    dot (List.zipWith (· + ·) o (List.replicate (o.length - idx.length) 0 ++ idx)) s =
      dot o s + dot idx (s.drop (o.length - idx.length)) := by
  induction o with
  | nil => intro s idx _ hi; simp at hi; subst hi; simp [dot]
  | cons a o ih =>
    intro s idx hs hi
    cases s with
    | nil => simp at hs
    | cons b s =>
      have hs' : o.length = s.length := by simpa using hs
      by_cases hfull : idx.length = o.length + 1
      · cases idx with
        | nil => simp at hfull
        | cons i idx =>
          have he : idx.length = o.length := by simpa using hfull
          have := ih s idx hs' (by omega)
          simp only [List.length_cons, he, Nat.sub_self, List.replicate_zero,
            List.nil_append, List.zipWith_cons_cons, dot, List.drop_zero] at this ⊢
          rw [this]; ring
      · have hle : idx.length ≤ o.length := by simp at hi; omega
        have e : (a :: o).length - idx.length = (o.length - idx.length) + 1 := by
          simp; omega
        rw [e, List.replicate_succ, List.cons_append, List.zipWith_cons_cons]
        have := ih s idx hs' hle
        simp only [dot, List.drop_succ_cons] at this ⊢
        rw [this]; ring

/-- The outcome of a successful slice of a well-formed array with elements. -/
theorem createSlice_some (src : Mem) (offsets sliceShape : List Int) (st : Status) (m : Mem)
    (h : (createSlice src offsets sliceShape st).1 = some m) :
    sliceShape.length ≤ src.numDims ∧ sliceOffsetsOk offsets src.shape = true ∧
    sliceShapeOk sliceShape (src.shape.drop (src.numDims - sliceShape.length)) = true ∧
    m = (createWrapper (src.data.map fun p => { p with off := p.off + dot offsets src.stride })
        src.type src.location sliceShape
        (some (src.stride.drop (src.numDims - sliceShape.length))) st).1 := by
  unfold createSlice at h
  split at h
  · cases h
  · rename_i h1
    split at h
    · cases h
    · rename_i h2
      dsimp only at h
      split at h
      · cases h
      · rename_i h3
        cases h
        exact ⟨by omega, by simpa using h2, by simpa using h3, rfl⟩

/-- C03, first half: an accepted slice (rank ≥ 1) has the requested shape, and
its element `idx` is the parent's element `offsets + idx` (leading dimensions
fixed at their offset). -/
theorem C03_slice_addresses_partial (src : Mem) (offsets sliceShape : List Int) (st : Status)
    (m : Mem) (hsz : 0 < src.type.size) (hd : src.numDims = src.shape.length)
    (hs : src.stride.length = src.shape.length) (ho : offsets.length = src.shape.length)
    (hne : sliceShape ≠ []) (p : Ptr) (hp : src.data = some p)
    (h : (createSlice src offsets sliceShape st).1 = some m)
    (idx : List Int) (hi : idx.length = sliceShape.length) :
    ∃ q, m.data = some q ∧ q.block = p.block ∧ m.shape = sliceShape ∧ m.type = src.type ∧
      q.off + byteAddr idx m.stride = p.off + byteAddr (shiftIndex offsets idx) src.stride := by
  obtain ⟨h1, h2, h3, h4⟩ := createSlice_some _ _ _ _ _ h
  have hv : src.type ≠ .void := by intro e; rw [e] at hsz; simp [MemType.size] at hsz
  have hm : m.data = some { p with off := p.off + dot offsets src.stride } ∧
      m.shape = sliceShape ∧ m.type = src.type ∧
      m.stride = src.stride.drop (src.numDims - sliceShape.length) := by
    rw [h4, hp]
    unfold createWrapper
    dsimp only
    rw [if_neg hv, if_neg (by omega), if_neg hne]
    simp
  refine ⟨_, hm.1, rfl, hm.2.1, hm.2.2.1, ?_⟩
  rw [hm.2.2.2]
  have := dot_add_pad offsets src.stride idx (by omega) (by omega)
  unfold shiftIndex
  rw [← dot_eq_byteAddr, ← dot_eq_byteAddr, this, hd]
  rw [show offsets.length - idx.length = src.shape.length - sliceShape.length by omega]
  ring

/-- In-range when the window fits: if additionally every trailing dimension
satisfies `offset + extent ≤ parent dimension`, each slice index lands on a
parent index.  The code does not check this hypothesis. -/
theorem C03_slice_inside_partial (src : Mem) (offsets sliceShape : List Int) (st : Status)
    (m : Mem) (hd : src.numDims = src.shape.length) (ho : offsets.length = src.shape.length)
    (h : (createSlice src offsets sliceShape st).1 = some m)
    (hfit : List.Forall₂ (fun (ok : Int × Int) n => ok.1 + ok.2 ≤ n)
      ((offsets.drop (src.numDims - sliceShape.length)).zip sliceShape)
      (src.shape.drop (src.numDims - sliceShape.length)))
    (idx : List Int) (hi : InRange idx sliceShape) :
    InRange (shiftIndex offsets idx) src.shape := by
  obtain ⟨h1, h2, h3, h4⟩ := createSlice_some _ _ _ _ _ h
  have hil := hi.length
  rw [hd] at hfit h1
  clear h4 h3 h
  unfold shiftIndex
  generalize src.shape = shape at *
  clear hd
  induction offsets generalizing shape with
  | nil =>
    have : shape = [] := by simpa using ho.symm
    subst this; simp [InRange]
  | cons o os ih =>
    cases shape with
    | nil => simp at ho
    | cons n ns =>
      simp only [sliceOffsetsOk, Bool.and_eq_true, decide_eq_true_eq] at h2
      have ho' : os.length = ns.length := by simpa using ho
      by_cases hfull : idx.length = os.length + 1
      · have e1 : (n :: ns).length - sliceShape.length = 0 := by simp; omega
        rw [e1] at hfit
        have e2 : (o :: os).length - idx.length = 0 := by simp; omega
        rw [e2]
        simp only [List.drop_zero, List.replicate_zero, List.nil_append] at hfit ⊢
        clear ih
        have gen : ∀ (oo kk nn ii : List Int), oo.length = nn.length →
            sliceOffsetsOk oo nn = true → InRange ii kk → kk.length = nn.length →
            List.Forall₂ (fun (ok : Int × Int) n => ok.1 + ok.2 ≤ n) (oo.zip kk) nn →
            InRange (List.zipWith (· + ·) oo ii) nn := by
          intro oo
          induction oo with
          | nil =>
            intro kk nn ii hl _ _ _ _
            have : nn = [] := by simpa using hl.symm
            subst this; simp [InRange]
          | cons o oo ih =>
            intro kk nn ii hl hoo hik hkl hf
            cases nn with
            | nil => simp at hl
            | cons n nn => cases kk with
              | nil => simp at hkl
              | cons k kk => cases ii with
                | nil => simp [InRange] at hik
                | cons i ii =>
                  rw [inRange_cons] at hik
                  simp only [sliceOffsetsOk, Bool.and_eq_true, decide_eq_true_eq] at hoo
                  simp only [List.zip_cons_cons, List.forall₂_cons] at hf
                  rw [List.zipWith_cons_cons, inRange_cons]
                  exact ⟨⟨by omega, by omega⟩, ih kk nn ii (by simpa using hl) hoo.2 hik.2
                    (by simpa using hkl) hf.2⟩
        exact gen (o :: os) sliceShape (n :: ns) idx ho
          (by simp [sliceOffsetsOk, h2.2]; omega) hi (by simp; omega) hfit
      · have hle : idx.length ≤ os.length := by simp at h1; omega
        have e2 : (o :: os).length - idx.length = (os.length - idx.length) + 1 := by
          simp; omega
        have e1 : (n :: ns).length - sliceShape.length =
            (ns.length - sliceShape.length) + 1 := by simp; omega
        rw [e1] at hfit
        rw [e2, List.replicate_succ, List.cons_append, List.zipWith_cons_cons, inRange_cons]
        refine ⟨by omega, ?_⟩
        exact ih ns ho' (by simpa using hfit) (by omega) h2.2

/-- The code violates the second half of C03: an accepted one-dimensional slice
whose element 1 is not an element of the parent. -/
theorem C03_slice_out_of_parent_false :
    ∃ (src m : Mem) (offsets sliceShape idx : List Int) (h : Heap),
      src = (memCreate h true .double .cpu [4] .success).2.1 ∧
      createSlice src offsets sliceShape .success = (some m, .success) ∧
      InRange idx sliceShape ∧ ¬ InRange (shiftIndex offsets idx) src.shape := by
  refine ⟨_, _, [3], [4], [1], ⟨0, fun _ => none⟩, rfl, rfl, by simp [InRange], ?_⟩
  simp [InRange, shiftIndex, memCreate, createWrapper, memAlloc, MemType.size,
    numElementsLoop]

/-- Non-vacuity for the two partial theorems: the 2×2 corner of a 4×5 array. -/
example : ∃ m, createSlice (memCreate ⟨0, fun _ => none⟩ true .double .cpu [4, 5] .success).2.1
    [2, 3] [2, 2] .success = (some m, .success) := ⟨_, rfl⟩

/-! ## C04 — ownership -/

/-- In every state reachable from a fresh session by any accepted history:
every live library block has exactly one live owning handle, every live owning
handle's block is live, so there is neither a leak nor a double free; and
retaining or releasing a live handle is always defined. -/
theorem C04_ownership (s s' : Session) (ops : List MemOp) (hf : s.Fresh)
    (hr : s.run ops = .ok s') :
    (∀ b, s.heap.next ≤ b → ((s'.heap.blocks b).isSome ↔
      ∃! k, ∃ m p, s'.obj k = some m ∧ m.isOwner = true ∧ m.data = some p ∧
        p.block = b)) ∧
    (∀ k m, s'.obj k = some m →
      (∃ s'', s'.step (.retain k) = .ok s'') ∧ (∃ s'', s'.step (.release k) = .ok s'')) := by
  have hi := run_inv ops (inv_fresh s hf) hr
  refine ⟨fun b hb => ⟨fun hs => ?_, ?_⟩, fun k m hk => ⟨?_, ?_⟩⟩
  · obtain ⟨k, m, p, h1, h2, h3, h4⟩ := hi.owned b hb hs
    refine ⟨k, ⟨m, p, h1, h2, h3, h4⟩, ?_⟩
    rintro k' ⟨m', p', h1', h2', h3', h4'⟩
    exact hi.distinct k' k m' m p' p h1' h1 h2' h2 h3' h3 (by omega)
  · rintro ⟨k, ⟨m, p, h1, h2, h3, h4⟩, _⟩
    rw [← h4]; exact (hi.owner k m p h1 h2 h3).2.2.2.2
  · exact ⟨⟨s'.heap, s'.objs.set k (some m.refInc)⟩, by simp only [Session.step, hk]⟩
  · obtain ⟨r, hr', _⟩ := memFree_live hi k m hk
    exact ⟨⟨r.1, s'.objs.set k r.2⟩, by simp only [Session.step, hk, hr']⟩

/-- What one release does in any reachable state: with other references left it
only decrements the count and frees nothing; the last release frees the
descriptor, and frees the storage exactly if this handle owns it, touching no
other block. -/
theorem C04_release_effect (s s1 s2 : Session) (ops : List MemOp) (hf : s.Fresh)
    (hr : s.run ops = .ok s1) (k : Nat) (m : Mem) (hk : s1.obj k = some m)
    (h2 : s1.step (.release k) = .ok s2) :
    (1 < m.refCount ∧ s2.heap = s1.heap ∧
      s2.obj k = some { m with refCount := m.refCount - 1 }) ∨
    (m.refCount = 1 ∧ s2.obj k = none ∧
      ((m.isOwner = true ∧ ∃ p, m.data = some p ∧ (s1.heap.blocks p.block).isSome ∧
          s2.heap.blocks p.block = none ∧
          ∀ b, b ≠ p.block → s2.heap.blocks b = s1.heap.blocks b) ∨
       ((m.isOwner = true → m.data = none) ∧ s2.heap.blocks = s1.heap.blocks))) := by
  have hi := run_inv ops (inv_fresh s hf) hr
  obtain ⟨r, hr', hc⟩ := memFree_live hi k m hk
  simp only [Session.step, hk, hr'] at h2
  cases h2
  rcases hc with ⟨a, b⟩ | ⟨a, b, c, d⟩
  · subst b
    exact Or.inl ⟨a, rfl, by rw [obj_set _ _ _ _ _ (obj_lt hk), if_pos rfl]⟩
  · refine Or.inr ⟨a, by rw [obj_set _ _ _ _ _ (obj_lt hk), if_pos rfl, b], ?_⟩
    rcases d with ⟨p, h1, h2, h3⟩ | ⟨h1, h2⟩
    · exact Or.inl ⟨h1, p, h2, (hi.owner k m p hk h1 h2).2.2.2.2, by simp [h3],
        fun b hb => by simp [h3, hb]⟩
    · exact Or.inr ⟨h1, h2⟩

/-- The reference count of a live handle counts its history: it starts at the
value it had, plus retains, minus releases, and the handle dies exactly when the
releases have caught up. -/
theorem C04_refcount_history (s s1 s2 : Session) (ops ops' : List MemOp) (hf : s.Fresh)
    (hr : s.run ops = .ok s1) (k : Nat) (m : Mem) (hk : s1.obj k = some m)
    (h2 : s1.run ops' = .ok s2) :
    (∃ m', s2.obj k = some m' ∧
      m'.refCount = m.refCount + retains k ops' - releases k ops') ∨
    (s2.obj k = none ∧ (releases k ops' : Int) = m.refCount + retains k ops') :=
  run_refCount ops' (run_inv ops (inv_fresh s hf) hr) k m hk h2

/-- Wrapped, aliased and sliced arrays never own their storage. -/
theorem C04_borrowed_never_owns (d t l sh str st) (src : Mem) (o k : List Int) :
    (createWrapper d t l sh str st).1.isOwner = false ∧
    (createAlias src).isOwner = false ∧
    ∀ m, (createSlice src o k st).1 = some m → m.isOwner = false := by
  refine ⟨(createWrapper_facts _ _ _ _ _ _).1, (createWrapper_facts _ _ _ _ _ _).1, ?_⟩
  intro m hm
  rw [(createSlice_some _ _ _ _ _ hm).2.2.2]
  exact (createWrapper_facts _ _ _ _ _ _).1

/-- Non-vacuity: create, alias, retain, release both, all defined; the block is
gone at the end. -/
example : ∃ s', (Session.mk ⟨0, fun _ => none⟩ []).run
    [.create true .int .cpu [3] .success, .share 0, .retain 0, .release 1, .release 0,
     .release 0] = .ok s' ∧ s'.heap.blocks 0 = none ∧ s'.obj 0 = none := ⟨_, rfl, rfl, rfl⟩
/-- …and before the last release it is still live. -/
example : ∃ s', (Session.mk ⟨0, fun _ => none⟩ []).run
    [.create true .int .cpu [3] .success, .share 0, .retain 0, .release 1, .release 0]
    = .ok s' ∧ s'.heap.blocks 0 = some (List.replicate 12 0) := ⟨_, rfl, rfl⟩

end Sdp
