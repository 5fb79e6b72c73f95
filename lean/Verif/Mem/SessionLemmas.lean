import Verif.Mem.Session
import Verif.Mem.Spec

namespace Sdp

/-- Representation invariant; `base` is the first block number the library
itself hands out. -/
structure Session.Inv (base : Nat) (s : Session) : Prop where
  base_le : base ≤ s.heap.next
  fresh : ∀ b, s.heap.next ≤ b → s.heap.blocks b = none
  rc : ∀ k m, s.obj k = some m → 1 ≤ m.refCount
  owner : ∀ k m p, s.obj k = some m → m.isOwner = true → m.data = some p →
    p.off = 0 ∧ m.location = .cpu ∧ base ≤ p.block ∧ p.block < s.heap.next ∧
    (s.heap.blocks p.block).isSome
  distinct : ∀ k k' m m' p p', s.obj k = some m → s.obj k' = some m' →
    m.isOwner = true → m'.isOwner = true → m.data = some p → m'.data = some p' →
    p.block = p'.block → k = k'
  owned : ∀ b, base ≤ b → (s.heap.blocks b).isSome →
    ∃ k m p, s.obj k = some m ∧ m.isOwner = true ∧ m.data = some p ∧ p.block = b

theorem obj_append (s : Session) (h : Heap) (o : Option Mem) (k : Nat) :
    (Session.mk h (s.objs ++ [o])).obj k =
      if k = s.objs.length then o else s.obj k := by
  unfold Session.obj
  simp only [List.getD_eq_getElem?_getD, List.getElem?_append]
  split
  · rename_i hlt
    rw [if_neg (by omega)]
  · rename_i hge
    split
    · rename_i he; subst he; simp
    · have : 1 ≤ k - s.objs.length := by omega
      rw [List.getElem?_eq_none (by simp; omega), List.getElem?_eq_none (by omega)]

theorem obj_set (s : Session) (h : Heap) (o : Option Mem) (k j : Nat)
    (hk : k < s.objs.length) :
    (Session.mk h (s.objs.set k o)).obj j = if j = k then o else s.obj j := by
  unfold Session.obj
  simp only [List.getD_eq_getElem?_getD, List.getElem?_set]
  by_cases hjk : j = k
  · subst hjk; simp [hk]
  · rw [if_neg (fun h => hjk h.symm), if_neg hjk]

theorem obj_lt {s : Session} {k : Nat} {m : Mem} (h : s.obj k = some m) :
    k < s.objs.length := by
  by_contra hc
  unfold Session.obj at h
  rw [List.getD_eq_getElem?_getD, List.getElem?_eq_none (by omega)] at h
  simp at h

theorem obj_len (s : Session) : s.obj s.objs.length = none := by
  unfold Session.obj; simp [List.getD_eq_getElem?_getD]

theorem createWrapper_facts (d t l sh str st) :
    (createWrapper d t l sh str st).1.isOwner = false ∧
    (createWrapper d t l sh str st).1.refCount = 1 ∧
    (createWrapper d t l sh str st).1.location = l ∧
    (createWrapper d t l sh str st).1.data = d := by
  unfold createWrapper
  dsimp only
  split
  · simp
  split
  · simp
  split <;> simp

/-- What `memAlloc` does to a descriptor without storage. -/
theorem memAlloc_cases (h : Heap) (ok : Bool) (m : Mem) (st : Status)
    (hd : m.data = none) :
    ((memAlloc h ok m st).1 = h ∧ (memAlloc h ok m st).2.1.data = none ∧
      (memAlloc h ok m st).2.1.refCount = m.refCount) ∨
    (∃ bytes, (memAlloc h ok m st).1 = ⟨h.next + 1, (h.set h.next (some bytes)).blocks⟩ ∧
      (memAlloc h ok m st).2.1.data = some ⟨h.next, 0⟩ ∧
      (memAlloc h ok m st).2.1.location = .cpu ∧
      (memAlloc h ok m st).2.1.refCount = m.refCount) := by
  unfold memAlloc
  dsimp only
  split
  · left; simp [hd]
  split
  · rename_i hl
    split
    · right; exact ⟨_, rfl, rfl, hl, rfl⟩
    · left; simp [hd]
  · left; simp [hd]
  · left; simp [hd]

theorem inv_append_borrowed {base : Nat} {s : Session} (hi : s.Inv base) (o : Option Mem)
    (ho : ∀ m, o = some m → 1 ≤ m.refCount ∧ (m.isOwner = true → m.data = none)) :
    (Session.mk s.heap (s.objs ++ [o])).Inv base := by
  refine ⟨hi.base_le, hi.fresh, ?_, ?_, ?_, ?_⟩
  · intro k m hk
    rw [obj_append] at hk
    split at hk
    · exact (ho m hk).1
    · exact hi.rc k m hk
  · intro k m p hk how hd
    rw [obj_append] at hk
    split at hk
    · rw [(ho m hk).2 how] at hd; simp at hd
    · exact hi.owner k m p hk how hd
  · intro k k' m m' p p' hk hk' how how' hd hd' hb
    rw [obj_append] at hk hk'
    split at hk
    · rw [(ho m hk).2 how] at hd; simp at hd
    · split at hk'
      · rw [(ho m' hk').2 how'] at hd'; simp at hd'
      · exact hi.distinct k k' m m' p p' hk hk' how how' hd hd' hb
  · intro b hb hs
    obtain ⟨k, m, p, hk, how, hd, hpb⟩ := hi.owned b hb hs
    refine ⟨k, m, p, ?_, how, hd, hpb⟩
    rw [obj_append, if_neg]
    · exact hk
    · have := obj_lt hk; omega

theorem inv_append_owner {base : Nat} {s : Session} (hi : s.Inv base) (m : Mem)
    (bytes : List UInt8) (hrc : 1 ≤ m.refCount) (hown : m.isOwner = true)
    (hloc : m.location = .cpu) (hd : m.data = some ⟨s.heap.next, 0⟩) (h' : Heap)
    (hh : h'.next = s.heap.next + 1)
    (hb : ∀ b, h'.blocks b = if b = s.heap.next then some bytes else s.heap.blocks b) :
    (Session.mk h' (s.objs ++ [some m])).Inv base := by
  refine ⟨?_, ?_, ?_, ?_, ?_, ?_⟩
  · show base ≤ h'.next
    have := hi.base_le; omega
  · intro b hbn
    show h'.blocks b = none
    replace hbn : h'.next ≤ b := hbn
    rw [hb, if_neg (by omega)]; exact hi.fresh b (by omega)
  · intro k m' hk
    rw [obj_append] at hk
    split at hk
    · cases hk; exact hrc
    · exact hi.rc k m' hk
  · intro k m' p hk how hdp
    show p.off = 0 ∧ m'.location = .cpu ∧ base ≤ p.block ∧ p.block < h'.next ∧
      (h'.blocks p.block).isSome
    rw [obj_append] at hk
    split at hk
    · cases hk; rw [hd] at hdp; cases hdp
      refine ⟨rfl, hloc, hi.base_le, by simp only; omega, ?_⟩
      rw [hb]; simp
    · obtain ⟨a, b, c, d, e⟩ := hi.owner k m' p hk how hdp
      refine ⟨a, b, c, by omega, ?_⟩
      rw [hb, if_neg (by omega)]; exact e
  · intro k k' m1 m2 p p' hk hk' how how' hd1 hd2 hbb
    have key : ∀ j mm pp, s.obj j = some mm → mm.isOwner = true → mm.data = some pp →
        pp.block ≠ s.heap.next := fun j mm pp h1 h2 h3 => by
      have := (hi.owner j mm pp h1 h2 h3).2.2.2.1; omega
    rw [obj_append] at hk hk'
    split at hk <;> split at hk'
    · omega
    · cases hk; rw [hd] at hd1; cases hd1
      exact absurd hbb.symm (key _ _ _ hk' how' hd2)
    · cases hk'; rw [hd] at hd2; cases hd2
      exact absurd hbb (key _ _ _ hk how hd1)
    · exact hi.distinct k k' m1 m2 p p' hk hk' how how' hd1 hd2 hbb
  · intro b hbb hs
    replace hs : (h'.blocks b).isSome := hs
    rw [hb] at hs
    split at hs
    · rename_i he
      exact ⟨s.objs.length, m, _, by rw [obj_append, if_pos rfl], hown, hd, he.symm⟩
    · obtain ⟨k, m', p, hk, h2, h3, h4⟩ := hi.owned b hbb hs
      refine ⟨k, m', p, ?_, h2, h3, h4⟩
      rw [obj_append, if_neg]
      · exact hk
      · have := obj_lt hk; omega

theorem memAlloc_isOwner (h ok m st) : (memAlloc h ok m st).2.1.isOwner = true := by
  unfold memAlloc; dsimp only
  split
  · rfl
  split
  · split <;> rfl
  · rfl
  · rfl

theorem inv_append_alloc {base : Nat} {s : Session} (hi : s.Inv base) (ok m st)
    (hd : m.data = none) (hrc : m.refCount = 1) :
    (Session.mk (memAlloc s.heap ok m st).1
      (s.objs ++ [some (memAlloc s.heap ok m st).2.1])).Inv base := by
  rcases memAlloc_cases s.heap ok m st hd with ⟨h1, h2, h3⟩ | ⟨bytes, h1, h2, h3, h4⟩
  · rw [h1]
    apply inv_append_borrowed hi
    rintro m' ⟨⟩
    exact ⟨by omega, fun _ => h2⟩
  · exact inv_append_owner hi _ bytes (by omega) (memAlloc_isOwner _ _ _ _) h3 h2 _
      (by rw [h1]) (by intro b; rw [h1]; rfl)

theorem memcpyHeap_live {h h' : Heap} {d s n} (he : memcpyHeap h d s n = .ok h') :
    h'.next = h.next ∧ ∀ b, (h'.blocks b).isSome = (h.blocks b).isSome := by
  unfold memcpyHeap at he
  split at he
  · rename_i bd bs h1 h2
    split at he
    · cases he
      refine ⟨rfl, fun b => ?_⟩
      simp only [Heap.set]
      split
      · rename_i hb; subst hb; rw [h1]; rfl
      · rfl
    · cases he
  · cases he

theorem copyContents_live {h : Heap} {dst src a b n st r}
    (he : copyContents h dst src a b n st = .ok r) :
    r.1.next = h.next ∧ ∀ b, (r.1.blocks b).isSome = (h.blocks b).isSome := by
  unfold copyContents at he
  split at he
  · split at he
    · cases he; simp
    split at he
    · cases he; simp
    split at he
    · dsimp only at he
      split at he
      · cases he
      split at he
      · rename_i h' hm; cases he; exact memcpyHeap_live hm
      · cases he
    · cases he; simp
  · cases he; simp

theorem inv_heap_congr {base : Nat} {s : Session} (hi : s.Inv base) (h' : Heap)
    (hn : h'.next = s.heap.next)
    (hb : ∀ b, (h'.blocks b).isSome = (s.heap.blocks b).isSome) :
    (Session.mk h' s.objs).Inv base := by
  refine ⟨?_, ?_, hi.rc, ?_, hi.distinct, ?_⟩
  · show base ≤ h'.next
    rw [hn]; exact hi.base_le
  · intro b hbn
    replace hbn : h'.next ≤ b := hbn
    have := hb b
    rw [hi.fresh b (by omega)] at this
    simpa using this
  · intro k m p hk ho hd
    obtain ⟨a, b, c, d, e⟩ := hi.owner k m p hk ho hd
    exact ⟨a, b, c, by show _ < h'.next; omega, by show (h'.blocks _).isSome; rw [hb]; exact e⟩
  · intro b hbb hs
    exact hi.owned b hbb (by rw [← hb]; exact hs)

theorem inv_refInc {base : Nat} {s : Session} (hi : s.Inv base) (k : Nat) (m m' : Mem)
    (hk : s.obj k = some m) (ho : m'.isOwner = m.isOwner) (hd : m'.data = m.data)
    (hl : m'.location = m.location) (hrc : 1 ≤ m'.refCount) :
    (Session.mk s.heap (s.objs.set k (some m'))).Inv base := by
  have hlt := obj_lt hk
  have tr : ∀ j x, (Session.mk s.heap (s.objs.set k (some m'))).obj j = some x →
      ∃ y, s.obj j = some y ∧ x.isOwner = y.isOwner ∧ x.data = y.data ∧
        x.location = y.location := by
    intro j x hx
    rw [obj_set _ _ _ _ _ hlt] at hx
    split at hx
    · rename_i he; subst he; cases hx; exact ⟨m, hk, ho, hd, hl⟩
    · exact ⟨x, hx, rfl, rfl, rfl⟩
  refine ⟨hi.base_le, hi.fresh, ?_, ?_, ?_, ?_⟩
  · intro j x hx
    rw [obj_set _ _ _ _ _ hlt] at hx
    split at hx
    · cases hx; exact hrc
    · exact hi.rc j x hx
  · intro j x p hx hxo hxd
    obtain ⟨y, hy, h1, h2, h3⟩ := tr j x hx
    rw [h3]
    exact hi.owner j y p hy (h1 ▸ hxo) (h2 ▸ hxd)
  · intro j j' x x' p p' hx hx' hxo hxo' hxd hxd' hbb
    obtain ⟨y, hy, h1, h2, _⟩ := tr j x hx
    obtain ⟨y', hy', h1', h2', _⟩ := tr j' x' hx'
    exact hi.distinct j j' y y' p p' hy hy' (h1 ▸ hxo) (h1' ▸ hxo') (h2 ▸ hxd)
      (h2' ▸ hxd') hbb
  · intro b hb hs
    obtain ⟨j, y, p, hj, h1, h2, h3⟩ := hi.owned b hb hs
    by_cases hjk : j = k
    · subst hjk
      rw [hk] at hj; cases hj
      exact ⟨j, m', p, by rw [obj_set _ _ _ _ _ hlt, if_pos rfl], by rw [ho]; exact h1,
        by rw [hd]; exact h2, h3⟩
    · exact ⟨j, y, p, by rw [obj_set _ _ _ _ _ hlt, if_neg hjk]; exact hj, h1, h2, h3⟩

theorem inv_kill {base : Nat} {s : Session} (hi : s.Inv base) (k : Nat) (m : Mem)
    (hk : s.obj k = some m) (h' : Heap) (hn : h'.next = s.heap.next)
    (hb : (∃ p, m.isOwner = true ∧ m.data = some p ∧
            ∀ b, h'.blocks b = if b = p.block then none else s.heap.blocks b) ∨
          ((m.isOwner = true → m.data = none) ∧ h'.blocks = s.heap.blocks)) :
    (Session.mk h' (s.objs.set k none)).Inv base := by
  have hlt := obj_lt hk
  have tr : ∀ j x, (Session.mk h' (s.objs.set k none)).obj j = some x →
      j ≠ k ∧ s.obj j = some x := by
    intro j x hx
    rw [obj_set _ _ _ _ _ hlt] at hx
    split at hx
    · cases hx
    · rename_i h; exact ⟨h, hx⟩
  refine ⟨?_, ?_, ?_, ?_, ?_, ?_⟩
  · show base ≤ h'.next
    rw [hn]; exact hi.base_le
  · intro b hbn
    replace hbn : h'.next ≤ b := hbn
    show h'.blocks b = none
    rcases hb with ⟨p, _, _, hb⟩ | ⟨_, hb⟩
    · rw [hb]; split
      · rfl
      · exact hi.fresh b (by omega)
    · rw [hb]; exact hi.fresh b (by omega)
  · intro j x hx; exact hi.rc j x (tr j x hx).2
  · intro j x p hx hxo hxd
    obtain ⟨hne, hj⟩ := tr j x hx
    obtain ⟨a, b, c, d, e⟩ := hi.owner j x p hj hxo hxd
    refine ⟨a, b, c, by show _ < h'.next; omega, ?_⟩
    show (h'.blocks p.block).isSome
    rcases hb with ⟨q, ho, hd, hb⟩ | ⟨_, hb⟩
    · rw [hb, if_neg]
      · exact e
      · intro he; exact hne (hi.distinct j k x m p q hj hk hxo ho hxd hd he)
    · rw [hb]; exact e
  · intro j j' x x' p p' hx hx' hxo hxo' hxd hxd' hbb
    exact hi.distinct j j' x x' p p' (tr j x hx).2 (tr j' x' hx').2 hxo hxo' hxd hxd' hbb
  · intro b hbase hs
    replace hs : (h'.blocks b).isSome := hs
    have hs' : (s.heap.blocks b).isSome ∧ (∀ p, m.isOwner = true → m.data = some p →
        p.block ≠ b) := by
      rcases hb with ⟨q, ho, hd, hb⟩ | ⟨h1, hb⟩
      · rw [hb] at hs
        split at hs
        · simp at hs
        · rename_i hne
          refine ⟨hs, fun p _ hp => ?_⟩
          rw [hd] at hp; cases hp; exact fun he => hne he.symm
      · rw [hb] at hs
        exact ⟨hs, fun p h2 hp => by rw [h1 h2] at hp; cases hp⟩
    obtain ⟨j, y, p, hj, h1, h2, h3⟩ := hi.owned b hbase hs'.1
    refine ⟨j, y, p, ?_, h1, h2, h3⟩
    rw [obj_set _ _ _ _ _ hlt, if_neg]
    · exact hj
    · rintro rfl
      rw [hk] at hj; cases hj
      exact hs'.2 p h1 h2 h3

theorem inv_fresh (s : Session) (h : s.Fresh) : s.Inv s.heap.next := by
  have ho : ∀ k, s.obj k = none := by
    intro k; unfold Session.obj; rw [h.1]; simp
  refine ⟨le_refl _, h.2, ?_, ?_, ?_, ?_⟩
  · intro k m hk; rw [ho] at hk; cases hk
  · intro k m p hk; rw [ho] at hk; cases hk
  · intro k k' m m' p p' hk; rw [ho] at hk; cases hk
  · intro b hb hs; rw [h.2 b hb] at hs; simp at hs

/-- Result of releasing a live handle in a good state. -/
theorem memFree_live {base : Nat} {s : Session} (hi : s.Inv base) (k : Nat) (m : Mem)
    (hk : s.obj k = some m) :
    ∃ r, memFree s.heap m = .ok r ∧
      ((m.refCount > 1 ∧ r = (s.heap, some { m with refCount := m.refCount - 1 })) ∨
       (m.refCount = 1 ∧ r.2 = none ∧ r.1.next = s.heap.next ∧
        ((∃ p, m.isOwner = true ∧ m.data = some p ∧
            ∀ b, r.1.blocks b = if b = p.block then none else s.heap.blocks b) ∨
          ((m.isOwner = true → m.data = none) ∧ r.1.blocks = s.heap.blocks)))) := by
  have hrc := hi.rc k m hk
  unfold memFree
  dsimp only
  by_cases h : m.refCount - 1 > 0
  · rw [if_pos h]; exact ⟨_, rfl, Or.inl ⟨by omega, rfl⟩⟩
  rw [if_neg h]
  split
  · rename_i p ho hd hl
    obtain ⟨h0, _, _, _, hs⟩ := hi.owner k m p hk ho hd
    rw [if_pos ⟨h0, hs⟩]
    exact ⟨_, rfl, Or.inr ⟨by omega, rfl, rfl, Or.inl ⟨p, ho, hd, fun b => rfl⟩⟩⟩
  · rename_i hne
    refine ⟨_, rfl, Or.inr ⟨by omega, rfl, rfl, Or.inr ⟨?_, rfl⟩⟩⟩
    intro ho
    cases hd : m.data with
    | none => rfl
    | some p => exact absurd (hi.owner k m p hk ho hd).2.1 (fun hl => hne p ho hd hl)

theorem step_inv {base : Nat} {s s' : Session} (hi : s.Inv base) (op : MemOp)
    (h : s.step op = .ok s') : s'.Inv base := by
  cases op with
  | create ok t l sh st =>
    simp only [Session.step, memCreate] at h
    cases h
    have f := createWrapper_facts none t l sh none st
    exact inv_append_alloc hi _ _ _ f.2.2.2 f.2.1
  | wrap d t l sh str st =>
    simp only [Session.step] at h
    cases h
    apply inv_append_borrowed hi
    rintro m ⟨⟩
    have f := createWrapper_facts d t l sh str st
    exact ⟨by omega, fun ho => by rw [f.1] at ho; cases ho⟩
  | share k =>
    simp only [Session.step] at h
    split at h
    · cases h
      apply inv_append_borrowed hi
      rintro m ⟨⟩
      have f := createWrapper_facts
      exact ⟨by unfold createAlias; rw [(f _ _ _ _ _ _).2.1],
        fun ho => by unfold createAlias at ho; rw [(f _ _ _ _ _ _).1] at ho; cases ho⟩
    · cases h
  | slice k o sh st =>
    simp only [Session.step] at h
    split at h
    · rename_i m hm
      cases h
      apply inv_append_borrowed hi
      intro m' hm'
      unfold createSlice at hm'
      split at hm'
      · cases hm'
      split at hm'
      · cases hm'
      dsimp only at hm'
      split at hm'
      · cases hm'
      · cases hm'
        have f := createWrapper_facts
        exact ⟨by rw [(f _ _ _ _ _ _).2.1],
          fun ho => by rw [(f _ _ _ _ _ _).1] at ho; cases ho⟩
    · cases h
  | copy ok k l st =>
    simp only [Session.step] at h
    split at h
    · rename_i m hm
      split at h
      · rename_i r hr
        cases h
        unfold createCopy at hr
        dsimp only at hr
        split at hr
        · rename_i x hx
          cases hr
          have f := createWrapper_facts none m.type l m.shape (some m.stride) st
          have := inv_append_alloc hi ok
            (createWrapper none m.type l m.shape (some m.stride) st).1
            (createWrapper none m.type l m.shape (some m.stride) st).2 f.2.2.2 f.2.1
          have lv := copyContents_live hx
          exact inv_heap_congr this _ lv.1 lv.2
        · cases hr
      · cases h
    · cases h
  | retain k =>
    simp only [Session.step] at h
    split at h
    · rename_i m hm
      cases h
      exact inv_refInc hi k m _ hm rfl rfl rfl (by
        have := hi.rc k m hm; simp only [Mem.refInc]; omega)
    · cases h
  | release k =>
    simp only [Session.step] at h
    split at h
    · rename_i m hm
      obtain ⟨r, hr, hc⟩ := memFree_live hi k m hm
      rw [hr] at h
      cases h
      rcases hc with ⟨h1, h2⟩ | ⟨h1, h2, h3, h4⟩
      · subst h2
        exact inv_refInc hi k m _ hm rfl rfl rfl (by show 1 ≤ m.refCount - 1; omega)
      · rw [h2]; exact inv_kill hi k m hm _ h3 h4
    · cases h

theorem run_inv {base : Nat} (ops : List MemOp) {s s' : Session} (hi : s.Inv base)
    (h : s.run ops = .ok s') : s'.Inv base := by
  induction ops generalizing s with
  | nil => cases h; exact hi
  | cons op ops ih =>
    simp only [Session.run] at h
    split at h
    · rename_i s1 h1; exact ih (step_inv hi op h1) h
    · cases h

/-- Occurrences of `retain k` in a history. -/
def retains (k : Nat) (ops : List MemOp) : Nat :=
  ops.countP fun | .retain j => j == k | _ => false

/-- Occurrences of `release k` in a history. -/
def releases (k : Nat) (ops : List MemOp) : Nat :=
  ops.countP fun | .release j => j == k | _ => false

theorem step_other {s s' : Session} (op : MemOp) (h : s.step op = .ok s') (k : Nat)
    (hk : k < s.objs.length) (h1 : op ≠ .retain k) (h2 : op ≠ .release k) :
    s'.obj k = s.obj k ∧ s.objs.length ≤ s'.objs.length := by
  have ap : ∀ h' o, (Session.mk h' (s.objs ++ [o])).obj k = s.obj k ∧
      s.objs.length ≤ (Session.mk h' (s.objs ++ [o])).objs.length := by
    intro h' o
    rw [obj_append, if_neg (by omega)]; simp
  have st : ∀ h' o j, j ≠ k → j < s.objs.length →
      (Session.mk h' (s.objs.set j o)).obj k = s.obj k ∧
      s.objs.length ≤ (Session.mk h' (s.objs.set j o)).objs.length := by
    intro h' o j hjk hj
    rw [obj_set _ _ _ _ _ hj, if_neg (fun h => hjk h.symm)]; simp
  cases op with
  | create ok t l sh st => cases h; exact ap _ _
  | wrap d t l sh str st => cases h; exact ap _ _
  | share j =>
    simp only [Session.step] at h
    split at h <;> cases h
    exact ap _ _
  | slice j o sh st =>
    simp only [Session.step] at h
    split at h <;> cases h
    exact ap _ _
  | copy ok j l st =>
    simp only [Session.step] at h
    split at h
    · split at h <;> cases h
      exact ap _ _
    · cases h
  | retain j =>
    simp only [Session.step] at h
    split at h
    · rename_i m hm
      cases h
      exact st _ _ _ (fun he => h1 (by rw [he])) (obj_lt hm)
    · cases h
  | release j =>
    simp only [Session.step] at h
    split at h
    · rename_i m hm
      split at h <;> cases h
      exact st _ _ _ (fun he => h2 (by rw [he])) (obj_lt hm)
    · cases h

theorem run_dead (ops : List MemOp) {s s' : Session} (k : Nat) (hk : k < s.objs.length)
    (hd : s.obj k = none) (h : s.run ops = .ok s') :
    s'.obj k = none ∧ retains k ops = 0 ∧ releases k ops = 0 := by
  induction ops generalizing s with
  | nil => cases h; exact ⟨hd, rfl, rfl⟩
  | cons op ops ih =>
    simp only [Session.run] at h
    split at h
    · rename_i s1 h1
      have n1 : op ≠ .retain k := by
        rintro rfl; simp [Session.step, hd] at h1
      have n2 : op ≠ .release k := by
        rintro rfl; simp [Session.step, hd] at h1
      obtain ⟨e, l⟩ := step_other op h1 k hk n1 n2
      obtain ⟨a, b, c⟩ := ih (by omega) (by rw [e]; exact hd) h
      refine ⟨a, ?_, ?_⟩
      · unfold retains at *
        rw [List.countP_cons, b]
        cases op <;> simp_all
      · unfold releases at *
        rw [List.countP_cons, c]
        cases op <;> simp_all
    · cases h

theorem run_refCount {base : Nat} (ops : List MemOp) {s s' : Session} (hi : s.Inv base)
    (k : Nat) (m : Mem) (hk : s.obj k = some m) (h : s.run ops = .ok s') :
    (∃ m', s'.obj k = some m' ∧
      m'.refCount = m.refCount + retains k ops - releases k ops) ∨
    (s'.obj k = none ∧ (releases k ops : Int) = m.refCount + retains k ops) := by
  induction ops generalizing s m with
  | nil => cases h; exact Or.inl ⟨m, hk, by simp [retains, releases]⟩
  | cons op ops ih =>
    simp only [Session.run] at h
    split at h
    · rename_i s1 h1
      have hi1 := step_inv hi op h1
      by_cases n1 : op = .retain k
      · subst n1
        have e1 : retains k (.retain k :: ops) = retains k ops + 1 := by
          simp [retains]
        have e2 : releases k (.retain k :: ops) = releases k ops := by
          simp [releases]
        simp only [Session.step, hk] at h1
        cases h1
        have := ih hi1 m.refInc (by rw [obj_set _ _ _ _ _ (obj_lt hk), if_pos rfl]) h
        rw [e1, e2]
        simp only [Mem.refInc] at this
        rcases this with ⟨m', a, b⟩ | ⟨a, b⟩
        · exact Or.inl ⟨m', a, by rw [b]; push_cast; ring⟩
        · exact Or.inr ⟨a, by rw [b]; push_cast; ring⟩
      by_cases n2 : op = .release k
      · subst n2
        have e1 : retains k (.release k :: ops) = retains k ops := by
          simp [retains]
        have e2 : releases k (.release k :: ops) = releases k ops + 1 := by
          simp [releases]
        obtain ⟨r, hr, hc⟩ := memFree_live hi k m hk
        simp only [Session.step, hk, hr] at h1
        cases h1
        rw [e1, e2]
        rcases hc with ⟨h1', h2⟩ | ⟨h1', h2, h3, h4⟩
        · subst h2
          have := ih hi1 _ (by rw [obj_set _ _ _ _ _ (obj_lt hk), if_pos rfl]) h
          rcases this with ⟨m', a, b⟩ | ⟨a, b⟩
          · exact Or.inl ⟨m', a, by rw [b]; push_cast; ring⟩
          · exact Or.inr ⟨a, by push_cast; rw [b]; ring⟩
        · have hd := run_dead ops k (s := ⟨r.1, s.objs.set k r.2⟩)
            (by simpa using obj_lt hk)
            (by rw [obj_set _ _ _ _ _ (obj_lt hk), if_pos rfl, h2]) h
          exact Or.inr ⟨hd.1, by rw [hd.2.1, hd.2.2, h1']; simp⟩
      · obtain ⟨e, _⟩ := step_other op h1 k (obj_lt hk) n1 n2
        have := ih hi1 m (by rw [e]; exact hk) h
        have e1 : retains k (op :: ops) = retains k ops := by
          unfold retains; rw [List.countP_cons]; cases op <;> simp_all
        have e2 : releases k (op :: ops) = releases k ops := by
          unfold releases; rw [List.countP_cons]; cases op <;> simp_all
        rw [e1, e2]; exact this
    · cases h

end Sdp
