import Verif.Mem.StreamFacts
/-!
# Copies on streams: proofs
-/

namespace Sdp.Stream

theorem inv_fetch {live : Nat → Option Int} {jobs : List Job} {init : Cells} {c : Config}
    {pre post : List Move} {m : Move} (h : Inv live jobs init c)
    (e : c.pending = pre ++ m :: post) (hr : ready pre m = true) (hh : m.held = none) :
    Inv live jobs init
      { c with pending := pre ++ { m with held := some (c.cells m.src) } :: post } := by
  obtain ⟨⟨done, rest, h1, h2, h3, h4, h5⟩, h6, h7, h8, h9⟩ := h
  have hf := ready_free (e ▸ h7) hr
  refine ⟨⟨done, rest, h1, h2, ?_, h4, ?_⟩, h6, ?_, ?_, ?_⟩
  · simp only
    rw [replay_fetch pre post m c.cells hh hf, ← e, h3]
  · intro hb m' hm'
    simp only [List.mem_append, List.mem_cons] at hm'
    rcases hm' with hm' | rfl | hm'
    · exact h5 hb m' (by rw [e]; simp [hm'])
    · exact h5 hb m (by rw [e]; simp)
    · exact h5 hb m' (by rw [e]; simp [hm'])
  · rw [e] at h7
    simp only [List.pairwise_append, List.pairwise_cons, List.mem_cons] at h7 ⊢
    obtain ⟨a1, ⟨a2, a3⟩, a4⟩ := h7
    refine ⟨a1, ⟨a2, a3⟩, ?_⟩
    rintro x hx y (rfl | hy)
    · exact a4 x hx m (Or.inl rfl)
    · exact a4 x hx y (Or.inr hy)
  · intro m' hm'
    simp only [List.mem_append, List.mem_cons] at hm'
    rcases hm' with hm' | rfl | hm'
    · exact h8 m' (by rw [e]; simp [hm'])
    · exact h8 m (by rw [e]; simp)
    · exact h8 m' (by rw [e]; simp [hm'])
  · intro k hk
    obtain ⟨b1, b2⟩ := h9 k hk
    constructor
    · right
      rcases b1 with b1 | ⟨m', hm', hk'⟩
      · rw [e] at b1; simp at b1
      · rw [e] at hm'
        simp only [List.mem_append, List.mem_cons] at hm'
        rcases hm' with hm' | rfl | hm'
        · exact ⟨m', by simp [hm'], hk'⟩
        · exact ⟨_, List.mem_append_right _ (List.mem_cons_self ..), hk'⟩
        · exact ⟨m', by simp [hm'], hk'⟩
    · intro pre' m' post' e' hk'
      simp only at e'
      -- the lists agree up to the field `held`
      have hmap : c.pending.map (fun x => (x.op, x.stream)) =
          (pre' ++ m' :: post').map fun x => (x.op, x.stream) := by
        rw [← e', e]; simp
      rw [List.map_append, List.map_cons] at hmap
      obtain ⟨pre2, rest2, e2, f1, f2⟩ := List.map_eq_append_iff.1 hmap
      obtain ⟨m2, post2, e3, f3, f4⟩ := List.map_eq_cons_iff.1 f2
      rw [e3] at e2
      simp only [Prod.mk.injEq] at f3
      obtain ⟨c1, c2⟩ := b2 pre2 m2 post2 e2 (f3.1.trans hk')
      refine ⟨f3.2 ▸ c1, fun q hq => ?_⟩
      have : (q.op, q.stream) ∈ post2.map fun x => (x.op, x.stream) := by
        rw [f4]; exact List.mem_map.2 ⟨q, hq, rfl⟩
      obtain ⟨q2, hq2, eq2⟩ := List.mem_map.1 this
      have := c2 q2 hq2
      simp only [Prod.mk.injEq] at eq2
      rw [← eq2.1, this]

theorem inv_store {live : Nat → Option Int} {jobs : List Job} {init : Cells} {c : Config}
    {pre post : List Move} {m : Move} {v : UInt8} (h : Inv live jobs init c)
    (e : c.pending = pre ++ m :: post) (hr : ready pre m = true) (hh : m.held = some v) :
    Inv live jobs init { c with pending := pre ++ post, cells := put c.cells m.dst v } := by
  obtain ⟨⟨done, rest, h1, h2, h3, h4, h5⟩, h6, h7, h8, h9⟩ := h
  have hf := ready_free (e ▸ h7) hr
  have hsub : ∀ x, x ∈ pre ++ post → x ∈ c.pending := by
    intro x hx; rw [e]; simp only [List.mem_append, List.mem_cons] at hx ⊢; tauto
  refine ⟨⟨done, rest, h1, h2, ?_, h4, fun hb m' hm' => h5 hb m' (hsub m' hm')⟩, h6, ?_,
    fun m' hm' => h8 m' (hsub m' hm'), ?_⟩
  · simp only
    rw [replay_store pre post m c.cells v hh hf, ← e, h3]
  · rw [e] at h7
    exact h7.sublist (List.Sublist.append_left (List.sublist_cons_self ..) _)
  · intro k hk
    obtain ⟨b1, b2⟩ := h9 k hk
    simp only
    constructor
    · by_cases hm : m.op = k
      · obtain ⟨c1, c2⟩ := b2 pre m post e hm
        have hpre := ready_default hr c1
        cases pre with
        | nil =>
          cases post with
          | nil => left; rfl
          | cons q post => right; exact ⟨q, by simp, c2 q (by simp)⟩
        | cons q pre => right; exact ⟨q, by simp, (hpre q (by simp)).trans hm⟩
      · right
        rcases b1 with b1 | ⟨m', hm', hk'⟩
        · rw [e] at b1; simp at b1
        · rw [e] at hm'
          simp only [List.mem_append, List.mem_cons] at hm'
          rcases hm' with hm' | rfl | hm'
          · exact ⟨m', by simp [hm'], hk'⟩
          · exact absurd hk' hm
          · exact ⟨m', by simp [hm'], hk'⟩
    · intro pre' m' post' e' hk'
      rcases List.append_eq_append_iff.1 e' with ⟨l, hl1, hl2⟩ | ⟨l, hl1, hl2⟩
      · -- post = l ++ m' :: post'
        exact b2 (pre ++ m :: l) m' post' (by rw [e, hl2]; simp) hk'
      · -- pre = pre' ++ l, m' :: post' = l ++ post
        cases l with
        | nil =>
          simp only [List.nil_append] at hl2
          exact b2 (pre' ++ [m]) m' post' (by rw [e, hl1, ← hl2]; simp) hk'
        | cons q l =>
          simp only [List.cons_append, List.cons.injEq] at hl2
          obtain ⟨rfl, rfl⟩ := hl2
          obtain ⟨c1, c2⟩ := b2 pre' m' (l ++ m :: post) (by rw [e, hl1]; simp) hk'
          refine ⟨c1, fun q hq => c2 q ?_⟩
          simp only [List.mem_append, List.mem_cons] at hq ⊢; tauto

/-- A copy call in a good state neither faults nor breaks the invariant. -/
theorem inv_issue {live : Nat → Option Int} {jobs : List Job} {init : Cells} {c : Config}
    (h : Inv live jobs init c) (hb : c.blocked = none) {call : Call} {todo : List Call}
    (ht : c.todo = call :: todo) {x : Xfer} {stream : Option Nat} {sync : Bool}
    (hcall : (call = .copy x ∧ stream = none ∧ sync = true) ∨
      (call = .async x stream ∧ sync = false)) :
    ∃ c', issue true live c todo x stream sync = .next c' ∧ Inv live jobs init c' := by
  obtain ⟨⟨done, rest, h1, h2, h3, h4, h5⟩, h6, h7, h8, h9⟩ := h
  have h5 := h5 hb
  rw [ht] at h2
  cases rest with
  | nil => cases h2
  | cons j rest =>
  rw [List.forall₂_cons] at h2
  obtain ⟨hj, h2⟩ := h2
  obtain ⟨k, rfl⟩ : ∃ k, j = .copy k := by
    cases j with
    | copy k => exact ⟨k, rfl⟩
    | wait s => rcases hcall with ⟨rfl, -⟩ | ⟨rfl, -⟩ <;> exact absurd hj (by simp [Describes])
  have hg : Given live x k.host k.dst k.src k.n ∧ k.stream = stream ∧
      (k.blocks = true ↔ k.host = false ∧ sync = true ∧ OneHost x ∧ k.n ≠ 0) := by
    rcases hcall with ⟨rfl, rfl, rfl⟩ | ⟨rfl, rfl⟩
    · obtain ⟨a, b, d⟩ := hj
      exact ⟨a, b, by rw [d]; simp⟩
    · obtain ⟨a, b, d⟩ := hj
      exact ⟨a, b, by rw [d]; simp⟩
  obtain ⟨g, hst, hbl⟩ := hg
  have hsafe := h4.1
  have hdone : jobs = (done ++ [.copy k]) ++ rest := by rw [h1]; simp
  have hin : inOrder (done ++ [.copy k]) init = k.apply (replay c.pending c.cells) := by
    rw [inOrder_append, h3]; rfl
  have hin' := hin
  -- earlier pending bytes against this copy
  have hold : ∀ m ∈ c.pending, ∃ a, m.stream = a.stream ∧ In m.dst a.dst a.n ∧
      In m.src a.src a.n ∧ (Apart a k ∨ (k.host = false ∧ Ordered a.stream k.stream)) := by
    intro m hm
    obtain ⟨_, a, _, -, -, hs, hd, hsr, -, hsa⟩ := h5 m hm
    exact ⟨a, hs, hd, hsr, hsa.1 k rfl⟩
  unfold issue
  rw [h6]
  rcases act_given g with ⟨hk, ha⟩ | ⟨hk, b, hob, ha⟩
  · rw [ha]
    refine ⟨_, rfl, ⟨done ++ [.copy k], rest, hdone, h2, ?_, h4.2, ?_⟩, rfl, h7, h8, ?_⟩
    · simp only
      rw [hin, memcpy_apply c.cells k.dst k.src k.n k.host k.blocks k.stream]
      apply replay_apply
      intro m hm
      obtain ⟨a, -, hd, hsr, hap⟩ := hold m hm
      rw [hk] at hap
      rcases hap with hap | ⟨h, -⟩
      · exact ⟨fun q => (hap _).1 ⟨hd, q⟩, fun q => (hap _).2.1 ⟨hd, q⟩,
          fun q => (hap _).2.2 ⟨hsr, q⟩⟩
      · cases h
    · intro _ m hm
      obtain ⟨x', a, y, e1, e2, e3, e4, e5, e6, e7⟩ := h5 m hm
      have hna : ¬ Awaits (.copy k) a := by rintro ⟨q, -⟩; rw [hk] at q; cases q
      refine ⟨x', a, y ++ [.copy k], by rw [e1]; simp, e2, e3, e4, e5, ?_, ?_⟩
      · intro j hj'
        simp only [List.mem_append, List.mem_singleton] at hj'
        rcases hj' with hj' | rfl
        · exact e6 j hj'
        · exact hna
      · exact e7.2.resolve_left hna
    · intro q hq; simp only [hb] at hq; cases hq
  · rw [ha]
    have hbk : (sync = true ∧ b = true ∧ k.n ≠ 0) ↔ k.blocks = true := by
      rw [hbl, hob]; simp [hk]
    refine ⟨_, rfl, ⟨done ++ [.copy k], rest, hdone, h2, ?_, h4.2, ?_⟩, rfl, ?_, ?_, ?_⟩
    · simp only
      rw [hin, replay_append, replay_bytesOf _ _ _ _ _ _ g.apart,
        memcpy_apply _ k.dst k.src k.n k.host k.blocks k.stream]
    · intro hnb m hm
      simp only at hnb
      have hnbk : k.blocks ≠ true := by
        intro q; rw [if_pos (hbk.2 q)] at hnb; cases hnb
      simp only [List.mem_append] at hm
      rcases hm with hm | hm
      · obtain ⟨x', a, y, e1, e2, e3, e4, e5, e6, e7⟩ := h5 m hm
        have hna : ¬ Awaits (.copy k) a := fun q => hnbk q.2
        refine ⟨x', a, y ++ [.copy k], by rw [e1]; simp, e2, e3, e4, e5, ?_, ?_⟩
        · intro j hj'
          simp only [List.mem_append, List.mem_singleton] at hj'
          rcases hj' with hj' | rfl
          · exact e6 j hj'
          · exact hna
        · exact e7.2.resolve_left hna
      · obtain ⟨-, e2, -, i, hi, e3, e4⟩ := mem_bytesOf hm
        refine ⟨done, k, [], rfl, ⟨hk, by simpa using hnbk⟩, e2.trans hst.symm, in_advance.2 ⟨i, hi, e3⟩,
          in_advance.2 ⟨i, hi, e4⟩, (fun j hj' => by cases hj'), ?_⟩
        rcases hsafe with q | q
        · rw [hk] at q; cases q
        · exact q
    · simp only
      rw [List.pairwise_append]
      refine ⟨h7, ?_, ?_⟩
      · exact (bytesOf_free g.apart).imp fun q => Or.inl q
      · intro m hm m' hm'
        obtain ⟨a, hs, hd, hsr, hap⟩ := hold m hm
        obtain ⟨f1, f2, -, i, hi, f3, f4⟩ := mem_bytesOf hm'
        have hd' : In m'.dst k.dst k.n := in_advance.2 ⟨i, hi, f3⟩
        have hs' : In m'.src k.src k.n := in_advance.2 ⟨i, hi, f4⟩
        rcases hap with hap | ⟨-, hap⟩
        · left
          refine ⟨fun q => (hap m.dst).1 ⟨hd, q ▸ hd'⟩, fun q => (hap m.dst).2.1 ⟨hd, q ▸ hs'⟩,
            fun q => (hap m.src).2.2 ⟨hsr, q ▸ hd'⟩⟩
        · right
          refine ⟨by rw [hs, f2, ← hst]; exact hap, ?_⟩
          rw [f1]; exact Nat.ne_of_lt (h8 m hm)
    · intro m hm
      simp only [List.mem_append] at hm
      rcases hm with hm | hm
      · exact Nat.lt_succ_of_lt (h8 m hm)
      · rw [(mem_bytesOf hm).1]; exact Nat.lt_succ_self _
    · intro q hq
      simp only at hq ⊢
      by_cases hc : sync = true ∧ b = true ∧ k.n ≠ 0
      · rw [if_pos hc] at hq
        cases hq
        have hnone : stream = none := by
          rcases hcall with ⟨-, r, -⟩ | ⟨-, r⟩
          · exact r
          · rw [r] at hc; exact absurd hc.1 (by simp)
        constructor
        · right
          refine ⟨⟨c.next, stream, advance k.dst (0 : Nat), advance k.src (0 : Nat), none⟩,
            List.mem_append_right _ ?_, rfl⟩
          exact List.mem_map.2 ⟨0, List.mem_range.2 (Nat.pos_of_ne_zero hc.2.2), rfl⟩
        · intro pre m post e hm
          rcases List.append_eq_append_iff.1 e with ⟨l, hl1, hl2⟩ | ⟨l, hl1, hl2⟩
          · have hmem : ∀ z ∈ m :: post, z ∈ bytesOf c.next stream k.dst k.src k.n := by
              intro z hz; rw [hl2]; exact List.mem_append_right _ hz
            refine ⟨(mem_bytesOf (hmem m (by simp))).2.1.trans hnone, fun z hz => ?_⟩
            exact (mem_bytesOf (hmem z (by simp [hz]))).1
          · cases l with
            | nil =>
              simp only [List.nil_append] at hl2
              have hmem : ∀ z ∈ m :: post, z ∈ bytesOf c.next stream k.dst k.src k.n := by
                intro z hz; rw [← hl2]; exact hz
              refine ⟨(mem_bytesOf (hmem m (by simp))).2.1.trans hnone, fun z hz => ?_⟩
              exact (mem_bytesOf (hmem z (by simp [hz]))).1
            | cons z l =>
              simp only [List.cons_append, List.cons.injEq] at hl2
              have : m ∈ c.pending := by rw [hl1, hl2.1]; simp
              exact absurd hm (Nat.ne_of_lt (h8 m this))
      · rw [if_neg hc] at hq; cases hq

/-- The host thread never makes a bad access and keeps the invariant. -/
theorem inv_host {live : Nat → Option Int} {jobs : List Job} {init : Cells} {c : Config}
    (h : Inv live jobs init c) :
    host true live c ≠ .fault ∧ ∀ c', host true live c = .next c' → Inv live jobs init c' := by
  cases hb : c.blocked with
  | some k =>
    unfold host
    rw [hb]
    simp only
    by_cases hp : c.pending.any (fun m => m.op == k) = true
    · rw [if_pos hp]; exact ⟨by simp, by simp⟩
    · rw [if_neg hp]
      refine ⟨by simp, fun c' hc' => ?_⟩
      cases hc'
      obtain ⟨⟨done, rest, h1, h2, h3, h4, h5⟩, h6, h7, h8, h9⟩ := h
      have hnil : c.pending = [] := by
        rcases (h9 k hb).1 with q | ⟨m, hm, hk⟩
        · exact q
        · exact absurd (List.any_eq_true.2 ⟨m, hm, by simp [hk]⟩) hp
      refine ⟨⟨done, rest, h1, h2, h3, h4, fun _ m hm => ?_⟩, h6, h7, h8, fun q hq => by cases hq⟩
      simp only [hnil] at hm; cases hm
  | none =>
    cases ht : c.todo with
    | nil => unfold host; rw [hb, ht]; exact ⟨by simp, by simp⟩
    | cons call todo =>
      cases call with
      | wait s =>
        unfold host
        rw [hb, ht]
        simp only
        by_cases hp : c.pending.any (fun m => m.stream == some s) = true
        · rw [if_pos hp]; exact ⟨by simp, by simp⟩
        · rw [if_neg hp]
          refine ⟨by simp, fun c' hc' => ?_⟩
          cases hc'
          obtain ⟨⟨done, rest, h1, h2, h3, h4, h5⟩, h6, h7, h8, h9⟩ := h
          rw [ht] at h2
          cases rest with
          | nil => cases h2
          | cons j rest =>
            rw [List.forall₂_cons] at h2
            obtain ⟨hj, h2⟩ := h2
            cases j with
            | copy k => exact absurd hj (by simp [Describes])
            | wait t =>
              have hts : t = s := hj
              subst hts
              refine ⟨⟨done ++ [.wait t], rest, by rw [h1]; simp, h2, ?_, h4, ?_⟩, h6, h7, h8, ?_⟩
              · rw [inOrder_append, ← h3]; rfl
              · intro _ m hm
                obtain ⟨x', a, y, e1, e2, e3, e4, e5, e6, e7⟩ := h5 hb m hm
                have hna : ¬ Awaits (.wait t) a := by
                  intro q
                  refine hp (List.any_eq_true.2 ⟨m, hm, ?_⟩)
                  rw [e3, show a.stream = some t from q]; simp
                refine ⟨x', a, y ++ [.wait t], by rw [e1]; simp, e2, e3, e4, e5, ?_,
                  e7.2.resolve_left hna⟩
                intro j hj'
                simp only [List.mem_append, List.mem_singleton] at hj'
                rcases hj' with hj' | rfl
                · exact e6 j hj'
                · exact hna
              · intro q hq; simp only [hb] at hq; cases hq
      | copy x =>
        obtain ⟨c', hc', hi⟩ := inv_issue h hb ht (x := x) (stream := none) (sync := true)
          (Or.inl ⟨rfl, rfl, rfl⟩)
        have e : host true live c = .next c' := by unfold host; rw [hb, ht]; exact hc'
        rw [e]; exact ⟨by simp, fun c2 h2 => by cases h2; exact hi⟩
      | async x s =>
        obtain ⟨c', hc', hi⟩ := inv_issue h hb ht (x := x) (stream := s) (sync := false)
          (Or.inr ⟨rfl, rfl⟩)
        have e : host true live c = .next c' := by unfold host; rw [hb, ht]; exact hc'
        rw [e]; exact ⟨by simp, fun c2 h2 => by cases h2; exact hi⟩

theorem inv_reach {live : Nat → Option Int} {jobs : List Job} {prog : List Call} {init : Cells}
    (h : List.Forall₂ (Describes live) jobs prog) (hs : Separated jobs) {c : Config}
    (hr : Reach true live (start init prog) c) : Inv live jobs init c := by
  induction hr with
  | here => exact inv_start init h hs
  | step _ st ih =>
    cases st with
    | host e => exact (inv_host ih).2 _ e
    | fetch e hr hh => exact inv_fetch ih e hr hh
    | store e hr hh => exact inv_store ih e hr hh

end Sdp.Stream
