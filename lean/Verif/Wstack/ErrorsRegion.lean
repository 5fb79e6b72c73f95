import Mathlib.Algebra.BigOperators.Group.List.Basic
import Mathlib.Data.List.Perm.Basic
import Mathlib.Tactic.Common
import Mathlib.Tactic.Ring
import Verif.Wstack.Errors

/-! # C112: the workers of a w-plane when something fails -/

namespace Sdp.Wstack.Err

theorem after_ok (st r : Status) : after st r = .success ↔ st = .success ∧ r = .success := by
  unfold after
  by_cases h : st = .success
  · rw [if_neg (by simpa using h)]; simp [h]
  · rw [if_pos h]; simp [h]

theorem after_bad {st : Status} (h : st ≠ .success) (r : Status) : after st r = st := if_pos h

theorem fold_ok (l : List Status) : ∀ st : Status, l.foldl after st = .success ↔ st = .success ∧ ∀ r ∈ l, r = .success := by
  induction l with
  | nil => simp
  | cons a l ih =>
    intro st
    rw [List.foldl_cons, ih, after_ok, List.forall_mem_cons, and_assoc]

theorem fold_bad (l : List Status) {st : Status} (h : st ≠ .success) : l.foldl after st = st := by
  induction l with
  | nil => rfl
  | cons a l ih => rw [List.foldl_cons, after_bad h, ih]

theorem sub_ok (st : Status) (s : Sub) : s.run st = .success ↔ st = .success ∧ s.result = .success := by
  unfold Sub.run
  by_cases h : st = .success
  · rw [if_neg (by simp [h])]
    by_cases hr : s.result = .success
    · simp [h, hr]
    · simp [hr]
  · by_cases hr : s.result = .success
    · simp [h, hr]
    · cases s.checked <;> simp [h, hr]

theorem subs_ok (l : List Sub) : ∀ st : Status, l.foldl Sub.run st = .success ↔ st = .success ∧ ∀ s ∈ l, s.result = .success := by
  induction l with
  | nil => simp
  | cons a l ih =>
    intro st
    rw [List.foldl_cons, ih, sub_ok, List.forall_mem_cons, and_assoc]

/-! ## Steps -/

theorem step_eq {s : Reg} {l1 l2 : List Phase} {p : Phase} (h : s.workers = l1 ++ p :: l2) :
    s.step l1.length = ⟨(move s.pending s.status s.count p).1, l1 ++ (move s.pending s.status s.count p).2.1 :: l2,
      (move s.pending s.status s.count p).2.2.1, (move s.pending s.status s.count p).2.2.2⟩ := by
  have e : s.workers[l1.length]? = some p := by rw [h]; simp
  have e2 : s.workers.set l1.length (move s.pending s.status s.count p).2.1 =
      l1 ++ (move s.pending s.status s.count p).2.1 :: l2 := by rw [h]; simp
  unfold Reg.step
  rw [e]
  simp only [e2]

/-- A step of any worker is a step of a worker in the list, or nothing. -/
theorem step_cases (s : Reg) (i : Nat) : s.step i = s ∨ ∃ l1 p l2, s.workers = l1 ++ p :: l2 ∧ i = l1.length := by
  cases h : s.workers[i]? with
  | none => left; unfold Reg.step; rw [h]
  | some p =>
    right
    obtain ⟨hi, hp⟩ := List.getElem?_eq_some_iff.1 h
    refine ⟨s.workers.take i, p, s.workers.drop (i + 1), ?_, ?_⟩
    · rw [← hp, List.cons_getElem_drop_succ, List.take_append_drop]
    · rw [List.length_take]; omega

/-- Invariants by induction over the schedule. -/
theorem sched_inv (I : Reg → Prop) (s0 : Reg) (h0 : I s0)
    (hs : ∀ s l1 p l2, I s → s.workers = l1 ++ p :: l2 → I ⟨(move s.pending s.status s.count p).1,
      l1 ++ (move s.pending s.status s.count p).2.1 :: l2, (move s.pending s.status s.count p).2.2.1,
      (move s.pending s.status s.count p).2.2.2⟩) (sched : List Nat) : I (sched.foldl Reg.step s0) := by
  induction sched using List.reverseRecOn with
  | nil => exact h0
  | append_singleton l i ih =>
    rw [List.foldl_append, List.foldl_cons, List.foldl_nil]
    rcases step_cases (l.foldl Reg.step s0) i with h | ⟨l1, p, l2, h, rfl⟩
    · rw [h]; exact ih
    · rw [step_eq h]; exact hs _ _ _ _ ih h

/-! ## After an error -/

theorem bad_start {chunks : List Chunk} {workers : Nat} {st st' : Status} {count : Int} (hst : st ≠ .success)
    (h : Region chunks workers st st' count) : st' = st ∧ count = 0 := by
  obtain ⟨sched, -, rfl, rfl⟩ := h
  have := sched_inv (fun s => s.status = st ∧ s.count = 0 ∧ ∀ p ∈ s.workers, p = .top ∨ p = .out)
    (Reg.start chunks workers st) ⟨rfl, rfl, fun p hp => Or.inl (List.eq_of_mem_replicate hp)⟩ (by
      rintro s l1 p l2 ⟨h1, h2, h3⟩ hw
      rw [hw] at h3
      have hp := h3 p (by simp)
      have ho : ∀ q ∈ l1 ++ l2, q = .top ∨ q = .out := fun q hq => h3 q (by
        rcases List.mem_append.1 hq with h | h <;> simp [h])
      have hn : (move s.pending s.status s.count p).2.1 = .out ∧ (move s.pending s.status s.count p).2.2 = (s.status, s.count) := by
        rcases hp with rfl | rfl
        · simp only [move, h1, ne_eq, hst, not_false_eq_true, if_true, and_self]
        · exact ⟨rfl, rfl⟩
      refine ⟨?_, ?_, ?_⟩
      · show (move s.pending s.status s.count p).2.2.1 = st
        rw [hn.2]; exact h1
      · show (move s.pending s.status s.count p).2.2.2 = 0
        rw [hn.2]; exact h2
      · intro q hq
        rcases List.mem_append.1 hq with h | h
        · exact ho q (by simp [h])
        · rcases List.mem_cons.1 h with rfl | h
          · exact Or.inr hn.1
          · exact ho q (by simp [h])) sched
  exact ⟨this.1, this.2.1⟩

/-! ## Nothing is lost -/

/-- Everything called for the chunk succeeds. -/
def Chunk.Good (c : Chunk) : Prop := c.clamp = .success ∧ c.diff = .success ∧ (c.vis ≠ 0 → ∀ r ∈ c.work, r = .success)

/-- The chunk a worker has in hand. -/
def inHand : Phase → List Chunk
  | .clamp c | .diff c | .add c | .body c _ => [c]
  | _ => []

/-- Visibilities of that chunk that have been counted. -/
def counted : Phase → Int
  | .body c _ => c.vis
  | _ => 0

/-- What is known about the chunk in hand if there has been no error. -/
def Fine : Phase → Prop
  | .diff c => c.clamp = .success
  | .add c => c.clamp = .success ∧ c.diff = .success ∧ c.vis ≠ 0
  | .body c todo => c.clamp = .success ∧ c.diff = .success ∧ c.vis ≠ 0 ∧ ∃ pre, c.work = pre ++ todo ∧ ∀ r ∈ pre, r = .success
  | _ => True

structure Inv (chunks : List Chunk) (s : Reg) : Prop where
  books : s.status = .success → ∃ dn : List Chunk, chunks.Perm (dn ++ (s.workers.flatMap inHand ++ s.pending)) ∧
    (∀ c ∈ dn, c.Good) ∧ s.count = (dn.map Chunk.vis).sum + (s.workers.map counted).sum
  fine : s.status = .success → ∀ p ∈ s.workers, Fine p
  out : .out ∈ s.workers → s.status = .success → s.pending = []
  good : (∀ c ∈ chunks, c.Good) → s.status = .success

/-- What a step does to the list of chunks in hand and pending, and to the counter: the chunks `dn` are finished by it. -/
theorem move_books (pending : List Chunk) (count : Int) (p : Phase) (hp : Fine p)
    (hs : (move pending .success count p).2.2.1 = .success) :
    ∃ dn : List Chunk, (inHand p ++ pending).Perm (dn ++ (inHand (move pending .success count p).2.1 ++ (move pending .success count p).1)) ∧
      (∀ c ∈ dn, c.Good) ∧ (move pending .success count p).2.2.2 + counted p =
        count + (dn.map Chunk.vis).sum + counted (move pending .success count p).2.1 ∧ Fine (move pending .success count p).2.1 ∧
      ((move pending .success count p).2.1 = .out → p ≠ .out → (move pending .success count p).1 = []) := by
  cases p with
  | top => exact ⟨[], by simp [move, inHand], by simp, by simp [move, counted], by simp [move, Fine], by simp [move]⟩
  | pick =>
    cases pending with
    | nil => exact ⟨[], by simp [move, inHand], by simp, by simp [move, counted], by simp [move, Fine], by simp [move]⟩
    | cons c l => exact ⟨[], by simp [move, inHand], by simp, by simp [move, counted], by simp [move, Fine], by simp [move]⟩
  | clamp c =>
    have h : c.clamp = .success := ((after_ok .success c.clamp).1 hs).2
    exact ⟨[], by simp [move, inHand], by simp, by simp [move, counted], h, by simp [move]⟩
  | diff c =>
    have hc : c.clamp = .success := hp
    by_cases h : after .success c.diff ≠ .success ∨ c.vis = 0
    · have e : move pending .success count (.diff c) = (pending, .top, after .success c.diff, count) := by
        simp only [move, if_pos h]
      rw [e] at hs ⊢
      have hd : c.diff = .success := ((after_ok .success c.diff).1 hs).2
      have hv : c.vis = 0 := h.resolve_left (by simpa using hs)
      refine ⟨[c], by simp [inHand], ?_, by simp [counted, hv], by simp [Fine], by simp⟩
      intro c' hc'
      rw [List.mem_singleton.1 hc']
      exact ⟨hc, hd, fun h => absurd hv h⟩
    · have e : move pending .success count (.diff c) = (pending, .add c, .success, count) := by
        simp only [move, if_neg h]
      rw [e]
      have hd : c.diff = .success := by
        by_contra hd
        exact h (Or.inl (by rw [Ne, after_ok]; exact fun x => hd x.2))
      exact ⟨[], by simp [inHand], by simp, by simp [counted], ⟨hc, hd, fun hv => h (Or.inr hv)⟩, by simp⟩
  | add c =>
    obtain ⟨h1, h2, h3⟩ := hp
    exact ⟨[], by simp [move, inHand], by simp, by simp [move, counted], ⟨h1, h2, h3, [], rfl, by simp⟩, by simp [move]⟩
  | body c todo =>
    obtain ⟨h1, h2, h3, pre, h4, h5⟩ := hp
    cases todo with
    | nil =>
      refine ⟨[c], by simp [move, inHand], ?_, by simp [move, counted], by simp [move, Fine], by simp [move]⟩
      intro c' hc'
      rw [List.mem_singleton.1 hc']
      refine ⟨h1, h2, fun _ => ?_⟩
      rw [h4, List.append_nil]
      exact h5
    | cons r rs =>
      have hr : r = .success := ((after_ok .success r).1 hs).2
      refine ⟨[], by simp [move, inHand], by simp, by simp [move, counted], ⟨h1, h2, h3, pre ++ [r], by simp [h4], ?_⟩, by simp [move]⟩
      intro x hx
      rcases List.mem_append.1 hx with h | h
      · exact h5 x h
      · rw [List.mem_singleton.1 h]; exact hr
  | out => exact ⟨[], by simp [move, inHand], by simp, by simp [move, counted], by simp [move, Fine], by simp⟩

/-- Once set, an error stays. -/
theorem move_bad (pending : List Chunk) {st : Status} (count : Int) (p : Phase) (h : st ≠ .success) :
    (move pending st count p).2.2.1 = st := by
  cases p with
  | pick => cases pending <;> rfl
  | clamp c => exact after_bad h _
  | diff c =>
    simp only [move]
    split
    · exact after_bad h _
    · rfl
  | body c todo =>
    cases todo with
    | nil => rfl
    | cons r rs => exact after_bad h _
  | _ => rfl

theorem move_good (pending : List Chunk) (count : Int) (p : Phase) (hp : Fine p) (hg : ∀ c ∈ inHand p, c.Good) :
    (move pending .success count p).2.2.1 = .success := by
  cases p with
  | pick => cases pending <;> rfl
  | clamp c => exact (after_ok _ _).2 ⟨rfl, (hg c (by simp [inHand])).1⟩
  | diff c =>
    simp only [move]
    split
    · exact (after_ok _ _).2 ⟨rfl, (hg c (by simp [inHand])).2.1⟩
    · rfl
  | body c todo =>
    cases todo with
    | nil => rfl
    | cons r rs =>
      obtain ⟨-, -, h3, pre, h4, -⟩ := hp
      exact (after_ok _ _).2 ⟨rfl, (hg c (by simp [inHand])).2.2 h3 r (by simp [h4])⟩
  | _ => rfl

theorem inv_sched {chunks : List Chunk} {workers : Nat} (sched : List Nat) :
    Inv chunks (sched.foldl Reg.step (Reg.start chunks workers .success)) := by
  refine sched_inv (Inv chunks) _ ?_ ?_ sched
  · have e : (List.replicate workers Phase.top).flatMap inHand = [] := by
      rw [List.flatMap_eq_nil_iff]
      intro p hp
      rw [List.eq_of_mem_replicate hp]
      rfl
    refine ⟨fun _ => ⟨[], ?_, by simp, ?_⟩, fun _ p hp => ?_, fun h => ?_, fun _ => rfl⟩
    · show chunks.Perm ([] ++ ((List.replicate workers Phase.top).flatMap inHand ++ chunks))
      rw [e]; simp
    · show (0 : Int) = 0 + ((List.replicate workers Phase.top).map counted).sum
      rw [List.map_replicate]
      simp [counted]
    · rw [List.eq_of_mem_replicate hp]; trivial
    · exact absurd (List.eq_of_mem_replicate h) (by simp)
  · intro s l1 p l2 hi hw
    have hstat : (move s.pending s.status s.count p).2.2.1 = .success → s.status = .success := by
      intro h
      by_contra hn
      rw [move_bad _ _ _ hn] at h
      exact hn h
    have key : (move s.pending s.status s.count p).2.2.1 = .success → s.status = .success ∧
        ∃ dn : List Chunk, (inHand p ++ s.pending).Perm (dn ++ (inHand (move s.pending s.status s.count p).2.1 ++
          (move s.pending s.status s.count p).1)) ∧ (∀ c ∈ dn, c.Good) ∧ (move s.pending s.status s.count p).2.2.2 + counted p =
        s.count + (dn.map Chunk.vis).sum + counted (move s.pending s.status s.count p).2.1 ∧
        Fine (move s.pending s.status s.count p).2.1 ∧
      ((move s.pending s.status s.count p).2.1 = .out → p ≠ .out → (move s.pending s.status s.count p).1 = []) := by
      intro h
      have h0 := hstat h
      refine ⟨h0, ?_⟩
      rw [h0] at h ⊢
      exact move_books _ _ _ (hi.fine h0 p (by rw [hw]; simp)) h
    refine ⟨fun h => ?_, fun h q hq => ?_, fun ho h => ?_, fun hg => ?_⟩
    · obtain ⟨h0, dn, k1, k2, k3, -, -⟩ := key h
      obtain ⟨d0, b1, b2, b3⟩ := hi.books h0
      refine ⟨d0 ++ dn, ?_, ?_, ?_⟩
      · refine b1.trans ?_
        rw [hw, List.flatMap_append, List.flatMap_cons, List.flatMap_append, List.flatMap_cons, List.append_assoc d0 dn]
        refine List.Perm.append_left d0 ?_
        show ((List.flatMap inHand l1 ++ (inHand p ++ List.flatMap inHand l2)) ++ s.pending).Perm (dn ++ ((List.flatMap inHand l1 ++
          (inHand (move s.pending s.status s.count p).2.1 ++ List.flatMap inHand l2)) ++ (move s.pending s.status s.count p).1))
        generalize inHand (move s.pending s.status s.count p).2.1 = Y at k1 ⊢
        generalize (move s.pending s.status s.count p).1 = Z at k1 ⊢
        generalize List.flatMap inHand l1 = A
        generalize List.flatMap inHand l2 = B
        have e1 : ((A ++ (inHand p ++ B)) ++ s.pending).Perm ((A ++ B) ++ (inHand p ++ s.pending)) := by
          simp only [List.append_assoc]
          refine List.Perm.append_left A ?_
          rw [← List.append_assoc, ← List.append_assoc]
          exact List.Perm.append_right _ List.perm_append_comm
        have e2 : ((A ++ B) ++ (dn ++ (Y ++ Z))).Perm (dn ++ ((A ++ (Y ++ B)) ++ Z)) := by
          rw [← List.append_assoc]
          refine (List.Perm.append_right _ List.perm_append_comm).trans ?_
          simp only [List.append_assoc]
          refine List.Perm.append_left dn (List.Perm.append_left A ?_)
          rw [← List.append_assoc, ← List.append_assoc]
          exact List.Perm.append_right _ List.perm_append_comm
        exact (e1.trans (List.Perm.append_left _ k1)).trans e2
      · intro c hc
        rcases List.mem_append.1 hc with hc | hc
        · exact b2 c hc
        · exact k2 c hc
      · rw [hw] at b3
        simp only [List.map_append, List.map_cons, List.sum_append, List.sum_cons] at b3 ⊢
        omega
    · obtain ⟨h0, dn, -, -, -, k4, -⟩ := key h
      have hf := hi.fine h0
      rw [hw] at hf
      rcases List.mem_append.1 hq with h | h
      · exact hf q (by simp [h])
      · rcases List.mem_cons.1 h with rfl | h
        · exact k4
        · exact hf q (by simp [h])
    · obtain ⟨h0, dn, k1, -, -, -, k5⟩ := key h
      by_cases hs : .out ∈ s.workers
      · have hp := hi.out hs h0
        rw [hp]
        cases p with
        | diff c =>
          simp only [move]
          split <;> rfl
        | body c todo => cases todo <;> rfl
        | _ => rfl
      · rw [hw] at hs
        have ho' : (move s.pending s.status s.count p).2.1 = .out := by
          rcases List.mem_append.1 ho with h | h
          · exact absurd (by simp [h]) hs
          · rcases List.mem_cons.1 h with h | h
            · exact h.symm
            · exact absurd (by simp [h]) hs
        exact k5 ho' (by rintro rfl; exact hs (by simp))
    · have h0 := hi.good hg
      obtain ⟨d0, b1, -, -⟩ := hi.books h0
      show (move s.pending s.status s.count p).2.2.1 = .success
      rw [h0]
      refine move_good _ _ _ (hi.fine h0 p (by rw [hw]; simp)) fun c hc => hg c ?_
      rw [b1.mem_iff, hw]
      simp [hc]

/-- **C112, the workers.**  For every schedule: after an error nothing is counted and the error stays; if there is none at the
end, every function called for every chunk has succeeded and all visibilities have been counted; if they all succeed, there is
none. -/
theorem C112_region {chunks : List Chunk} {workers : Nat} (hw : 0 < workers) {st st' : Status} {count : Int}
    (h : Region chunks workers st st' count) : (st ≠ .success → st' = st ∧ count = 0) ∧
      (st' = .success → st = .success ∧ (∀ c ∈ chunks, c.Good) ∧ count = (chunks.map Chunk.vis).sum) ∧
      (st = .success → (∀ c ∈ chunks, c.Good) → st' = .success) := by
  refine ⟨fun hs => bad_start hs h, fun hs => ?_, fun hs hg => ?_⟩
  · have h0 : st = .success := by
      by_contra hn
      exact hn ((bad_start hn h).1.symm.trans hs)
    subst h0
    obtain ⟨sched, hf, h1, rfl⟩ := h
    have hi := inv_sched (chunks := chunks) (workers := workers) sched
    have hlen : (sched.foldl Reg.step (Reg.start chunks workers .success)).workers.length = workers := by
      refine sched_inv (fun s => s.workers.length = workers) _ (by simp [Reg.start]) ?_ sched
      intro s l1 p l2 hi hw'
      rw [hw'] at hi
      simpa using hi
    rw [hs] at h1
    obtain ⟨dn, b1, b2, b3⟩ := hi.books h1
    have e1 : (sched.foldl Reg.step (Reg.start chunks workers .success)).workers.flatMap inHand = [] := by
      rw [List.flatMap_eq_nil_iff]
      intro p hp
      rw [hf p hp]
      rfl
    have e2 : ((sched.foldl Reg.step (Reg.start chunks workers .success)).workers.map counted).sum = 0 := by
      apply List.sum_eq_zero
      intro x hx
      obtain ⟨p, hp, rfl⟩ := List.mem_map.1 hx
      rw [hf p hp]
      rfl
    have e3 : (sched.foldl Reg.step (Reg.start chunks workers .success)).pending = [] := by
      refine hi.out ?_ h1
      obtain ⟨p, hp⟩ := List.exists_mem_of_length_pos (l := (sched.foldl Reg.step (Reg.start chunks workers .success)).workers)
        (by rw [hlen]; exact hw)
      rw [← hf p hp]
      exact hp
    rw [e1, e3, List.append_nil, List.append_nil] at b1
    rw [e2, add_zero] at b3
    exact ⟨rfl, fun c hc => b2 c (b1.mem_iff.1 hc), b3.trans (b1.map _).sum_eq.symm⟩
  · subst hs
    obtain ⟨sched, -, rfl, -⟩ := h
    exact (inv_sched sched).good hg

/-! ## The region ends -/

def Phase.left : Phase → Nat
  | .top => 2
  | .pick => 1
  | .clamp c => c.work.length + 6
  | .diff c => c.work.length + 5
  | .add c => c.work.length + 4
  | .body _ todo => todo.length + 3
  | .out => 0

/-- Bound on the number of steps. -/
def Reg.left (s : Reg) : Nat := (s.pending.map fun c => c.work.length + 7).sum + (s.workers.map Phase.left).sum

theorem move_left (pending : List Chunk) (st : Status) (count : Int) (p : Phase) (hp : p ≠ .out) :
    ((move pending st count p).1.map fun c => c.work.length + 7).sum + (move pending st count p).2.1.left <
      (pending.map fun c => c.work.length + 7).sum + p.left := by
  cases p with
  | top =>
    simp only [move]
    split <;> simp [Phase.left]
  | pick => cases pending <;> simp [move, Phase.left]; omega
  | diff c =>
    simp only [move]
    split <;> simp [Phase.left]
  | body c todo => cases todo <;> simp [move, Phase.left]
  | out => exact absurd rfl hp
  | _ => simp [move, Phase.left]

/-- **C112, the workers end**: from every state some schedule ends the region, and a schedule that does nothing but take
steps of workers still in the loop has at most `left` of them. -/
theorem C112_region_ends (s : Reg) : (∃ sched : List Nat, (sched.foldl Reg.step s).final) ∧
    ∀ l1 p l2, s.workers = l1 ++ p :: l2 → p ≠ .out → (s.step l1.length).left < s.left := by
  have hstep : ∀ (s : Reg) l1 p l2, s.workers = l1 ++ p :: l2 → p ≠ .out → (s.step l1.length).left < s.left := by
    intro s l1 p l2 hw hp
    have := move_left s.pending s.status s.count p hp
    rw [step_eq hw]
    unfold Reg.left
    simp only [hw, List.map_append, List.map_cons, List.sum_append, List.sum_cons]
    omega
  refine ⟨?_, hstep s⟩
  generalize hn : s.left = n
  induction n using Nat.strong_induction_on generalizing s with
  | _ n ih =>
    by_cases hf : s.final
    · exact ⟨[], hf⟩
    · unfold Reg.final at hf
      push Not at hf
      obtain ⟨p, hp, hne⟩ := hf
      obtain ⟨l1, l2, hw⟩ := List.append_of_mem hp
      have h1 := hstep s l1 p l2 hw hne
      obtain ⟨sched, h2⟩ := ih _ (by rw [← hn]; exact h1) (s.step l1.length) rfl
      exact ⟨l1.length :: sched, h2⟩

theorem region_exists (chunks : List Chunk) (workers : Nat) (st : Status) : ∃ st' count, Region chunks workers st st' count := by
  obtain ⟨sched, h⟩ := (C112_region_ends (Reg.start chunks workers st)).1
  exact ⟨_, _, sched, h, rfl, rfl⟩

end Sdp.Wstack.Err
