import Verif.Common.Race

/-!
# OpenMP parallel loops

`#pragma omp parallel for` hands every iteration to one thread of a team; which iterations a thread gets,
how many threads there are and in which order a thread is given its iterations is not specified.  A team is
a list of lists: the iterations of each thread, in the order in which that thread does them.  The threads
interleave at every access to the array that the loop writes; there is a barrier at the end of the loop.
-/

namespace Sdp.Race
variable {α ι : Type}

/-- One program after another, by the same thread. -/
def Prog.andThen : Prog α → Prog α → Prog α
  | .done, q => q
  | .fault, _ => .fault
  | .read i k, q => .read i fun v => (k v).andThen q
  | .write i v k, q => .write i v (k.andThen q)

/-- Several programs one after another, by the same thread. -/
def Prog.seqAll (ps : List (Prog α)) : Prog α := ps.foldr Prog.andThen .done

theorem exec_andThen (p q : Prog α) (a : Arr α) : (p.andThen q).exec a = (p.exec a).bind q.exec := by
  induction p generalizing a with
  | done => rfl
  | fault => rfl
  | read i k ih =>
    simp only [Prog.andThen, Prog.exec, ih, Option.bind_assoc]
  | write i v k ih =>
    simp only [Prog.andThen, Prog.exec, ih, Option.bind_assoc]

theorem within_andThen {S : Int → Prop} {p q : Prog α} (hp : p.Within S) (hq : q.Within S) :
    (p.andThen q).Within S := by
  induction p with
  | done => exact hq
  | fault => trivial
  | read i k ih => exact ⟨hp.1, fun v => ih v (hp.2 v)⟩
  | write i v k ih => exact ⟨hp.1, ih hp.2⟩

theorem exec_seqAll (ps : List (Prog α)) (a : Arr α) :
    (Prog.seqAll ps).exec a = loop (fun a p => p.exec a) a ps := by
  induction ps generalizing a with
  | nil => rfl
  | cons p ps ih =>
    show (p.andThen (Prog.seqAll ps)).exec a = _
    rw [exec_andThen]
    simp only [loop]
    congr 1
    funext b
    exact ih b

theorem within_seqAll {S : Int → Prop} {ps : List (Prog α)} (h : ∀ p ∈ ps, p.Within S) :
    (Prog.seqAll ps).Within S := by
  induction ps with
  | nil => trivial
  | cons p ps ih =>
    exact within_andThen (h p (by simp)) (ih fun q hq => h q (by simp [hq]))

theorem Prog.Within.weaken {S T : Int → Prop} (h : ∀ x, S x → T x) {q : Prog α} (hq : q.Within S) :
    q.Within T := by
  induction q with
  | done => trivial
  | fault => trivial
  | read i k ih => exact ⟨h _ hq.1, fun v => ih v (hq.2 v)⟩
  | write i v k ih => exact ⟨h _ hq.1, ih hq.2⟩

/-- A team for a loop of `n` iterations: every iteration is done by exactly one thread, once. -/
def Team (n : Nat) (chunks : List (List Nat)) : Prop := chunks.flatten.Perm (List.range n)

/-- What thread `t` of the team does. -/
def teamProg (body : Nat → Prog α) (chunks : List (List Nat)) (t : Nat) : Prog α :=
  Prog.seqAll ((chunks.getD t []).map body)

/-- The loop on a team: all schedules of all its threads give `r`. -/
def TeamYields (body : Nat → Prog α) (chunks : List (List Nat)) (a r : Arr α) : Prop :=
  Yields (teamProg body chunks) (List.range chunks.length) a r

theorem seq_exists [DecidableEq ι] (prog : ι → Prog α) (S : ι → Int → Prop) (ts : List ι) (hn : ts.Nodup)
    (hw : ∀ t ∈ ts, (prog t).Within (S t))
    (hd : ∀ t ∈ ts, ∀ t' ∈ ts, t ≠ t' → ∀ i, S t i → ¬ S t' i) (a : Arr α)
    (he : ∀ t ∈ ts, ∃ x, (prog t).exec a = some x) :
    ∃ r, loop (fun a t => (prog t).exec a) a ts = some r := by
  induction ts generalizing a with
  | nil => exact ⟨a, rfl⟩
  | cons t ts ih =>
    obtain ⟨b, hb⟩ := he t (by simp)
    obtain ⟨f1, f2⟩ := exec_frame (hw t (by simp)) hb
    have hne : ∀ t' ∈ ts, t ≠ t' := fun t' h' e => (List.nodup_cons.1 hn).1 (e ▸ h')
    obtain ⟨r, hr⟩ := ih (List.nodup_cons.1 hn).2 (fun t' h' => hw t' (by simp [h']))
      (fun t1 h1 t2 h2 => hd t1 (by simp [h1]) t2 (by simp [h2])) b (by
        intro t' h'
        obtain ⟨x, hx⟩ := he t' (by simp [h'])
        obtain ⟨y, hy, _⟩ := exec_local (hw t' (by simp [h'])) f1 (by
          intro i hi
          exact (f2 i fun hi' => hd t (by simp) t' (by simp [h']) (hne t' h') i hi' hi).symm) hx
        exact ⟨y, hy⟩)
    refine ⟨r, ?_⟩
    simp only [loop]
    rw [hb]
    exact hr

/-- Threads that do not share cells, one after the other: the order does not matter. -/
theorem seq_perm [DecidableEq ι] (prog : ι → Prog α) (S : ι → Int → Prop) (ts ts' : List ι) (hn : ts.Nodup)
    (hp : ts'.Perm ts) (hw : ∀ t ∈ ts, (prog t).Within (S t))
    (hd : ∀ t ∈ ts, ∀ t' ∈ ts, t ≠ t' → ∀ i, S t i → ¬ S t' i) (a r : Arr α)
    (hr : loop (fun a t => (prog t).exec a) a ts = some r) :
    loop (fun a t => (prog t).exec a) a ts' = some r := by
  obtain ⟨s1, s2, s3⟩ := seq_spec prog S ts hn hw hd a r hr
  have hm : ∀ t, t ∈ ts' ↔ t ∈ ts := fun t => hp.mem_iff
  have hn' : ts'.Nodup := hp.nodup_iff.2 hn
  have hw' : ∀ t ∈ ts', (prog t).Within (S t) := fun t h => hw t ((hm t).1 h)
  have hd' : ∀ t ∈ ts', ∀ t' ∈ ts', t ≠ t' → ∀ i, S t i → ¬ S t' i :=
    fun t h t' h' => hd t ((hm t).1 h) t' ((hm t').1 h')
  obtain ⟨q, hq⟩ := seq_exists prog S ts' hn' hw' hd' a (fun t h => by
    obtain ⟨x, hx, _⟩ := s2 t ((hm t).1 h)
    exact ⟨x, hx⟩)
  obtain ⟨q1, q2, q3⟩ := seq_spec prog S ts' hn' hw' hd' a q hq
  rw [hq]
  congr 1
  have hget : q.get = r.get := by
    funext i
    by_cases hi : ∃ t ∈ ts, S t i
    · obtain ⟨t, ht, hi⟩ := hi
      obtain ⟨x, x1, x2⟩ := s2 t ht
      obtain ⟨y, y1, y2⟩ := q2 t ((hm t).2 ht)
      rw [x1] at y1
      cases y1
      rw [← x2 i hi, ← y2 i hi]
    · have hi' : ∀ t ∈ ts, ¬ S t i := fun t ht h => hi ⟨t, ht, h⟩
      rw [s3 i hi', q3 i fun t ht => hi' t ((hm t).1 ht)]
  have hsz : q.size = r.size := by rw [q1, s1]
  cases q with
  | mk n g =>
    cases r with
    | mk n' g' => simp only at hsz hget; rw [hsz, hget]

/-- **Parallel loops.**  If no two iterations of a loop access the same cell of the array, then on every team
and under every schedule the loop does what it does when run on one thread. -/
theorem team_yields (body : Nat → Prog α) (S : Nat → Int → Prop) (n : Nat)
    (hw : ∀ i, i < n → (body i).Within (S i))
    (hd : ∀ i i', i < n → i' < n → i ≠ i' → ∀ x, S i x → ¬ S i' x) (a r : Arr α)
    (hr : loop (fun a i => (body i).exec a) a (List.range n) = some r)
    (chunks : List (List Nat)) (hc : Team n chunks) : TeamYields body chunks a r := by
  have hseq := seq_perm body S (List.range n) chunks.flatten List.nodup_range hc
    (fun t h => hw t (List.mem_range.1 h))
    (fun t h t' h' => hd t t' (List.mem_range.1 h) (List.mem_range.1 h')) a r hr
  have hnd : chunks.flatten.Nodup := hc.nodup_iff.2 List.nodup_range
  have hmem : ∀ t i, i ∈ chunks.getD t [] → i < n := by
    intro t i hi
    refine List.mem_range.1 (hc.mem_iff.1 (List.mem_flatten.2 ⟨chunks.getD t [], ?_, hi⟩))
    rw [List.getD_eq_getElem?_getD] at hi ⊢
    cases he : chunks[t]? with
    | none => rw [he] at hi; simp at hi
    | some c => exact List.mem_of_getElem? he
  refine yields_seq _ (fun t x => ∃ i ∈ chunks.getD t [], S i x) _ List.nodup_range ?_ ?_ a r ?_
  · intro t _
    unfold teamProg
    refine within_seqAll fun p hp => ?_
    obtain ⟨i, hi, rfl⟩ := List.mem_map.1 hp
    exact (hw i (hmem t i hi)).weaken fun x hx => ⟨i, hi, hx⟩
  · rintro t ht t' ht' hne x ⟨i, hi, hx⟩ ⟨i', hi', hx'⟩
    refine hd i i' (hmem t i hi) (hmem t' i' hi') ?_ x hx hx'
    rintro rfl
    have hp := (List.nodup_flatten.1 hnd).2
    rw [List.pairwise_iff_getElem] at hp
    have g1 := List.mem_range.1 ht
    have g2 := List.mem_range.1 ht'
    rw [List.getD_eq_getElem?_getD, List.getElem?_eq_getElem g1, Option.getD_some] at hi
    rw [List.getD_eq_getElem?_getD, List.getElem?_eq_getElem g2, Option.getD_some] at hi'
    rcases Nat.lt_or_gt_of_ne hne with h | h
    · exact hp t t' g1 g2 h hi hi'
    · exact hp t' t g2 g1 h hi' hi
  · have e : (List.range chunks.length).flatMap (fun t => chunks.getD t []) = chunks.flatten := by
      rw [List.flatMap_def]
      congr 1
      apply List.ext_getElem
      · simp
      · intro k h1 h2
        simp only [List.getElem_map, List.getElem_range]
        rw [List.getD_eq_getElem?_getD, List.getElem?_eq_getElem h2, Option.getD_some]
    rw [← e, loop_flatMap] at hseq
    rw [← hseq]
    refine loop_congr _ _ _ _ fun t _ s => ?_
    unfold teamProg
    rw [exec_seqAll, loop_map]

/-- A parallel loop: its iterations, how many there are, and the team that runs it. -/
structure Region (α : Type) where
  body : Nat → Prog α
  n : Nat
  chunks : List (List Nat)

/-- Parallel loops one after the other, with a barrier after each: whatever the schedules, they turn the
first array into the second. -/
def Regions : List (Region α) → Arr α → Arr α → Prop
  | [], a, r => a = r
  | g :: gs, a, r => ∃ b, TeamYields g.body g.chunks a b ∧ Regions gs b r

theorem regions_yield (gs : List (Region α)) (S : Region α → Nat → Int → Prop)
    (hw : ∀ g ∈ gs, ∀ i, i < g.n → (g.body i).Within (S g i))
    (hd : ∀ g ∈ gs, ∀ i i', i < g.n → i' < g.n → i ≠ i' → ∀ x, S g i x → ¬ S g i' x)
    (hc : ∀ g ∈ gs, Team g.n g.chunks) (a r : Arr α)
    (hr : loop (fun a (g : Region α) => loop (fun a i => (g.body i).exec a) a (List.range g.n)) a gs = some r) :
    Regions gs a r := by
  induction gs generalizing a with
  | nil => simpa [loop, Regions] using hr
  | cons g gs ih =>
    simp only [loop] at hr
    cases hb : loop (fun a i => (g.body i).exec a) a (List.range g.n) with
    | none => rw [hb] at hr; simp at hr
    | some b =>
      rw [hb] at hr
      exact ⟨b, team_yields g.body (S g) g.n (hw g (by simp)) (hd g (by simp)) a b hb g.chunks (hc g (by simp)),
        ih (fun g' h => hw g' (by simp [h])) (fun g' h => hd g' (by simp [h])) (fun g' h => hc g' (by simp [h])) b hr⟩

/-- `view[x] += v`. -/
def Prog.add [Add α] (x : Int) (v : α) : Prog α := .read x fun y => .write x (y + v) .done

/-- `view[x] = v`. -/
def Prog.store (x : Int) (v : α) : Prog α := .write x v .done

theorem exec_add [Add α] (x : Int) (v : α) (a : Arr α) : (Prog.add x v).exec a = a.addAt x v := by
  unfold Prog.add Arr.addAt
  simp only [Prog.exec]
  congr 1
  funext y
  cases a.write x (y + v) <;> rfl

theorem exec_store (x : Int) (v : α) (a : Arr α) : (Prog.store x v).exec a = a.write x v := by
  unfold Prog.store
  simp only [Prog.exec]
  cases a.write x v <;> rfl

/-- Several programs made from a list, by the same thread. -/
theorem exec_rows {β : Type} (l : List β) (f : β → Prog α) (g : Arr α → β → Option (Arr α))
    (h : ∀ b ∈ l, ∀ a, (f b).exec a = g a b) (a : Arr α) : (Prog.seqAll (l.map f)).exec a = loop g a l := by
  rw [exec_seqAll, loop_map]
  exact loop_congr _ _ _ _ fun b hb s => h b hb s

theorem within_rows {β : Type} {S : Int → Prop} (l : List β) (f : β → Prog α)
    (h : ∀ b ∈ l, (f b).Within S) : (Prog.seqAll (l.map f)).Within S := by
  refine within_seqAll fun p hp => ?_
  obtain ⟨b, hb, rfl⟩ := List.mem_map.1 hp
  exact h b hb

end Sdp.Race
