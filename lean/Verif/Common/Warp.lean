import Verif.Common.Race

set_option linter.unusedSectionVars false

/-!
# Threads that share cells

`Yields` (`Verif.Common.Race`) covers threads with cells of their own.  Here: what some interleaving can
leave (`Finishes`), rounds in which all lanes of a warp make one access, and invariants that survive every
interleaving.
-/

namespace Sdp.Race
variable {α : Type}

/-- Threads `0..n-1` have run `prog` to the end, in some interleaving, and left `r`. -/
def Finishes (n : Nat) (prog : Nat → Prog α) (a r : Arr α) : Prop :=
  ∃ sched : List Nat, (∀ t ∈ sched, t < n) ∧
    ∃ s, run (⟨a, prog⟩ : St α Nat) sched = some s ∧ (∀ t < n, s.prog t = .done) ∧ s.mem = r

/-- No interleaving of the threads leaves the array. -/
def Safe (n : Nat) (prog : Nat → Prog α) (a : Arr α) : Prop :=
  ∀ sched : List Nat, (∀ t ∈ sched, t < n) → ∃ s, run (⟨a, prog⟩ : St α Nat) sched = some s

/-- Threads `0..n-1` run `prog` with every access made by all of them, in some order, before any makes its
next one; all of them are done after `k` such rounds. -/
def Lockstep (n k : Nat) (prog : Nat → Prog α) (a r : Arr α) : Prop :=
  ∃ rounds : List (List Nat), rounds.length = k ∧ (∀ x ∈ rounds, x.Perm (List.range n)) ∧
    ∃ s, run (⟨a, prog⟩ : St α Nat) rounds.flatten = some s ∧ (∀ t < n, s.prog t = .done) ∧ s.mem = r

theorem run_append' (s : St α Nat) (l l' : List Nat) :
    run s (l ++ l') = (run s l).bind fun s => run s l' := loop_append _ _ _ _

theorem Finishes.eq {n : Nat} {prog : Nat → Prog α} {a r r' : Arr α} (h : Finishes n prog a r')
    (hy : Yields prog (List.range n) a r) : r' = r := by
  obtain ⟨sched, h1, s, h2, h3, rfl⟩ := h
  obtain ⟨s', e1, e2⟩ := hy.1 sched fun t ht => List.mem_range.2 (h1 t ht)
  rw [h2] at e1
  cases e1
  exact e2 fun t ht => h3 t (List.mem_range.1 ht)

theorem Safe.of_yields {n : Nat} {prog : Nat → Prog α} {a r : Arr α} (hy : Yields prog (List.range n) a r) :
    Safe n prog a := by
  intro sched hs
  obtain ⟨s, e, -⟩ := hy.1 sched fun t ht => List.mem_range.2 (hs t ht)
  exact ⟨s, e⟩

theorem Finishes.of_yields {n : Nat} (hn : 0 < n) {prog : Nat → Prog α} {a r : Arr α}
    (hy : Yields prog (List.range n) a r) : Finishes n prog a r := by
  obtain ⟨N, hN⟩ := hy.2 (fun i => i % n) (fun i => List.mem_range.2 (Nat.mod_lt _ hn)) (by
    intro t ht m
    rw [List.mem_range] at ht
    refine ⟨t + n * m, ?_, ?_⟩
    · have := Nat.le_mul_of_pos_left m hn
      omega
    · simp only [Nat.add_mul_mod_self_left]
      exact Nat.mod_eq_of_lt ht)
  obtain ⟨s, e1, e2, e3⟩ := hN N le_rfl
  rw [runN_eq] at e1
  refine ⟨_, fun t ht => ?_, s, e1, fun t ht => e2 t (List.mem_range.2 ht), e3⟩
  obtain ⟨j, -, rfl⟩ := List.mem_map.1 ht
  exact Nat.mod_lt _ hn

/-- A round of reads; threads that are done stay done. -/
theorem round_reads (l : List Nat) (hn : l.Nodup) (mem : Arr α) (prog prog' : Nat → Prog α)
    (h0 : ∀ t, t ∉ l → prog' t = prog t)
    (h1 : ∀ t ∈ l, (prog t = .done ∧ prog' t = .done) ∨
      ∃ (i : Nat) (k : α → Prog α), i < mem.size ∧ prog t = .read i k ∧ prog' t = k (mem.get i)) :
    run (⟨mem, prog⟩ : St α Nat) l = some ⟨mem, prog'⟩ := by
  induction l generalizing prog with
  | nil =>
    have : prog' = prog := funext fun t => h0 t (by simp)
    rw [this]; rfl
  | cons t l ih =>
    have hnd := List.nodup_cons.1 hn
    have e : step (⟨mem, prog⟩ : St α Nat) t = some ⟨mem, Function.update prog t (prog' t)⟩ := by
      unfold step
      rcases h1 t (by simp) with ⟨e1, e2⟩ | ⟨i, k, hi, e1, e2⟩
      · simp only
        rw [e1]
        simp only
        rw [e2, ← e1, Function.update_eq_self]
      · simp only
        rw [e1]
        simp only
        rw [Arr.read_nat, if_pos hi, e2]
        rfl
    unfold run at ih ⊢
    simp only [loop]
    rw [e]
    refine ih hnd.2 _ (fun t' h' => ?_) fun t' h' => ?_
    · by_cases c : t' = t
      · subst c; rw [Function.update_self]
      · rw [Function.update_of_ne c]; exact h0 t' (by simp [c, h'])
    · have c : t' ≠ t := fun c => hnd.1 (c ▸ h')
      rw [Function.update_of_ne c]
      exact h1 t' (by simp [h'])

/-- A round of writes to different cells; threads that are done stay done. -/
theorem round_writes (l : List Nat) (hn : l.Nodup) (mem mem' : Arr α) (prog prog' : Nat → Prog α)
    (c : Nat → Nat) (hc : ∀ t t', c t = c t' → t = t') (hs : mem'.size = mem.size)
    (h0 : ∀ t, t ∉ l → prog' t = prog t)
    (h1 : ∀ t ∈ l, (prog t = .done ∧ prog' t = .done ∧ mem'.get (c t) = mem.get (c t)) ∨
      (c t < mem.size ∧ prog t = .write (c t) (mem'.get (c t)) (prog' t)))
    (h2 : ∀ i, (∀ t ∈ l, c t ≠ i) → mem'.get i = mem.get i) :
    run (⟨mem, prog⟩ : St α Nat) l = some ⟨mem', prog'⟩ := by
  induction l generalizing prog mem with
  | nil =>
    have e1 : prog' = prog := funext fun t => h0 t (by simp)
    have e2 : mem'.get = mem.get := funext fun i => h2 i (by simp)
    have e3 : mem' = mem := by
      cases mem; cases mem'; simp only at hs e2; rw [hs, e2]
    rw [e1, e3]; rfl
  | cons t l ih =>
    have hnd := List.nodup_cons.1 hn
    have hne : ∀ t' ∈ l, t' ≠ t := fun t' h' e => hnd.1 (e ▸ h')
    rcases h1 t (by simp) with ⟨e1, e2, e3⟩ | ⟨e1, e2⟩
    · have e : step (⟨mem, prog⟩ : St α Nat) t = some ⟨mem, prog⟩ := by
        unfold step
        simp only
        rw [e1]
      unfold run at ih ⊢
      simp only [loop]
      rw [e]
      refine ih hnd.2 mem prog hs (fun t' h' => ?_) (fun t' h' => h1 t' (by simp [h'])) fun i hi => ?_
      · by_cases x : t' = t
        · subst x; rw [e2, e1]
        · exact h0 t' (by simp [x, h'])
      · by_cases x : c t = i
        · rw [← x, e3]
        · refine h2 i fun t' h' => ?_
          rcases List.mem_cons.1 h' with h'' | h''
          · rw [h'']; exact x
          · exact hi t' h''
    · have e : step (⟨mem, prog⟩ : St α Nat) t =
          some ⟨mem.put (c t) (mem'.get (c t)), Function.update prog t (prog' t)⟩ := by
        unfold step
        simp only
        rw [e2]
        simp only
        rw [Arr.write_nat, if_pos e1]
        rfl
      unfold run at ih ⊢
      simp only [loop]
      rw [e]
      refine ih hnd.2 _ _ (by rw [hs]; rfl) (fun t' h' => ?_) (fun t' h' => ?_) fun i hi => ?_
      · by_cases x : t' = t
        · subst x; rw [Function.update_self]
        · rw [Function.update_of_ne x]; exact h0 t' (by simp [x, h'])
      · rw [Function.update_of_ne (hne t' h'), Arr.put_get, if_neg fun x => hne t' h' (hc _ _ x)]
        exact h1 t' (by simp [h'])
      · rw [Arr.put_get]
        by_cases x : i = c t
        · rw [if_pos x, x]
        · rw [if_neg x]
          refine h2 i fun t' h' => ?_
          rcases List.mem_cons.1 h' with h'' | h''
          · rw [h'']; exact fun y => x y.symm
          · exact hi t' h''

/-- All accesses of the thread are to the first `n` cells, it stores only values allowed by `Q`, and goes on
whatever allowed values it reads. -/
def Prog.Keeps (Q : Nat → α → Prop) (n : Nat) : Prog α → Prop
  | .done => True
  | .fault => False
  | .read i k => 0 ≤ i ∧ i < n ∧ ∀ v, Q i.toNat v → (k v).Keeps Q n
  | .write i v k => 0 ≤ i ∧ i < n ∧ Q i.toNat v ∧ k.Keeps Q n

/-- **Invariants of cells** survive every interleaving. -/
theorem keeps_run {Q : Nat → α → Prop} {n : Nat} (T : Nat) (sched : List Nat) (hsc : ∀ t ∈ sched, t < T)
    (s : St α Nat) (hn : s.mem.size = n)
    (hq : ∀ i < n, Q i (s.mem.get i)) (hp : ∀ t < T, (s.prog t).Keeps Q n) :
    ∃ s', run s sched = some s' ∧ s'.mem.size = n ∧ ∀ i < n, Q i (s'.mem.get i) := by
  induction sched generalizing s with
  | nil => exact ⟨s, rfl, hn, hq⟩
  | cons t l ih =>
    have ht : t < T := hsc t (by simp)
    have hsc' : ∀ t ∈ l, t < T := fun t h => hsc t (by simp [h])
    have hk := hp t ht
    have key : ∃ s1, step s t = some s1 ∧ s1.mem.size = n ∧ (∀ i < n, Q i (s1.mem.get i)) ∧
        ∀ t < T, (s1.prog t).Keeps Q n := by
      unfold step
      cases hpt : s.prog t with
      | done => exact ⟨s, rfl, hn, hq, hp⟩
      | fault => rw [hpt] at hk; exact absurd hk id
      | read i k =>
        rw [hpt] at hk
        obtain ⟨h0, h1, h2⟩ := hk
        obtain ⟨j, rfl⟩ := Int.eq_ofNat_of_zero_le h0
        simp only
        rw [Arr.read_nat, if_pos (by omega)]
        refine ⟨_, rfl, hn, hq, fun t' ht' => ?_⟩
        simp only
        by_cases c : t' = t
        · subst c
          rw [Function.update_self]
          exact h2 _ (hq _ (by omega))
        · rw [Function.update_of_ne c]; exact hp t' ht'
      | write i v k =>
        rw [hpt] at hk
        obtain ⟨h0, h1, h2, h3⟩ := hk
        obtain ⟨j, rfl⟩ := Int.eq_ofNat_of_zero_le h0
        simp only
        rw [Arr.write_nat, if_pos (by omega)]
        refine ⟨_, rfl, hn, fun i hi => ?_, fun t' ht' => ?_⟩
        · simp only
          rw [Arr.put_get]
          by_cases c : i = j
          · rw [if_pos c, c]; exact h2
          · rw [if_neg c]; exact hq i hi
        · simp only
          by_cases c : t' = t
          · subst c
            rw [Function.update_self]
            exact h3
          · rw [Function.update_of_ne c]; exact hp t' ht'
    obtain ⟨s1, e1, e2, e3, e4⟩ := key
    obtain ⟨s', g1, g2⟩ := ih hsc' s1 e2 e3 e4
    refine ⟨s', ?_, g2⟩
    unfold run at g1 ⊢
    simp only [loop]
    rw [e1]
    exact g1

/-- One thread runs to the end while the others wait. -/
theorem run_alone (p : Prog α) (t : Nat) (prog : Nat → Prog α) (m r : Arr α) (hp : prog t = p)
    (h : p.exec m = some r) :
    ∃ n, run (⟨m, prog⟩ : St α Nat) (List.replicate n t) = some ⟨r, Function.update prog t .done⟩ := by
  induction p generalizing prog m with
  | done =>
    cases h
    exact ⟨0, by rw [← hp, Function.update_eq_self]; rfl⟩
  | fault => simp [Prog.exec] at h
  | read i k ih =>
    simp only [Prog.exec] at h
    obtain ⟨v, e1, e2⟩ := Option.bind_eq_some_iff.1 h
    obtain ⟨n, hn⟩ := ih v (Function.update prog t (k v)) m (by simp) e2
    refine ⟨n + 1, ?_⟩
    rw [List.replicate_succ]
    unfold run at hn ⊢
    simp only [loop]
    have : step (⟨m, prog⟩ : St α Nat) t = some ⟨m, Function.update prog t (k v)⟩ := by
      unfold step
      simp only
      rw [hp]
      simp only
      rw [e1]
      rfl
    rw [this]
    simp only [Option.bind_some]
    rw [hn, Function.update_idem]
  | write i v k ih =>
    simp only [Prog.exec] at h
    obtain ⟨m', e1, e2⟩ := Option.bind_eq_some_iff.1 h
    obtain ⟨n, hn⟩ := ih (Function.update prog t k) m' (by simp) e2
    refine ⟨n + 1, ?_⟩
    rw [List.replicate_succ]
    unfold run at hn ⊢
    simp only [loop]
    have : step (⟨m, prog⟩ : St α Nat) t = some ⟨m', Function.update prog t k⟩ := by
      unfold step
      simp only
      rw [hp]
      simp only
      rw [e1]
      rfl
    rw [this]
    simp only [Option.bind_some]
    rw [hn, Function.update_idem]

/-- Threads can run one after the other. -/
theorem Finishes.serial (n : Nat) (prog : Nat → Prog α) (a r : Arr α)
    (h : loop (fun m (t : Nat) => (prog t).exec m) a (List.range n) = some r) : Finishes n prog a r := by
  have gen : ∀ k ≤ n, ∃ (sched : List Nat) (s : St α Nat), (∀ t ∈ sched, t < n) ∧
      run (⟨a, prog⟩ : St α Nat) sched = some s ∧
      loop (fun m (t : Nat) => (prog t).exec m) a (List.range k) = some s.mem ∧
      ∀ t, s.prog t = if t < k then .done else prog t := by
    intro k
    induction k with
    | zero => intro _; exact ⟨[], ⟨a, prog⟩, by simp, rfl, rfl, fun t => by simp⟩
    | succ k ih =>
      intro hk
      obtain ⟨sched, s, s1, s2, s3, s4⟩ := ih (by omega)
      have hsplit : List.range n = List.range (k + 1) ++ (List.range (n - (k + 1))).map (k + 1 + ·) := by
        rw [← List.range_add, show k + 1 + (n - (k + 1)) = n by omega]
      rw [hsplit, loop_append] at h
      obtain ⟨m', e1, -⟩ := Option.bind_eq_some_iff.1 h
      have e1' := e1
      rw [List.range_succ, loop_append, s3] at e1
      simp only [Option.bind_some, loop] at e1
      obtain ⟨m'', e3, e4⟩ := Option.bind_eq_some_iff.1 e1
      cases e4
      obtain ⟨j, hj⟩ := run_alone (prog k) k s.prog s.mem m' (by rw [s4 k, if_neg (by omega)]) e3
      refine ⟨sched ++ List.replicate j k, ⟨m', Function.update s.prog k .done⟩, ?_, ?_, e1', fun t => ?_⟩
      · intro t ht
        rcases List.mem_append.1 ht with h | h
        · exact s1 t h
        · rw [(List.mem_replicate.1 h).2]; omega
      · rw [run_append', s2]
        exact hj
      · simp only
        by_cases c : t = k
        · subst c; rw [Function.update_self, if_pos (by omega)]
        · rw [Function.update_of_ne c, s4 t]
          by_cases c' : t < k
          · rw [if_pos c', if_pos (by omega)]
          · rw [if_neg c', if_neg (by omega)]
  obtain ⟨sched, s, s1, s2, s3, s4⟩ := gen n le_rfl
  rw [h] at s3
  cases s3
  exact ⟨sched, s1, s, s2, fun t ht => by rw [s4 t, if_pos ht], rfl⟩

end Sdp.Race
