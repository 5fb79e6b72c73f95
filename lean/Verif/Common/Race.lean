import Verif.Common.Launch
import Mathlib.Data.List.Perm.Basic

set_option linter.unusedSectionVars false

/-!
# Threads that interleave at every memory access

A thread is a program whose steps are single reads and writes of one shared array.  Everything else it
does (arithmetic, reads of arrays nobody writes) happens between steps.  `Prog.exec` runs a thread
alone; `run` follows a schedule, a list saying which thread makes the next access.

`interleave`: if every thread stays within a set of cells of its own, all schedules give the same
result as running the threads one after the other in any order, and no schedule leaves the array.
-/

namespace Sdp.Race

/-- Program of one thread. -/
inductive Prog (α : Type) where
  | done
  | fault
  | read (i : Int) (k : α → Prog α)
  | write (i : Int) (v : α) (k : Prog α)

variable {α ι : Type}

/-- The thread has nothing left to do. -/
def Prog.isDone : Prog α → Bool
  | .done => true
  | _ => false

/-- A value that has to be available (`none`: the thread has left some other array). -/
def Prog.need {β : Type} : Option β → (β → Prog α) → Prog α
  | none, _ => .fault
  | some x, k => k x

/-- The thread alone. -/
def Prog.exec : Prog α → Arr α → Option (Arr α)
  | .done, a => some a
  | .fault, _ => none
  | .read i k, a => (a.read i).bind fun v => (k v).exec a
  | .write i v k, a => (a.write i v).bind fun a => k.exec a

/-- All accesses the thread can make are to cells of `S`. -/
def Prog.Within (S : Int → Prop) : Prog α → Prop
  | .done => True
  | .fault => True
  | .read i k => S i ∧ ∀ v, (k v).Within S
  | .write i _ k => S i ∧ k.Within S

theorem exec_need {β : Type} (x : Option β) (k : β → Prog α) (a : Arr α) :
    (Prog.need x k).exec a = x.bind fun v => (k v).exec a := by
  cases x <;> rfl

theorem within_need {β : Type} {S : Int → Prop} (x : Option β) (k : β → Prog α)
    (h : ∀ v, x = some v → (k v).Within S) : (Prog.need x k).Within S := by
  cases x with
  | none => trivial
  | some v => exact h v rfl

/-- The array and what every thread still has to do. -/
structure St (α ι : Type) where
  mem : Arr α
  prog : ι → Prog α

variable [DecidableEq ι]

/-- Thread `t` makes its next access. -/
def step (s : St α ι) (t : ι) : Option (St α ι) :=
  match s.prog t with
  | .done => some s
  | .fault => none
  | .read i k => (s.mem.read i).map fun v => ⟨s.mem, Function.update s.prog t (k v)⟩
  | .write i v k => (s.mem.write i v).map fun m => ⟨m, Function.update s.prog t k⟩

/-- A schedule. -/
def run (s : St α ι) (sched : List ι) : Option (St α ι) := loop step s sched

/-- Two arrays agree on a set of cells. -/
def Agree (S : Int → Prop) (a b : Arr α) : Prop := ∀ i : Nat, S i → a.get i = b.get i

theorem exec_frame {S : Int → Prop} {p : Prog α} (hp : p.Within S) {a r : Arr α}
    (h : p.exec a = some r) : r.size = a.size ∧ ∀ i : Nat, ¬ S i → r.get i = a.get i := by
  induction p generalizing a with
  | done => simp only [Prog.exec, Option.some.injEq] at h; subst h; exact ⟨rfl, fun _ _ => rfl⟩
  | fault => simp [Prog.exec] at h
  | read i k ih =>
    simp only [Prog.exec] at h
    cases hv : a.read i with
    | none => rw [hv] at h; simp at h
    | some v => rw [hv] at h; exact ih v (hp.2 v) h
  | write i v k ih =>
    simp only [Prog.exec] at h
    cases hv : a.write i v with
    | none => rw [hv] at h; simp at h
    | some b =>
      rw [hv] at h
      obtain ⟨h0, h1, h2⟩ := Arr.write_some hv
      obtain ⟨e1, e2⟩ := ih hp.2 h
      subst h2
      refine ⟨e1, fun j hj => ?_⟩
      rw [e2 j hj, Arr.put_get, if_neg]
      rintro rfl
      exact hj (by have := hp.1; rwa [← Int.toNat_of_nonneg h0] at this)

/-- What a thread does depends only on its own cells. -/
theorem exec_local {S : Int → Prop} {p : Prog α} (hp : p.Within S) {a b r : Arr α}
    (hs : b.size = a.size) (hab : Agree S a b) (h : p.exec a = some r) :
    ∃ r', p.exec b = some r' ∧ Agree S r r' := by
  induction p generalizing a b with
  | done => simp only [Prog.exec, Option.some.injEq] at h; subst h; exact ⟨b, rfl, hab⟩
  | fault => simp [Prog.exec] at h
  | read i k ih =>
    simp only [Prog.exec] at h
    cases hv : a.read i with
    | none => rw [hv] at h; simp at h
    | some v =>
      rw [hv] at h
      obtain ⟨h0, h1, h2⟩ := Arr.read_some hv
      have hb : b.read i = some v := by
        unfold Arr.read
        rw [if_pos ⟨h0, by rw [hs]; exact h1⟩, h2, hab i.toNat (by rw [Int.toNat_of_nonneg h0]; exact hp.1)]
      obtain ⟨r', e1, e2⟩ := ih v (hp.2 v) hs hab h
      refine ⟨r', ?_, e2⟩
      simp only [Prog.exec]
      rw [hb]
      exact e1
  | write i v k ih =>
    simp only [Prog.exec] at h
    cases hv : a.write i v with
    | none => rw [hv] at h; simp at h
    | some a' =>
      rw [hv] at h
      obtain ⟨h0, h1, h2⟩ := Arr.write_some hv
      subst h2
      have hb : b.write i v = some (b.put i.toNat v) := by
        unfold Arr.write
        rw [if_pos ⟨h0, by rw [hs]; exact h1⟩]
      obtain ⟨r', e1, e2⟩ := ih hp.2 (a := a.put i.toNat v) (b := b.put i.toNat v) hs (by
        intro j hj
        rw [Arr.put_get, Arr.put_get]
        by_cases e : j = i.toNat
        · rw [if_pos e, if_pos e]
        · rw [if_neg e, if_neg e, hab j hj]) h
      refine ⟨r', ?_, e2⟩
      simp only [Prog.exec]
      rw [hb]
      exact e1

/-- Running disjoint threads one after the other. -/
theorem seq_spec (prog : ι → Prog α) (S : ι → Int → Prop) (ts : List ι) (hn : ts.Nodup)
    (hw : ∀ t ∈ ts, (prog t).Within (S t))
    (hd : ∀ t ∈ ts, ∀ t' ∈ ts, t ≠ t' → ∀ i, S t i → ¬ S t' i) (a r : Arr α)
    (hr : loop (fun a t => (prog t).exec a) a ts = some r) :
    r.size = a.size ∧ (∀ t ∈ ts, ∃ x, (prog t).exec a = some x ∧ Agree (S t) x r) ∧
      ∀ i : Nat, (∀ t ∈ ts, ¬ S t i) → r.get i = a.get i := by
  induction ts generalizing a with
  | nil =>
    simp only [loop, Option.some.injEq] at hr
    subst hr
    exact ⟨rfl, by simp, fun _ _ => rfl⟩
  | cons t ts ih =>
    simp only [loop] at hr
    cases hx : (prog t).exec a with
    | none => rw [hx] at hr; simp at hr
    | some b =>
      rw [hx] at hr
      obtain ⟨f1, f2⟩ := exec_frame (hw t (by simp)) hx
      obtain ⟨s1, s2, s3⟩ := ih (List.nodup_cons.1 hn).2 (fun t' h' => hw t' (by simp [h']))
        (fun t1 h1 t2 h2 => hd t1 (by simp [h1]) t2 (by simp [h2])) b hr
      have hne : ∀ t' ∈ ts, t ≠ t' := fun t' h' e => (List.nodup_cons.1 hn).1 (e ▸ h')
      refine ⟨by rw [s1, f1], fun t' ht' => ?_, fun i hi => ?_⟩
      · rcases List.mem_cons.1 ht' with e | h'
        · subst e
          refine ⟨b, hx, fun i hi => ?_⟩
          rw [s3 i]
          exact fun t'' h'' => hd t' (by simp) t'' (by simp [h'']) (hne t'' h'') i hi
        · obtain ⟨x, x1, x2⟩ := s2 t' h'
          obtain ⟨y, y1, y2⟩ := exec_local (hw t' (by simp [h'])) (a := b) (b := a) f1.symm (by
            intro i hi
            exact f2 i fun hi' => hd t (by simp) t' (by simp [h']) (hne t' h') i hi' hi) x1
          refine ⟨y, y1, fun i hi => ?_⟩
          rw [← y2 i hi, x2 i hi]
      · rw [s3 i fun t' h' => hi t' (by simp [h']), f2 i (hi t (by simp))]

/-- Invariant of an interleaved run. -/
structure Inv (S : ι → Int → Prop) (ts : List ι) (a r : Arr α) (s : St α ι) : Prop where
  size : s.mem.size = a.size
  within : ∀ t ∈ ts, (s.prog t).Within (S t)
  rest : ∀ t ∈ ts, ∃ x, (s.prog t).exec s.mem = some x ∧ Agree (S t) x r
  other : ∀ i : Nat, (∀ t ∈ ts, ¬ S t i) → s.mem.get i = a.get i

theorem inv_step {S : ι → Int → Prop} {ts : List ι}
    (hd : ∀ t ∈ ts, ∀ t' ∈ ts, t ≠ t' → ∀ i, S t i → ¬ S t' i) {a r : Arr α} {s : St α ι}
    (h : Inv S ts a r s) {t : ι} (ht : t ∈ ts) : ∃ s', step s t = some s' ∧ Inv S ts a r s' := by
  obtain ⟨x, hx, hxr⟩ := h.rest t ht
  have hw := h.within t ht
  unfold step
  cases hp : s.prog t with
  | done => exact ⟨s, rfl, h⟩
  | fault => rw [hp] at hx; simp [Prog.exec] at hx
  | read i k =>
    rw [hp] at hx hw
    simp only [Prog.exec] at hx
    simp only
    cases hv : s.mem.read i with
    | none => rw [hv] at hx; simp at hx
    | some v =>
      rw [hv] at hx
      refine ⟨⟨s.mem, Function.update s.prog t (k v)⟩, rfl, h.size, fun t' h' => ?_, fun t' h' => ?_, h.other⟩
      · by_cases e : t' = t
        · subst e; simp only [Function.update_self]; exact hw.2 v
        · simp only [Function.update_of_ne e]; exact h.within t' h'
      · by_cases e : t' = t
        · subst e; simp only [Function.update_self]; exact ⟨x, hx, hxr⟩
        · simp only [Function.update_of_ne e]; exact h.rest t' h'
  | write i v k =>
    rw [hp] at hx hw
    simp only [Prog.exec] at hx
    simp only
    cases hv : s.mem.write i v with
    | none => rw [hv] at hx; simp at hx
    | some m =>
      rw [hv] at hx
      obtain ⟨h0, h1, h2⟩ := Arr.write_some hv
      subst h2
      have hcell : S t (i.toNat : Int) := by rw [Int.toNat_of_nonneg h0]; exact hw.1
      refine ⟨⟨s.mem.put i.toNat v, Function.update s.prog t k⟩, rfl, h.size, fun t' h' => ?_, fun t' h' => ?_,
        fun j hj => ?_⟩
      · by_cases e : t' = t
        · subst e; simp only [Function.update_self]; exact hw.2
        · simp only [Function.update_of_ne e]; exact h.within t' h'
      · by_cases e : t' = t
        · subst e; simp only [Function.update_self]; exact ⟨x, hx, hxr⟩
        · simp only [Function.update_of_ne e]
          obtain ⟨y, y1, y2⟩ := h.rest t' h'
          obtain ⟨z, z1, z2⟩ := exec_local (h.within t' h') (a := s.mem) (b := s.mem.put i.toNat v) rfl (by
            intro j hj
            rw [Arr.put_get, if_neg]
            rintro rfl
            exact hd t ht t' h' (fun e' => e e'.symm) _ hcell hj) y1
          exact ⟨z, z1, fun j hj => by rw [← z2 j hj, y2 j hj]⟩
      · simp only
        rw [Arr.put_get, if_neg, h.other j hj]
        rintro rfl
        exact hj t ht hcell

/-- **Any interleaving.**  Threads with disjoint sets of cells: if running them one after the other
gives `r`, then no schedule leaves the array, and every schedule that runs all of them to the end gives
`r`. -/
theorem interleave (prog : ι → Prog α) (S : ι → Int → Prop) (ts : List ι) (hn : ts.Nodup)
    (hw : ∀ t ∈ ts, (prog t).Within (S t))
    (hd : ∀ t ∈ ts, ∀ t' ∈ ts, t ≠ t' → ∀ i, S t i → ¬ S t' i) (a r : Arr α)
    (hr : loop (fun a t => (prog t).exec a) a ts = some r) (sched : List ι) (hs : ∀ t ∈ sched, t ∈ ts) :
    ∃ s, run ⟨a, prog⟩ sched = some s ∧ ((∀ t ∈ ts, s.prog t = .done) → s.mem = r) := by
  obtain ⟨s1, s2, s3⟩ := seq_spec prog S ts hn hw hd a r hr
  have h0 : Inv S ts a r ⟨a, prog⟩ := ⟨rfl, hw, s2, fun _ _ => rfl⟩
  have gen : ∀ (l : List ι) (s : St α ι), (∀ t ∈ l, t ∈ ts) → Inv S ts a r s →
      ∃ s', loop step s l = some s' ∧ Inv S ts a r s' := by
    intro l
    induction l with
    | nil => intro s _ h; exact ⟨s, rfl, h⟩
    | cons t l ih =>
      intro s hl h
      obtain ⟨s', e1, e2⟩ := inv_step hd h (hl t (by simp))
      obtain ⟨s'', e3, e4⟩ := ih s' (fun t' h' => hl t' (by simp [h'])) e2
      exact ⟨s'', by simp only [loop]; rw [e1]; exact e3, e4⟩
  obtain ⟨s, e1, e2⟩ := gen sched _ hs h0
  refine ⟨s, e1, fun hdone => ?_⟩
  have hget : s.mem.get = r.get := by
    funext i
    by_cases hi : ∃ t ∈ ts, S t i
    · obtain ⟨t, ht, hi⟩ := hi
      obtain ⟨x, x1, x2⟩ := e2.rest t ht
      rw [hdone t ht] at x1
      simp only [Prog.exec, Option.some.injEq] at x1
      rw [x1]
      exact x2 i hi
    · have hi' : ∀ t ∈ ts, ¬ S t i := fun t ht h => hi ⟨t, ht, h⟩
      rw [e2.other i hi', s3 i hi']
  have hsz : s.mem.size = r.size := by rw [e2.size, s1]
  cases hm : s.mem with
  | mk n g =>
    cases hr' : r with
    | mk n' g' => rw [hm, hr'] at hsz hget; simp only at hsz hget; rw [hsz, hget]

/-- State after `n` steps of an infinite schedule. -/
def runN (s : St α ι) (sched : Nat → ι) : Nat → Option (St α ι)
  | 0 => some s
  | n + 1 => (runN s sched n).bind fun s => step s (sched n)

theorem runN_eq (s : St α ι) (sched : Nat → ι) (n : Nat) :
    runN s sched n = run s ((List.range n).map sched) := by
  induction n with
  | zero => rfl
  | succ n ih =>
    rw [List.range_succ, List.map_append]
    unfold run at ih ⊢
    rw [loop_append, ← ih]
    simp only [runN, List.map_cons, List.map_nil]
    cases runN s sched n with
    | none => rfl
    | some x => simp only [Option.bind_some, loop]; cases step x (sched n) <;> rfl

theorem step_other {s s' : St α ι} {t t' : ι} (h : step s t = some s') (hne : t' ≠ t) :
    s'.prog t' = s.prog t' := by
  unfold step at h
  cases hp : s.prog t with
  | done => rw [hp] at h; simp only [Option.some.injEq] at h; rw [← h]
  | fault => rw [hp] at h; simp at h
  | read i k =>
    rw [hp] at h
    simp only [Option.map_eq_some_iff] at h
    obtain ⟨v, _, e⟩ := h
    rw [← e]
    exact Function.update_of_ne hne _ _
  | write i v k =>
    rw [hp] at h
    simp only [Option.map_eq_some_iff] at h
    obtain ⟨v, _, e⟩ := h
    rw [← e]
    exact Function.update_of_ne hne _ _

theorem step_done {s s' : St α ι} {t t' : ι} (h : step s t = some s') (hd : s.prog t' = .done) :
    s'.prog t' = .done := by
  by_cases e : t' = t
  · subst e
    unfold step at h
    rw [hd] at h
    simp only [Option.some.injEq] at h
    rw [← h, hd]
  · rw [step_other h e, hd]

/-- **Termination.**  A schedule that keeps giving every thread its turn and never faults runs all
threads to the end. -/
theorem completes (s : St α ι) (ts : List ι) (sched : Nat → ι)
    (hfair : ∀ t ∈ ts, ∀ n, ∃ m, n ≤ m ∧ sched m = t) (hok : ∀ n, ∃ x, runN s sched n = some x) :
    ∃ N, ∀ n, N ≤ n → ∀ x, runN s sched n = some x → ∀ t ∈ ts, x.prog t = .done := by
  have stay : ∀ t n x, runN s sched n = some x → x.prog t = .done →
      ∀ m, n ≤ m → ∀ y, runN s sched m = some y → y.prog t = .done := by
    intro t n x hx hd m hm
    induction hm with
    | refl => intro y hy; rw [hx] at hy; cases hy; exact hd
    | step hm ih =>
      intro y hy
      obtain ⟨z, hz⟩ := hok _
      simp only [runN] at hy
      rw [hz] at hy
      exact step_done hy (ih z hz)
  have wait : ∀ t n x p, runN s sched n = some x → x.prog t = p → ∀ m, n ≤ m →
      (∀ j, n ≤ j → j < m → sched j ≠ t) → ∀ y, runN s sched m = some y → y.prog t = p := by
    intro t n x p hx hp m hm
    induction hm with
    | refl => intro _ y hy; rw [hx] at hy; cases hy; exact hp
    | step hm ih =>
      intro hj y hy
      obtain ⟨z, hz⟩ := hok _
      simp only [runN] at hy
      rw [hz] at hy
      rw [step_other hy (fun e => hj _ hm (Nat.lt_succ_self _) e.symm)]
      exact ih (fun j h1 h2 => hj j h1 (by omega)) z hz
  have one : ∀ t ∈ ts, ∀ p n x, runN s sched n = some x → x.prog t = p →
      ∃ m y, n ≤ m ∧ runN s sched m = some y ∧ y.prog t = .done := by
    intro t ht
    have next : ∀ p n x, runN s sched n = some x → x.prog t = p → ∃ m y y', n ≤ m ∧ sched m = t ∧
        runN s sched m = some y ∧ y.prog t = p ∧ step y t = some y' ∧ runN s sched (m + 1) = some y' := by
      intro p n x hx hp
      have hex := hfair t ht n
      have hm := Nat.find_spec hex
      have hmin : ∀ j, n ≤ j → j < Nat.find hex → sched j ≠ t := by
        intro j h1 h2 e
        exact Nat.find_min hex h2 ⟨h1, e⟩
      obtain ⟨y, hy⟩ := hok (Nat.find hex)
      obtain ⟨y', hy'⟩ := hok (Nat.find hex + 1)
      refine ⟨Nat.find hex, y, y', hm.1, hm.2, hy, wait t n x p hx hp _ hm.1 hmin y hy, ?_, hy'⟩
      simp only [runN] at hy'
      rw [hy] at hy'
      rw [← hm.2]
      exact hy'
    intro p
    induction p with
    | done => intro n x hx hp; exact ⟨n, x, le_rfl, hx, hp⟩
    | fault =>
      intro n x hx hp
      obtain ⟨m, y, y', _, _, _, h4, h5, _⟩ := next _ n x hx hp
      unfold step at h5
      rw [h4] at h5
      simp at h5
    | read i k ih =>
      intro n x hx hp
      obtain ⟨m, y, y', h1, h2, h3, h4, h5, h6⟩ := next _ n x hx hp
      unfold step at h5
      rw [h4] at h5
      simp only [Option.map_eq_some_iff] at h5
      obtain ⟨v, _, e⟩ := h5
      have hk : y'.prog t = k v := by rw [← e]; exact Function.update_self _ _ _
      obtain ⟨m', z, g1, g2, g3⟩ := ih v (m + 1) y' h6 hk
      exact ⟨m', z, by omega, g2, g3⟩
    | write i v k ih =>
      intro n x hx hp
      obtain ⟨m, y, y', h1, h2, h3, h4, h5, h6⟩ := next _ n x hx hp
      unfold step at h5
      rw [h4] at h5
      simp only [Option.map_eq_some_iff] at h5
      obtain ⟨v', _, e⟩ := h5
      have hk : y'.prog t = k := by rw [← e]; exact Function.update_self _ _ _
      obtain ⟨m', z, g1, g2, g3⟩ := ih (m + 1) y' h6 hk
      exact ⟨m', z, by omega, g2, g3⟩
  have all : ∀ l : List ι, (∀ t ∈ l, t ∈ ts) →
      ∃ N, ∀ n, N ≤ n → ∀ x, runN s sched n = some x → ∀ t ∈ l, x.prog t = .done := by
    intro l
    induction l with
    | nil => intro _; exact ⟨0, by simp⟩
    | cons t l ih =>
      intro hl
      obtain ⟨N, hN⟩ := ih fun t' h' => hl t' (by simp [h'])
      obtain ⟨m, y, _, h2, h3⟩ := one t (hl t (by simp)) _ 0 s rfl rfl
      refine ⟨max N m, fun n hn x hx t' ht' => ?_⟩
      rcases List.mem_cons.1 ht' with e | h'
      · subst e
        exact stay t' m y h2 h3 n (le_trans (le_max_right _ _) hn) x hx
      · exact hN n (le_trans (le_max_left _ _) hn) x hx t' h'
  exact all ts fun _ h => h

/-- What one can rely on when a set of threads is launched: no schedule leaves the array, a schedule that
runs all threads to the end produces `r`, and every fair schedule does run them to the end. -/
def Yields (prog : ι → Prog α) (ts : List ι) (a r : Arr α) : Prop :=
  (∀ sched : List ι, (∀ t ∈ sched, t ∈ ts) →
    ∃ s, run ⟨a, prog⟩ sched = some s ∧ ((∀ t ∈ ts, s.prog t = .done) → s.mem = r)) ∧
  ∀ sched : Nat → ι, (∀ n, sched n ∈ ts) → (∀ t ∈ ts, ∀ n, ∃ m, n ≤ m ∧ sched m = t) →
    ∃ N, ∀ n, N ≤ n → ∃ s, runN ⟨a, prog⟩ sched n = some s ∧ (∀ t ∈ ts, s.prog t = .done) ∧ s.mem = r

/-- The same conclusions from what each thread does alone. -/
theorem yields_each (prog : ι → Prog α) (S : ι → Int → Prop) (ts : List ι)
    (hw : ∀ t ∈ ts, (prog t).Within (S t))
    (hd : ∀ t ∈ ts, ∀ t' ∈ ts, t ≠ t' → ∀ i, S t i → ¬ S t' i) (a r : Arr α) (hsize : r.size = a.size)
    (heach : ∀ t ∈ ts, ∃ x, (prog t).exec a = some x ∧ Agree (S t) x r)
    (hother : ∀ i : Nat, (∀ t ∈ ts, ¬ S t i) → r.get i = a.get i) : Yields prog ts a r := by
  have h0 : Inv S ts a r ⟨a, prog⟩ := ⟨rfl, hw, heach, fun _ _ => rfl⟩
  have gen : ∀ (l : List ι) (s : St α ι), (∀ t ∈ l, t ∈ ts) → Inv S ts a r s →
      ∃ s', loop step s l = some s' ∧ Inv S ts a r s' := by
    intro l
    induction l with
    | nil => intro s _ h; exact ⟨s, rfl, h⟩
    | cons t l ih =>
      intro s hl h
      obtain ⟨s', e1, e2⟩ := inv_step hd h (hl t (by simp))
      obtain ⟨s'', e3, e4⟩ := ih s' (fun t' h' => hl t' (by simp [h'])) e2
      exact ⟨s'', by simp only [loop]; rw [e1]; exact e3, e4⟩
  have fin : ∀ s : St α ι, Inv S ts a r s → (∀ t ∈ ts, s.prog t = .done) → s.mem = r := by
    intro s e2 hdone
    have hget : s.mem.get = r.get := by
      funext i
      by_cases hi : ∃ t ∈ ts, S t i
      · obtain ⟨t, ht, hi⟩ := hi
        obtain ⟨x, x1, x2⟩ := e2.rest t ht
        rw [hdone t ht] at x1
        simp only [Prog.exec, Option.some.injEq] at x1
        rw [x1]
        exact x2 i hi
      · have hi' : ∀ t ∈ ts, ¬ S t i := fun t ht h => hi ⟨t, ht, h⟩
        rw [e2.other i hi', hother i hi']
    have hsz : s.mem.size = r.size := by rw [e2.size, hsize]
    cases hm : s.mem with
    | mk n g =>
      cases hr' : r with
      | mk n' g' => rw [hm, hr'] at hsz hget; simp only at hsz hget; rw [hsz, hget]
  refine ⟨fun sched hs => ?_, fun sched hs hfair => ?_⟩
  · obtain ⟨s, e1, e2⟩ := gen sched _ hs h0
    exact ⟨s, e1, fin s e2⟩
  · have hok : ∀ n, ∃ x, runN ⟨a, prog⟩ sched n = some x ∧ Inv S ts a r x := by
      intro n
      rw [runN_eq]
      refine gen _ _ (fun t ht => ?_) h0
      obtain ⟨j, -, rfl⟩ := List.mem_map.1 ht
      exact hs j
    obtain ⟨N, hN⟩ := completes ⟨a, prog⟩ ts sched hfair fun n => ⟨_, (hok n).choose_spec.1⟩
    refine ⟨N, fun n hn => ?_⟩
    obtain ⟨x, x1, x2⟩ := hok n
    exact ⟨x, x1, hN n hn x x1, fin x x2 (hN n hn x x1)⟩

theorem yields_seq (prog : ι → Prog α) (S : ι → Int → Prop) (ts : List ι) (hn : ts.Nodup)
    (hw : ∀ t ∈ ts, (prog t).Within (S t))
    (hd : ∀ t ∈ ts, ∀ t' ∈ ts, t ≠ t' → ∀ i, S t i → ¬ S t' i) (a r : Arr α)
    (hr : loop (fun a t => (prog t).exec a) a ts = some r) : Yields prog ts a r := by
  obtain ⟨s1, s2, s3⟩ := seq_spec prog S ts hn hw hd a r hr
  exact yields_each prog S ts hw hd a r s1 s2 s3

open Classical in
/-- Threads that pass a guard `g` and then replace the value of one cell, different for each. -/
theorem yields_modify (prog : ι → Prog α) (ts : List ι) (g : ι → Prop) (p : ι → Nat) (f : ι → α → α)
    (h1 : ∀ t ∈ ts, g t → prog t = .read (p t) fun v => .write (p t) (f t v) .done)
    (h2 : ∀ t ∈ ts, ¬ g t → prog t = .done) (a : Arr α) (hb : ∀ t ∈ ts, g t → p t < a.size)
    (hinj : ∀ t ∈ ts, ∀ t' ∈ ts, g t → g t' → p t = p t' → t = t') :
    ∃ r, Yields prog ts a r ∧ r.size = a.size ∧ (∀ t ∈ ts, g t → r.get (p t) = f t (a.get (p t))) ∧
      ∀ i, (∀ t ∈ ts, g t → p t ≠ i) → r.get i = a.get i := by
  let r : Arr α := ⟨a.size, fun i => if h : ∃ t ∈ ts, g t ∧ p t = i then f h.choose (a.get i) else a.get i⟩
  have r1 : ∀ t ∈ ts, g t → r.get (p t) = f t (a.get (p t)) := by
    intro t ht hg
    have hex : ∃ t' ∈ ts, g t' ∧ p t' = p t := ⟨t, ht, hg, rfl⟩
    have hc := hex.choose_spec
    simp only [r]
    rw [dif_pos hex, hinj _ hc.1 t ht hc.2.1 hg hc.2.2]
  have r2 : ∀ i, (∀ t ∈ ts, g t → p t ≠ i) → r.get i = a.get i := by
    intro i hi
    simp only [r]
    rw [dif_neg]
    rintro ⟨t, ht, hg, e⟩
    exact hi t ht hg e
  refine ⟨r, ?_, rfl, r1, r2⟩
  refine yields_each prog (fun t i => g t ∧ i = p t) ts ?_ ?_ a r rfl ?_ ?_
  · intro t ht
    by_cases hg : g t
    · rw [h1 t ht hg]; exact ⟨⟨hg, rfl⟩, fun v => ⟨⟨hg, rfl⟩, trivial⟩⟩
    · rw [h2 t ht hg]; trivial
  · rintro t ht t' ht' hne i ⟨hg, e⟩ ⟨hg', e'⟩
    exact hne (hinj t ht t' ht' hg hg' (by omega))
  · intro t ht
    by_cases hg : g t
    · rw [h1 t ht hg]
      refine ⟨a.put (p t) (f t (a.get (p t))), ?_, ?_⟩
      · simp only [Prog.exec]
        rw [Arr.read_nat, if_pos (hb t ht hg)]
        simp only [Option.bind_some]
        rw [Arr.write_nat, if_pos (hb t ht hg)]
        rfl
      · rintro i ⟨_, e⟩
        have e : i = p t := by omega
        subst e
        rw [r1 t ht hg, Arr.put_get, if_pos rfl]
    · rw [h2 t ht hg]; exact ⟨a, rfl, fun i h => absurd h.1 hg⟩
  · intro i hi
    exact r2 i fun t ht hg e => hi t ht ⟨hg, by omega⟩

open Classical in
/-- Threads that pass a guard `g` and then store into one cell, different for each. -/
theorem yields_store (prog : ι → Prog α) (ts : List ι) (g : ι → Prop) (p : ι → Nat) (v : ι → α)
    (h1 : ∀ t ∈ ts, g t → prog t = .write (p t) (v t) .done)
    (h2 : ∀ t ∈ ts, ¬ g t → prog t = .done) (a : Arr α) (hb : ∀ t ∈ ts, g t → p t < a.size)
    (hinj : ∀ t ∈ ts, ∀ t' ∈ ts, g t → g t' → p t = p t' → t = t') :
    ∃ r, Yields prog ts a r ∧ r.size = a.size ∧ (∀ t ∈ ts, g t → r.get (p t) = v t) ∧
      ∀ i, (∀ t ∈ ts, g t → p t ≠ i) → r.get i = a.get i := by
  let r : Arr α := ⟨a.size, fun i => if h : ∃ t ∈ ts, g t ∧ p t = i then v h.choose else a.get i⟩
  have r1 : ∀ t ∈ ts, g t → r.get (p t) = v t := by
    intro t ht hg
    have hex : ∃ t' ∈ ts, g t' ∧ p t' = p t := ⟨t, ht, hg, rfl⟩
    have hc := hex.choose_spec
    simp only [r]
    rw [dif_pos hex, hinj _ hc.1 t ht hc.2.1 hg hc.2.2]
  have r2 : ∀ i, (∀ t ∈ ts, g t → p t ≠ i) → r.get i = a.get i := by
    intro i hi
    simp only [r]
    rw [dif_neg]
    rintro ⟨t, ht, hg, e⟩
    exact hi t ht hg e
  refine ⟨r, ?_, rfl, r1, r2⟩
  refine yields_each prog (fun t i => g t ∧ i = p t) ts ?_ ?_ a r rfl ?_ ?_
  · intro t ht
    by_cases hg : g t
    · rw [h1 t ht hg]; exact ⟨⟨hg, rfl⟩, trivial⟩
    · rw [h2 t ht hg]; trivial
  · rintro t ht t' ht' hne i ⟨hg, e⟩ ⟨hg', e'⟩
    exact hne (hinj t ht t' ht' hg hg' (by omega))
  · intro t ht
    by_cases hg : g t
    · rw [h1 t ht hg]
      refine ⟨a.put (p t) (v t), ?_, ?_⟩
      · simp only [Prog.exec]
        rw [Arr.write_nat, if_pos (hb t ht hg)]
        rfl
      · rintro i ⟨_, e⟩
        have e : i = p t := by omega
        subst e
        rw [r1 t ht hg, Arr.put_get, if_pos rfl]
    · rw [h2 t ht hg]; exact ⟨a, rfl, fun i h => absurd h.1 hg⟩
  · intro i hi
    exact r2 i fun t ht hg e => hi t ht ⟨hg, by omega⟩

open Classical in
/-- Threads that pass a guard `g` and then access only one cell, different for each. -/
theorem yields_own (prog : ι → Prog α) (ts : List ι) (g : ι → Prop) (p : ι → Nat) (v : ι → α) (a : Arr α)
    (h1 : ∀ t ∈ ts, g t → (prog t).Within (fun i : Int => i = p t) ∧ (prog t).exec a = some (a.put (p t) (v t)))
    (h2 : ∀ t ∈ ts, ¬ g t → prog t = .done)
    (hinj : ∀ t ∈ ts, ∀ t' ∈ ts, g t → g t' → p t = p t' → t = t') :
    ∃ r, Yields prog ts a r ∧ r.size = a.size ∧ (∀ t ∈ ts, g t → r.get (p t) = v t) ∧
      ∀ i, (∀ t ∈ ts, g t → p t ≠ i) → r.get i = a.get i := by
  let r : Arr α := ⟨a.size, fun i => if h : ∃ t ∈ ts, g t ∧ p t = i then v h.choose else a.get i⟩
  have r1 : ∀ t ∈ ts, g t → r.get (p t) = v t := by
    intro t ht hg
    have hex : ∃ t' ∈ ts, g t' ∧ p t' = p t := ⟨t, ht, hg, rfl⟩
    have hc := hex.choose_spec
    simp only [r]
    rw [dif_pos hex, hinj _ hc.1 t ht hc.2.1 hg hc.2.2]
  have r2 : ∀ i, (∀ t ∈ ts, g t → p t ≠ i) → r.get i = a.get i := by
    intro i hi
    simp only [r]
    rw [dif_neg]
    rintro ⟨t, ht, hg, e⟩
    exact hi t ht hg e
  refine ⟨r, ?_, rfl, r1, r2⟩
  refine yields_each prog (fun t i => g t ∧ i = p t) ts ?_ ?_ a r rfl ?_ ?_
  · intro t ht
    by_cases hg : g t
    · have e : (fun i : Int => g t ∧ i = p t) = fun i : Int => i = p t := by funext i; simp [hg]
      rw [e]
      exact (h1 t ht hg).1
    · rw [h2 t ht hg]; trivial
  · rintro t ht t' ht' hne i ⟨hg, e⟩ ⟨hg', e'⟩
    exact hne (hinj t ht t' ht' hg hg' (by omega))
  · intro t ht
    by_cases hg : g t
    · refine ⟨_, (h1 t ht hg).2, ?_⟩
      rintro i ⟨_, e⟩
      have e : i = p t := by omega
      subst e
      rw [r1 t ht hg, Arr.put_get, if_pos rfl]
    · rw [h2 t ht hg]; exact ⟨a, rfl, fun i h => absurd h.1 hg⟩
  · intro i hi
    exact r2 i fun t ht hg e => hi t ht ⟨hg, by omega⟩

/-- A launch whose threads pass a guard `g` and then do what `body` does, each within its own cells:
what holds of `body` run over the guarded threads in any order holds of every schedule. -/
theorem yields_guard {ι : Type} [DecidableEq ι] (ts : List ι) (hn : ts.Nodup) (g : ι → Bool)
    (prog : ι → Prog α) (body : Arr α → ι → Option (Arr α)) (S : ι → Int → Prop)
    (h0 : ∀ t ∈ ts, g t = false → prog t = .done)
    (h1 : ∀ t ∈ ts, g t = true → ∀ a, (prog t).exec a = body a t)
    (hw : ∀ t ∈ ts, g t = true → (prog t).Within (S t))
    (hd : ∀ t ∈ ts, ∀ t' ∈ ts, g t = true → g t' = true → t ≠ t' → ∀ i, S t i → ¬ S t' i)
    (a : Arr α) (P : Arr α → Prop) (hr : ∃ r, loop body a (ts.filter g) = some r ∧ P r) :
    ∃ r, Yields prog ts a r ∧ P r := by
  obtain ⟨r, r1, r2⟩ := hr
  refine ⟨r, yields_seq prog (fun t i => g t = true ∧ S t i) ts hn ?_ ?_ a r ?_, r2⟩
  · intro t ht
    cases hg : g t with
    | false => rw [h0 t ht hg]; trivial
    | true =>
      have e : (fun i => true = true ∧ S t i) = S t := by funext i; simp
      rw [e]
      exact hw t ht hg
  · rintro t ht t' ht' hne i ⟨g1, s1⟩ ⟨g2, s2⟩
    exact hd t ht t' ht' g1 g2 hne i s1 s2
  · rw [← loop_filter] at r1
    rw [← r1]
    apply loop_congr
    intro t ht b
    cases hg : g t with
    | false => rw [h0 t ht hg]; rfl
    | true => rw [h1 t ht hg]; rfl

/-- Two-dimensional launches. -/
theorem yields_launch2 {m n tm tn : Nat} (hm : m ≤ tm) (hn : n ≤ tn) (prog : Nat × Nat → Prog α)
    (body : Arr α → Nat × Nat → Option (Arr α)) (S : Nat × Nat → Int → Prop)
    (h0 : ∀ p : Nat × Nat, ¬ (p.1 < m ∧ p.2 < n) → prog p = .done)
    (h1 : ∀ p : Nat × Nat, p.1 < m → p.2 < n → ∀ a, (prog p).exec a = body a p)
    (hw : ∀ p : Nat × Nat, p.1 < m → p.2 < n → (prog p).Within (S p))
    (hd : ∀ p p' : Nat × Nat, p.1 < m → p.2 < n → p'.1 < m → p'.2 < n → p ≠ p' → ∀ i, S p i → ¬ S p' i)
    (a : Arr α) (P : Arr α → Prop)
    (hr : ∀ order : List (Nat × Nat), order.Perm (nest2 m n) → ∃ r, loop body a order = some r ∧ P r) :
    ∃ r, Yields prog (nest2 tm tn) a r ∧ P r := by
  refine yields_guard (nest2 tm tn) (nest2_nodup _ _) (fun p => decide (p.1 < m ∧ p.2 < n)) prog body S
    ?_ ?_ ?_ ?_ a P (hr _ (launch2 hm hn (List.Perm.refl _)))
  · intro p _ h; exact h0 p (by simpa using h)
  · intro p _ h; rw [decide_eq_true_iff] at h; exact h1 p h.1 h.2
  · intro p _ h; rw [decide_eq_true_iff] at h; exact hw p h.1 h.2
  · intro p _ p' _ h h' hne
    rw [decide_eq_true_iff] at h h'
    exact hd p p' h.1 h.2 h'.1 h'.2 hne

/-- Three-dimensional launches. -/
theorem yields_launch3 {l m n tl tm tn : Nat} (hl : l ≤ tl) (hm : m ≤ tm) (hn : n ≤ tn)
    (prog : Nat × Nat × Nat → Prog α) (body : Arr α → Nat × Nat × Nat → Option (Arr α))
    (S : Nat × Nat × Nat → Int → Prop)
    (h0 : ∀ p : Nat × Nat × Nat, ¬ (p.1 < l ∧ p.2.1 < m ∧ p.2.2 < n) → prog p = .done)
    (h1 : ∀ p : Nat × Nat × Nat, p.1 < l → p.2.1 < m → p.2.2 < n → ∀ a, (prog p).exec a = body a p)
    (hw : ∀ p : Nat × Nat × Nat, p.1 < l → p.2.1 < m → p.2.2 < n → (prog p).Within (S p))
    (hd : ∀ p p' : Nat × Nat × Nat, p.1 < l → p.2.1 < m → p.2.2 < n → p'.1 < l → p'.2.1 < m → p'.2.2 < n →
      p ≠ p' → ∀ i, S p i → ¬ S p' i)
    (a : Arr α) (P : Arr α → Prop)
    (hr : ∀ order : List (Nat × Nat × Nat), order.Perm (nest3 l m n) →
      ∃ r, loop body a order = some r ∧ P r) :
    ∃ r, Yields prog (nest3 tl tm tn) a r ∧ P r := by
  refine yields_guard (nest3 tl tm tn) (nest3_nodup _ _ _)
    (fun p => decide (p.1 < l ∧ p.2.1 < m ∧ p.2.2 < n)) prog body S
    ?_ ?_ ?_ ?_ a P (hr _ (launch3 hl hm hn (List.Perm.refl _)))
  · intro p _ h; exact h0 p (by simpa using h)
  · intro p _ h; rw [decide_eq_true_iff] at h; exact h1 p h.1 h.2.1 h.2.2
  · intro p _ h; rw [decide_eq_true_iff] at h; exact hw p h.1 h.2.1 h.2.2
  · intro p _ p' _ h h' hne
    rw [decide_eq_true_iff] at h h'
    exact hd p p' h.1 h.2.1 h.2.2 h'.1 h'.2.1 h'.2.2 hne

/-- One-dimensional launches. -/
theorem yields_launch1 {n tn : Nat} (hn : n ≤ tn) (prog : Nat → Prog α)
    (body : Arr α → Nat → Option (Arr α)) (S : Nat → Int → Prop)
    (h0 : ∀ p : Nat, ¬ p < n → prog p = .done)
    (h1 : ∀ p : Nat, p < n → ∀ a, (prog p).exec a = body a p)
    (hw : ∀ p : Nat, p < n → (prog p).Within (S p))
    (hd : ∀ p p' : Nat, p < n → p' < n → p ≠ p' → ∀ i, S p i → ¬ S p' i)
    (a : Arr α) (P : Arr α → Prop)
    (hr : ∀ order : List Nat, order.Perm (List.range n) → ∃ r, loop body a order = some r ∧ P r) :
    ∃ r, Yields prog (List.range tn) a r ∧ P r := by
  refine yields_guard (List.range tn) List.nodup_range (fun p => decide (p < n)) prog body S
    ?_ ?_ ?_ ?_ a P (hr _ (launch1 hn (List.Perm.refl _)))
  · intro p _ h; exact h0 p (by simpa using h)
  · intro p _ h; rw [decide_eq_true_iff] at h; exact h1 p h
  · intro p _ h; rw [decide_eq_true_iff] at h; exact hw p h
  · intro p _ p' _ h h' hne
    rw [decide_eq_true_iff] at h h'
    exact hd p p' h h' hne

end Sdp.Race
