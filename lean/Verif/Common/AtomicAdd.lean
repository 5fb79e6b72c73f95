import Verif.Common.Race
import Mathlib.Algebra.BigOperators.Group.Finset.Basic
import Mathlib.Algebra.Order.BigOperators.Group.Finset

set_option linter.unusedSectionVars false

/-!
# Threads that add to one array with `sdp_atomic_add`

Each thread has a list of additions to make to cells of one shared array, in order; what it adds does not
depend on that array.  With native atomic addition one addition is one step.  Otherwise it is the
compare-and-swap loop of sdp_cuda_atomics.h:25-36: a load, and attempts to swap in the sum, each of which is one
step and fails if the cell has changed since.  Steps of different threads interleave arbitrarily.
-/

namespace Sdp.Race

variable {α ι : Type}

/-- The array, the additions every thread still has to make, and the value it holds if it has entered the loop of
its next addition. -/
structure ASt (α ι : Type) where
  mem : Arr α
  todo : ι → List (Int × α)
  held : ι → Option α

section
variable [DecidableEq ι] [DecidableEq α] [Add α]

/-- Thread `t` makes its next step, sdp_cuda_atomics.h:14-37. -/
def astep (native : Bool) (s : ASt α ι) (t : ι) : Option (ASt α ι) :=
  match s.todo t with
  | [] => some s
  | (i, v) :: rest =>
    (s.mem.read i).bind fun cur =>
    if native then
      (s.mem.write i (v + cur)).map fun m => ⟨m, Function.update s.todo t rest, Function.update s.held t none⟩
    else match s.held t with
      | none => some ⟨s.mem, s.todo, Function.update s.held t (some cur)⟩
      | some x =>
        if cur = x then
          (s.mem.write i (v + x)).map fun m => ⟨m, Function.update s.todo t rest, Function.update s.held t none⟩
        else some ⟨s.mem, s.todo, Function.update s.held t (some cur)⟩

/-- A schedule. -/
def arun (native : Bool) (s : ASt α ι) (sched : List ι) : Option (ASt α ι) := loop (astep native) s sched

/-- What one can rely on when threads that only add are launched: no schedule leaves the array, a schedule that
runs all threads to the end produces `r`, and every fair schedule does run them to the end. -/
def AddYields (native : Bool) (ops : ι → List (Int × α)) (ts : List ι) (a r : Arr α) : Prop :=
  (∀ sched : List ι, (∀ t ∈ sched, t ∈ ts) →
    ∃ s, arun native ⟨a, ops, fun _ => none⟩ sched = some s ∧ ((∀ t ∈ ts, s.todo t = []) → s.mem = r)) ∧
  ∀ sched : Nat → ι, (∀ n, sched n ∈ ts) → (∀ t ∈ ts, ∀ n, ∃ m, n ≤ m ∧ sched m = t) →
    ∃ N, ∀ n, N ≤ n → ∃ s, arun native ⟨a, ops, fun _ => none⟩ ((List.range n).map sched) = some s ∧
      (∀ t ∈ ts, s.todo t = []) ∧ s.mem = r

end

section
variable [DecidableEq ι] [DecidableEq α] [AddCommMonoid α]

/-- What a list of additions adds to cell `j`. -/
def owed (l : List (Int × α)) (j : Nat) : α := (l.map fun p => if p.1 = (j : Int) then p.2 else 0).sum

/-- Steps a thread may take before its next addition, while nobody else adds. -/
def slack (s : ASt α ι) (t : ι) : Nat :=
  match s.todo t with
  | [] => 0
  | (i, _) :: _ => match s.held t with
    | none => 2
    | some x => if s.mem.get i.toNat = x then 0 else 1

/-- Bound on the number of steps left. -/
def afuel (T : Finset ι) (s : ASt α ι) : Nat := ∑ t ∈ T, ((T.card + 3) * (s.todo t).length + slack s t)

theorem slack_le (s : ASt α ι) (t : ι) : slack s t ≤ 2 := by
  unfold slack
  split
  · omega
  · split
    · omega
    · split <;> omega

/-- Invariant: what is in the array and what is still to be added make up the total. -/
structure AInv (T : Finset ι) (a : Arr α) (total : Nat → α) (s : ASt α ι) : Prop where
  size : s.mem.size = a.size
  inside : ∀ t ∈ T, ∀ p ∈ s.todo t, 0 ≤ p.1 ∧ p.1 < a.size
  sum : ∀ j < a.size, s.mem.get j + ∑ t ∈ T, owed (s.todo t) j = total j
  out : ∀ j, a.size ≤ j → s.mem.get j = a.get j

/-- A completed addition. -/
theorem add_done {T : Finset ι} {a : Arr α} {total : Nat → α} {s : ASt α ι} (h : AInv T a total s) {t : ι}
    (ht : t ∈ T) {i : Int} {v : α} {rest : List (Int × α)} (hd : s.todo t = (i, v) :: rest) :
    ∃ m, s.mem.write i (v + s.mem.get i.toNat) = some m ∧ s.mem.read i = some (s.mem.get i.toNat) ∧
      AInv T a total ⟨m, Function.update s.todo t rest, Function.update s.held t none⟩ ∧
      afuel T ⟨m, Function.update s.todo t rest, Function.update s.held t none⟩ < afuel T s := by
  have hin := h.inside t ht (i, v) (by rw [hd]; simp)
  simp only at hin
  obtain ⟨k, rfl⟩ := Int.eq_ofNat_of_zero_le hin.1
  have hk : k < s.mem.size := by have := h.size; have := hin.2; omega
  refine ⟨s.mem.put k (v + s.mem.get k), ?_, ?_, ⟨?_, ?_, ?_, ?_⟩, ?_⟩
  · rw [Int.toNat_natCast, Arr.write_nat, if_pos hk]
  · rw [Int.toNat_natCast, Arr.read_nat, if_pos hk]
  · exact h.size
  · intro t' ht' p hp
    simp only at hp
    by_cases e : t' = t
    · subst e
      rw [Function.update_self] at hp
      exact h.inside t' ht' p (by rw [hd]; exact List.mem_cons_of_mem _ hp)
    · rw [Function.update_of_ne e] at hp
      exact h.inside t' ht' p hp
  · intro j hj
    rw [← h.sum j hj]
    have e1 : ∑ t' ∈ T, owed (s.todo t') j =
        (if (k : Int) = (j : Int) then v else 0) + ∑ t' ∈ T, owed (Function.update s.todo t rest t') j := by
      rw [← Finset.add_sum_erase T (fun t' => owed (s.todo t') j) ht,
        ← Finset.add_sum_erase T (fun t' => owed (Function.update s.todo t rest t') j) ht]
      simp only [Function.update_self, hd]
      have : ∑ x ∈ T.erase t, owed (Function.update s.todo t rest x) j = ∑ x ∈ T.erase t, owed (s.todo x) j := by
        refine Finset.sum_congr rfl fun x hx => ?_
        rw [Function.update_of_ne (Finset.mem_erase.1 hx).1]
      rw [this, ← add_assoc]
      congr 1
    simp only [Arr.put_get]
    rw [e1]
    by_cases e : j = k
    · subst e
      rw [if_pos rfl, if_pos rfl]
      rw [add_comm v, add_assoc]
    · rw [if_neg e, if_neg (by omega), zero_add]
  · intro j hj
    simp only [Arr.put_get]
    rw [if_neg (by have := h.size; omega)]
    exact h.out j hj
  · unfold afuel
    rw [← Finset.add_sum_erase T _ ht, ← Finset.add_sum_erase T
      (fun t => (T.card + 3) * (s.todo t).length + slack s t) ht]
    simp only [Function.update_self, hd, List.length_cons]
    have h1 := slack_le (⟨s.mem.put k (v + s.mem.get k), Function.update s.todo t rest,
      Function.update s.held t none⟩ : ASt α ι) t
    have h3 : ∑ x ∈ T.erase t, ((T.card + 3) * (Function.update s.todo t rest x).length +
        slack (⟨s.mem.put k (v + s.mem.get k), Function.update s.todo t rest, Function.update s.held t none⟩ :
          ASt α ι) x) ≤
        ∑ x ∈ T.erase t, ((T.card + 3) * (s.todo x).length + slack s x) + (T.card - 1) := by
      have hc : T.card - 1 = ∑ x ∈ T.erase t, 1 := by
        rw [Finset.sum_const, Finset.card_erase_of_mem ht]; simp
      rw [hc, ← Finset.sum_add_distrib]
      refine Finset.sum_le_sum fun x hx => ?_
      have hx' := (Finset.mem_erase.1 hx).1
      rw [Function.update_of_ne hx']
      have : slack (⟨s.mem.put k (v + s.mem.get k), Function.update s.todo t rest, Function.update s.held t none⟩ :
          ASt α ι) x ≤ slack s x + 1 := by
        unfold slack
        simp only [Function.update_of_ne hx']
        split
        · omega
        · split
          · omega
          · split <;> split <;> omega
      omega
    have h4 : 0 < T.card := Finset.card_pos.2 ⟨t, ht⟩
    rw [Nat.mul_add]
    omega

/-- Every step keeps the invariant, and uses up fuel unless the thread has nothing left to do. -/
theorem astep_ok (native : Bool) {T : Finset ι} {a : Arr α} {total : Nat → α} {s : ASt α ι} (h : AInv T a total s)
    {t : ι} (ht : t ∈ T) :
    ∃ s', astep native s t = some s' ∧ AInv T a total s' ∧ (s.todo t = [] → s' = s) ∧
      (s.todo t ≠ [] → afuel T s' < afuel T s) := by
  cases hd : s.todo t with
  | nil => exact ⟨s, by unfold astep; rw [hd], h, fun _ => rfl, fun h => absurd rfl h⟩
  | cons p rest =>
    obtain ⟨i, v⟩ := p
    obtain ⟨m, m1, m2, m3, m4⟩ := add_done h ht hd
    -- the thread takes a value and stays where it is
    have take : slack s t ≠ 0 → AInv T a total ⟨s.mem, s.todo, Function.update s.held t (some (s.mem.get i.toNat))⟩ ∧
        afuel T ⟨s.mem, s.todo, Function.update s.held t (some (s.mem.get i.toNat))⟩ < afuel T s := by
      intro hs
      refine ⟨⟨h.size, h.inside, h.sum, h.out⟩, ?_⟩
      unfold afuel
      refine Finset.sum_lt_sum (fun x _ => ?_) ⟨t, ht, ?_⟩
      · by_cases e : x = t
        · subst e
          have : slack (⟨s.mem, s.todo, Function.update s.held x (some (s.mem.get i.toNat))⟩ : ASt α ι) x = 0 := by
            unfold slack
            simp only [hd, Function.update_self, if_true]
          simp only
          omega
        · have : slack (⟨s.mem, s.todo, Function.update s.held t (some (s.mem.get i.toNat))⟩ : ASt α ι) x = slack s x := by
            unfold slack
            simp only [Function.update_of_ne e]
          simp only
          omega
      · have : slack (⟨s.mem, s.todo, Function.update s.held t (some (s.mem.get i.toNat))⟩ : ASt α ι) t = 0 := by
          unfold slack
          simp only [hd, Function.update_self, if_true]
        simp only
        omega
    unfold astep
    rw [hd]
    simp only [m2, Option.bind_some]
    cases native with
    | true =>
      simp only [if_true, m1, Option.map_some]
      exact ⟨_, rfl, m3, (fun h => by cases h), fun _ => m4⟩
    | false =>
      simp only [Bool.false_eq_true, if_false]
      cases hh : s.held t with
      | none =>
        obtain ⟨k1, k2⟩ := take (by unfold slack; rw [hd]; simp only [hh]; omega)
        exact ⟨_, rfl, k1, (fun h => by cases h), fun _ => k2⟩
      | some x =>
        simp only
        by_cases e : s.mem.get i.toNat = x
        · rw [if_pos e, ← e, m1]
          simp only [Option.map_some]
          exact ⟨_, rfl, m3, (fun h => by cases h), fun _ => m4⟩
        · rw [if_neg e]
          obtain ⟨k1, k2⟩ := take (by unfold slack; rw [hd]; simp only [hh]; rw [if_neg e]; omega)
          exact ⟨_, rfl, k1, (fun h => by cases h), fun _ => k2⟩

theorem arun_ok (native : Bool) {T : Finset ι} {a : Arr α} {total : Nat → α} (sched : List ι) :
    ∀ s : ASt α ι, AInv T a total s → (∀ t ∈ sched, t ∈ T) →
      ∃ s', arun native s sched = some s' ∧ AInv T a total s' := by
  induction sched with
  | nil => intro s h _; exact ⟨s, rfl, h⟩
  | cons t l ih =>
    intro s h hl
    obtain ⟨s1, e1, h1, -⟩ := astep_ok native h (hl t (by simp))
    obtain ⟨s2, e2, h2⟩ := ih s1 h1 fun t' ht' => hl t' (by simp [ht'])
    refine ⟨s2, ?_, h2⟩
    unfold arun at e2 ⊢
    simp only [loop]
    rw [e1]
    exact e2

/-- Additions by threads in any interleaving: the result is the sum, whoever comes first. -/
theorem add_yields (native : Bool) (ops : ι → List (Int × α)) (ts : List ι) (hn : ts.Nodup) (a r : Arr α)
    (hin : ∀ t ∈ ts, ∀ p ∈ ops t, 0 ≤ p.1 ∧ p.1 < a.size) (hsize : r.size = a.size)
    (hr : ∀ j < a.size, r.get j = a.get j + (ts.map fun t => owed (ops t) j).sum)
    (hout : ∀ j, a.size ≤ j → r.get j = a.get j) : AddYields native ops ts a r := by
  have h0 : AInv ts.toFinset a r.get (⟨a, ops, fun _ => none⟩ : ASt α ι) := by
    refine ⟨rfl, fun t ht => hin t (List.mem_toFinset.1 ht), fun j hj => ?_, fun _ _ => rfl⟩
    rw [hr j hj]
    simp only
    rw [List.sum_toFinset _ hn]
  have fin : ∀ s : ASt α ι, AInv ts.toFinset a r.get s → (∀ t ∈ ts, s.todo t = []) → s.mem = r := by
    intro s h hd
    have hget : s.mem.get = r.get := by
      funext j
      by_cases hj : j < a.size
      · have := h.sum j hj
        rw [Finset.sum_eq_zero (fun t ht => by rw [hd t (List.mem_toFinset.1 ht)]; rfl), add_zero] at this
        exact this
      · rw [h.out j (by omega), hout j (by omega)]
    have hsz : s.mem.size = r.size := by rw [h.size, hsize]
    cases hm : s.mem with
    | mk n g =>
      cases hr' : r with
      | mk n' g' => rw [hm, hr'] at hsz hget; simp only at hsz hget; rw [hsz, hget]
  refine ⟨fun sched hs => ?_, fun sched hs hfair => ?_⟩
  · obtain ⟨s, e, h⟩ := arun_ok native sched _ h0 fun t ht => List.mem_toFinset.2 (hs t ht)
    exact ⟨s, e, fin s h⟩
  · have hok : ∀ n, ∃ s, arun native (⟨a, ops, fun _ => none⟩ : ASt α ι) ((List.range n).map sched) = some s ∧
        AInv ts.toFinset a r.get s := by
      intro n
      refine arun_ok native _ _ h0 fun t ht => ?_
      obtain ⟨j, -, rfl⟩ := List.mem_map.1 ht
      exact List.mem_toFinset.2 (hs j)
    choose S hS using hok
    have hstep : ∀ n, astep native (S n) (sched n) = some (S (n + 1)) := by
      intro n
      have e := (hS (n + 1)).1
      rw [List.range_succ, List.map_append] at e
      unfold arun at e
      rw [loop_append] at e
      have e' := (hS n).1
      unfold arun at e'
      rw [e'] at e
      simp only [List.map_cons, List.map_nil, loop, Option.bind_some] at e
      cases hx : astep native (S n) (sched n) with
      | none => rw [hx] at e; cases e
      | some y => rw [hx] at e; exact e
    have hmono : ∀ n, afuel ts.toFinset (S (n + 1)) ≤ afuel ts.toFinset (S n) := by
      intro n
      obtain ⟨s', e, -, k1, k2⟩ := astep_ok native (hS n).2 (List.mem_toFinset.2 (hs n))
      rw [hstep n, Option.some.injEq] at e
      by_cases hd : (S n).todo (sched n) = []
      · rw [e, k1 hd]
      · rw [e]; exact le_of_lt (k2 hd)
    have hmono' : ∀ d n, afuel ts.toFinset (S (n + d)) ≤ afuel ts.toFinset (S n) := by
      intro d
      induction d with
      | zero => intro n; exact le_refl _
      | succ d ih => intro n; exact (hmono (n + d)).trans (ih n)
    have stay : ∀ n, (∀ t ∈ ts, (S n).todo t = []) → S (n + 1) = S n := by
      intro n hd
      obtain ⟨s', e, -, k1, -⟩ := astep_ok native (hS n).2 (List.mem_toFinset.2 (hs n))
      rw [hstep n, Option.some.injEq] at e
      rw [e, k1 (hd _ (hs n))]
    have key : ∀ m k, afuel ts.toFinset (S k) ≤ m → ∃ k, ∀ t ∈ ts, (S k).todo t = [] := by
      intro m
      induction m with
      | zero =>
        intro k hk
        refine ⟨k, fun t ht => ?_⟩
        by_contra hd
        obtain ⟨s', -, -, -, k2⟩ := astep_ok native (hS k).2 (List.mem_toFinset.2 ht)
        have := k2 hd
        omega
      | succ m ih =>
        intro k hk
        by_contra hno
        have hall : ¬ ∀ t ∈ ts, (S k).todo t = [] := fun h => hno ⟨k, h⟩
        push Not at hall
        obtain ⟨t, ht, hd⟩ := hall
        obtain ⟨k', hk', hs'⟩ := hfair t ht k
        -- the fuel cannot stay the same up to the turn of `t`
        have same : ∀ d, k + d ≤ k' → S (k + d) = S k := by
          intro d
          induction d with
          | zero => intro _; rfl
          | succ d ihd =>
            intro hle
            have e1 := ihd (by omega)
            obtain ⟨s', e, -, k1, k2⟩ := astep_ok native (hS (k + d)).2 (List.mem_toFinset.2 (hs (k + d)))
            rw [hstep, Option.some.injEq] at e
            by_cases hd' : (S (k + d)).todo (sched (k + d)) = []
            · rw [show k + (d + 1) = k + d + 1 by omega, e, k1 hd', e1]
            · exfalso
              have h2 := k2 hd'
              rw [← e, e1] at h2
              exact hno (ih (k + d + 1) (by omega))
        have e1 := same (k' - k) (by omega)
        rw [show k + (k' - k) = k' by omega] at e1
        obtain ⟨s', e, -, -, k2⟩ := astep_ok native (hS k').2 (List.mem_toFinset.2 ht)
        rw [← hs', hstep, Option.some.injEq] at e
        rw [← hs'] at hd k2
        rw [e1] at k2
        have h2 := k2 hd
        rw [← e] at h2
        exact hno (ih (k' + 1) (by omega))
    obtain ⟨N, hN⟩ := key _ 0 (le_refl _)
    have hdone : ∀ d, S (N + d) = S N := by
      intro d
      induction d with
      | zero => rfl
      | succ d ih => rw [show N + (d + 1) = N + d + 1 by omega, stay (N + d) (by rw [ih]; exact hN), ih]
    refine ⟨N, fun n hn => ⟨S n, (hS n).1, ?_, ?_⟩⟩
    · rw [show n = N + (n - N) by omega, hdone]; exact hN
    · refine fin _ (hS n).2 ?_
      rw [show n = N + (n - N) by omega, hdone]; exact hN

end
end Sdp.Race
