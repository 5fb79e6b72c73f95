import Mathlib.Algebra.BigOperators.Group.Finset.Basic
import Mathlib.Algebra.Order.BigOperators.Group.Finset
import Mathlib.Data.List.Range
import Mathlib.Tactic.Ring
import Verif.Atomics.Model

/-!
# C80 — the compare-and-swap loops are atomic updates, and end
-/

set_option linter.unusedSectionVars false

namespace Sdp.Atomics

section
variable {B : Type} [DecidableEq B]

/-- The atomic update a thread is meant to make: replace the value unless there is nothing to do. -/
def effect (op : Nat → B → Option B) (v : B) (i : Nat) : B := (op i v).getD v

/-- Thread `i` will not write any more. -/
def Settled (op : Nat → B → Option B) (s : St B) (i : Nat) : Prop :=
  s.pc i = .done ∨ ∃ ret, s.pc i = .loaded ret ∧ op i ret = none

/-- The cell is the result of the updates of the settled threads, one after the other. -/
def Lin (op : Nat → B → Option B) (v0 : B) (n : Nat) (s : St B) : Prop :=
  ∃ lin : List Nat, lin.Nodup ∧ (∀ i, i ∈ lin ↔ Settled op s i) ∧ (∀ i ∈ lin, i < n) ∧
    s.cell = lin.foldl (effect op) v0

theorem settled_other (op : Nat → B → Option B) (s : St B) (c : B) (i j : Nat) (p : Pc B) (h : j ≠ i) :
    Settled op ⟨c, Function.update s.pc i p⟩ j ↔ Settled op s j := by
  unfold Settled
  simp only [Function.update_of_ne h]

theorem settled_self (op : Nat → B → Option B) (s : St B) (c : B) (i : Nat) (p : Pc B) :
    Settled op ⟨c, Function.update s.pc i p⟩ i ↔ p = .done ∨ ∃ ret, p = .loaded ret ∧ op i ret = none := by
  unfold Settled
  simp only [Function.update_self]

/-- A step in which thread `i` becomes settled with its update applied. -/
theorem lin_add (op : Nat → B → Option B) (v0 : B) (n : Nat) (s : St B) (i : Nat) (hi : i < n)
    (h : Lin op v0 n s) (hs : ¬ Settled op s i) (c : B) (p : Pc B) (hc : c = effect op s.cell i)
    (hp : p = .done ∨ ∃ ret, p = .loaded ret ∧ op i ret = none) :
    Lin op v0 n ⟨c, Function.update s.pc i p⟩ := by
  obtain ⟨lin, h1, h2, h3, h4⟩ := h
  have hni : i ∉ lin := fun hm => hs ((h2 i).1 hm)
  refine ⟨lin ++ [i], ?_, ?_, ?_, ?_⟩
  · rw [List.nodup_append]
    refine ⟨h1, List.nodup_singleton i, ?_⟩
    intro a ha b hb
    rw [List.mem_singleton] at hb
    rintro rfl
    exact hni (hb ▸ ha)
  · intro j
    rw [List.mem_append, List.mem_singleton]
    by_cases hj : j = i
    · subst hj
      rw [settled_self]
      exact ⟨fun _ => hp, fun _ => Or.inr rfl⟩
    · rw [settled_other op s c i j p hj, ← h2 j]
      exact ⟨fun h => h.resolve_right hj, Or.inl⟩
  · intro j hj
    rcases List.mem_append.1 hj with h | h
    · exact h3 j h
    · rw [List.mem_singleton] at h; omega
  · rw [List.foldl_append, ← h4]
    exact hc

/-- A step that neither changes the cell nor whether thread `i` is settled. -/
theorem lin_keep (op : Nat → B → Option B) (v0 : B) (n : Nat) (s : St B) (i : Nat)
    (h : Lin op v0 n s) (p : Pc B)
    (hp : (p = .done ∨ ∃ ret, p = .loaded ret ∧ op i ret = none) ↔ Settled op s i) :
    Lin op v0 n ⟨s.cell, Function.update s.pc i p⟩ := by
  obtain ⟨lin, h1, h2, h3, h4⟩ := h
  refine ⟨lin, h1, ?_, h3, h4⟩
  intro j
  by_cases hj : j = i
  · subst hj
    rw [settled_self, hp]
    exact h2 j
  · rw [settled_other op s _ i j p hj]
    exact h2 j

/-- A load, first or after a failed swap. -/
theorem lin_load (op : Nat → B → Option B) (v0 : B) (n : Nat) (s : St B) (i : Nat) (hi : i < n)
    (h : Lin op v0 n s) (hs : ¬ Settled op s i) :
    Lin op v0 n ⟨s.cell, Function.update s.pc i (.loaded s.cell)⟩ := by
  by_cases ho : op i s.cell = none
  · refine lin_add op v0 n s i hi h hs _ _ ?_ (Or.inr ⟨_, rfl, ho⟩)
    simp [effect, ho]
  · refine lin_keep op v0 n s i h _ ?_
    constructor
    · rintro (h | ⟨ret, h, h'⟩)
      · cases h
      · injection h with h
        rw [← h] at h'
        exact absurd h' ho
    · intro h; exact absurd h hs

theorem lin_step (op : Nat → B → Option B) (v0 : B) (n : Nat) (s : St B) (i : Nat) (hi : i < n)
    (h : Lin op v0 n s) : Lin op v0 n (step op s i) := by
  unfold step
  cases hp : s.pc i with
  | done => exact h
  | start =>
    refine lin_load op v0 n s i hi h ?_
    rintro (h | ⟨ret, h, -⟩) <;> rw [hp] at h <;> cases h
  | loaded ret =>
    simp only
    cases ho : op i ret with
    | none =>
      refine lin_keep op v0 n s i h _ ⟨fun _ => Or.inr ⟨ret, hp, ho⟩, fun _ => Or.inl rfl⟩
    | some b =>
      have hs : ¬ Settled op s i := by
        rintro (h | ⟨r, h, h'⟩) <;> rw [hp] at h
        · cases h
        · injection h with h
          rw [← h, ho] at h'
          cases h'
      simp only
      by_cases hc : s.cell = ret
      · rw [if_pos hc]
        refine lin_add op v0 n s i hi h hs _ _ ?_ (Or.inl rfl)
        rw [hc]
        simp [effect, ho]
      · rw [if_neg hc]
        exact lin_load op v0 n s i hi h hs

theorem lin_run (op : Nat → B → Option B) (v0 : B) (n : Nat) (sched : List Nat) :
    ∀ (s : St B), (∀ i ∈ sched, i < n) → Lin op v0 n s → Lin op v0 n (run op s sched) := by
  induction sched with
  | nil => intro s _ h; exact h
  | cons i l ih =>
    intro s hl h
    exact ih (step op s i) (fun j hj => hl j (by simp [hj])) (lin_step op v0 n s i (hl i (by simp)) h)

theorem lin_init (op : Nat → B → Option B) (v0 : B) (n : Nat) : Lin op v0 n (init v0) := by
  refine ⟨[], List.nodup_nil, ?_, by simp, rfl⟩
  intro i
  simp [Settled, init]

/-- **C80, atomicity.**  For every number of threads and every interleaving of their loads and swaps after
which all have returned, the cell is the result of applying the update of every thread exactly once, in
some order. -/
theorem C80_linearizable (op : Nat → B → Option B) (v0 : B) (n : Nat) (sched : List Nat)
    (hl : ∀ i ∈ sched, i < n) (hd : ∀ i < n, (run op (init v0) sched).pc i = .done) :
    ∃ order : List Nat, order.Perm (List.range n) ∧
      (run op (init v0) sched).cell = order.foldl (fun v i => (op i v).getD v) v0 := by
  obtain ⟨lin, h1, h2, h3, h4⟩ := lin_run op v0 n sched (init v0) hl (lin_init op v0 n)
  refine ⟨lin, ?_, h4⟩
  rw [List.perm_ext_iff_of_nodup h1 List.nodup_range]
  intro i
  rw [List.mem_range]
  exact ⟨h3 i, fun h => (h2 i).2 (Or.inl (hd i h))⟩

end

/-- **C80, addition.**  Every value is added exactly once. -/
theorem C80_add {B : Type} [DecidableEq B] [AddCommMonoid B] (val : Nat → B) (v0 : B) (n : Nat)
    (sched : List Nat) (hl : ∀ i ∈ sched, i < n)
    (hd : ∀ i < n, (run (addOp val) (init v0) sched).pc i = .done) :
    (run (addOp val) (init v0) sched).cell = v0 + ∑ i ∈ Finset.range n, val i := by
  obtain ⟨order, hp, h⟩ := C80_linearizable (addOp val) v0 n sched hl hd
  rw [h]
  have gen : ∀ (l : List Nat) (v : B), l.foldl (fun v i => (addOp val i v).getD v) v = v + (l.map val).sum := by
    intro l
    induction l with
    | nil => intro v; simp
    | cons i l ih =>
      intro v
      rw [List.foldl_cons, ih, List.map_cons, List.sum_cons]
      simp only [addOp, Option.getD_some]
      rw [add_comm (val i) v, add_assoc]
  rw [gen, (hp.map val).sum_eq]
  rfl

/-- Least value. -/
def IsLeastOf {B : Type} [LE B] (S : B → Prop) (m : B) : Prop := S m ∧ ∀ x, S x → m ≤ x

/-- **C80, minimum.**  The cell ends as the least of its initial value and all values. -/
theorem C80_min {B : Type} [LinearOrder B] (val : Nat → B) (v0 : B) (n : Nat)
    (sched : List Nat) (hl : ∀ i ∈ sched, i < n)
    (hd : ∀ i < n, (run (minOp val) (init v0) sched).pc i = .done) :
    IsLeastOf (fun x => x = v0 ∨ ∃ i < n, x = val i) (run (minOp val) (init v0) sched).cell := by
  obtain ⟨order, hp, h⟩ := C80_linearizable (minOp val) v0 n sched hl hd
  rw [h]
  have gen : ∀ (l : List Nat) (v : B),
      IsLeastOf (fun x => x = v ∨ ∃ i ∈ l, x = val i) (l.foldl (fun v i => (minOp val i v).getD v) v) := by
    intro l
    induction l with
    | nil => intro v; exact ⟨Or.inl rfl, by simp⟩
    | cons i l ih =>
      intro v
      rw [List.foldl_cons]
      obtain ⟨h1, h2⟩ := ih ((minOp val i v).getD v)
      have hv : ((minOp val i v).getD v = v ∧ v ≤ val i) ∨ ((minOp val i v).getD v = val i ∧ val i ≤ v) := by
        unfold minOp
        by_cases hc : val i < v
        · rw [if_pos hc]; exact Or.inr ⟨rfl, hc.le⟩
        · rw [if_neg hc]; exact Or.inl ⟨rfl, not_lt.1 hc⟩
      constructor
      · rcases h1 with h1 | ⟨j, hj, h1⟩
        · rcases hv with ⟨e, -⟩ | ⟨e, -⟩
          · exact Or.inl (h1.trans e)
          · exact Or.inr ⟨i, by simp, h1.trans e⟩
        · exact Or.inr ⟨j, by simp [hj], h1⟩
      · rintro x (rfl | ⟨j, hj, rfl⟩)
        · refine (h2 _ (Or.inl rfl)).trans ?_
          rcases hv with ⟨e, -⟩ | ⟨e, e'⟩
          · rw [e]
          · rw [e]; exact e'
        · rcases List.mem_cons.1 hj with rfl | hj
          · refine (h2 _ (Or.inl rfl)).trans ?_
            rcases hv with ⟨e, e'⟩ | ⟨e, -⟩
            · rw [e]; exact e'
            · rw [e]
          · exact h2 _ (Or.inr ⟨j, hj, rfl⟩)
  obtain ⟨h1, h2⟩ := gen order v0
  have hm : ∀ i, i ∈ order ↔ i < n := fun i => by rw [hp.mem_iff, List.mem_range]
  simp only [hm] at h1 h2
  exact ⟨h1, h2⟩

/-- **C80, maximum.**  The cell ends as the greatest of its initial value and all values. -/
theorem C80_max {B : Type} [LinearOrder B] (val : Nat → B) (v0 : B) (n : Nat)
    (sched : List Nat) (hl : ∀ i ∈ sched, i < n)
    (hd : ∀ i < n, (run (maxOp val) (init v0) sched).pc i = .done) :
    ((run (maxOp val) (init v0) sched).cell = v0 ∨ ∃ i < n, (run (maxOp val) (init v0) sched).cell = val i) ∧
    v0 ≤ (run (maxOp val) (init v0) sched).cell ∧ ∀ i < n, val i ≤ (run (maxOp val) (init v0) sched).cell := by
  have h := C80_min (B := Bᵒᵈ) val v0 n sched hl hd
  exact ⟨h.1, h.2 v0 (Or.inl rfl), fun i hi => h.2 (val i) (Or.inr ⟨i, hi, rfl⟩)⟩

/-! ## The loops end -/

section
variable {B : Type} [DecidableEq B]

/-- Steps thread `i` can still take before the cell changes. -/
def weight (s : St B) (i : Nat) : Nat :=
  match s.pc i with
  | .done => 0
  | .start => 2
  | .loaded ret => if s.cell = ret then 1 else 2

/-- Has not returned. -/
def live (s : St B) (i : Nat) : Nat := if s.pc i = .done then 0 else 1

/-- Bound on the number of steps before all threads have returned. -/
def fuel (n : Nat) (s : St B) : Nat := ∑ i ∈ Finset.range n, (weight s i + n * live s i)

theorem weight_le (s : St B) (i : Nat) : weight s i ≤ 2 := by
  unfold weight
  split <;> (try split) <;> omega

/-- Every step of a thread that has not returned uses up fuel. -/
theorem fuel_step (op : Nat → B → Option B) (n : Nat) (s : St B) (i : Nat) (hi : i < n)
    (hd : s.pc i ≠ .done) : fuel n (step op s i) + 1 ≤ fuel n s := by
  -- a step that leaves the cell as it was and lowers the weight of its thread
  have keep : ∀ p : Pc B, weight ⟨s.cell, Function.update s.pc i p⟩ i + 1 ≤ weight s i →
      fuel n ⟨s.cell, Function.update s.pc i p⟩ + 1 ≤ fuel n s := by
    intro p hw
    unfold fuel
    refine Nat.succ_le_of_lt (Finset.sum_lt_sum ?_ ⟨i, Finset.mem_range.2 hi, ?_⟩)
    · intro j _
      by_cases hj : j = i
      · subst hj
        have hl : live ⟨s.cell, Function.update s.pc j p⟩ j ≤ live s j := by
          unfold live
          rw [if_neg hd]
          split <;> omega
        have := Nat.mul_le_mul_left n hl
        omega
      · unfold weight live
        simp only [Function.update_of_ne hj]
        exact le_refl _
    · have hl : live ⟨s.cell, Function.update s.pc i p⟩ i ≤ live s i := by
        unfold live
        rw [if_neg hd]
        split <;> omega
      have := Nat.mul_le_mul_left n hl
      omega
  unfold step
  cases hp : s.pc i with
  | done => exact absurd hp hd
  | start =>
    refine keep _ ?_
    simp [weight, hp]
  | loaded ret =>
    simp only
    cases ho : op i ret with
    | none =>
      refine keep _ ?_
      simp only [weight, Function.update_self, hp]
      split <;> omega
    | some b =>
      simp only
      by_cases hc : s.cell = ret
      · rw [if_pos hc]
        -- the swap: all others may become stale, but one thread fewer is live
        have hsum : fuel n ⟨b, Function.update s.pc i .done⟩ + (n + 1) ≤
            fuel n s + ∑ j ∈ Finset.range n, (if j = i then 0 else 1) := by
          unfold fuel
          rw [← Finset.sum_add_distrib]
          rw [← Finset.add_sum_erase _ _ (Finset.mem_range.2 hi),
            ← Finset.add_sum_erase (Finset.range n)
              (fun j => weight s j + n * live s j + if j = i then 0 else 1) (Finset.mem_range.2 hi)]
          have h1 : weight ⟨b, Function.update s.pc i .done⟩ i + n * live ⟨b, Function.update s.pc i .done⟩ i = 0 := by
            simp [weight, live]
          have h2 : weight s i + n * live s i = 1 + n := by
            simp [weight, live, hp, hc]
          have h3 : ∑ j ∈ (Finset.range n).erase i, (weight ⟨b, Function.update s.pc i .done⟩ j +
              n * live ⟨b, Function.update s.pc i .done⟩ j) ≤
              ∑ j ∈ (Finset.range n).erase i, (weight s j + n * live s j + if j = i then 0 else 1) := by
            refine Finset.sum_le_sum fun j hj => ?_
            have hji := (Finset.mem_erase.1 hj).1
            rw [if_neg hji]
            have hl : live ⟨b, Function.update s.pc i .done⟩ j = live s j := by
              unfold live
              simp only [Function.update_of_ne hji]
            have hw : weight ⟨b, Function.update s.pc i .done⟩ j ≤ weight s j + 1 := by
              unfold weight
              simp only [Function.update_of_ne hji]
              split <;> (try split) <;> (try split) <;> omega
            rw [hl]
            omega
          rw [h1]
          simp only [if_true]
          rw [h2]
          omega
        have hcnt : ∑ j ∈ Finset.range n, (if j = i then 0 else 1) ≤ n - 1 := by
          rw [← Finset.add_sum_erase _ _ (Finset.mem_range.2 hi)]
          simp only [if_true, zero_add]
          refine (Finset.sum_le_card_nsmul _ _ 1 fun j _ => ?_).trans ?_
          · split <;> omega
          · rw [Finset.card_erase_of_mem (Finset.mem_range.2 hi), Finset.card_range]
            simp
        omega
      · rw [if_neg hc]
        refine keep _ ?_
        simp [weight, hp, hc]

/-- **C80, bounded.**  Whatever the schedule, the threads that have not returned take at most
`n² + 2 n` steps altogether. -/
theorem C80_bounded (op : Nat → B → Option B) (v0 : B) (n : Nat) (sched : List Nat)
    (hl : ∀ i ∈ sched, i < n) : effective op (init v0) sched ≤ n * n + 2 * n := by
  have gen : ∀ (l : List Nat) (s : St B), (∀ i ∈ l, i < n) → effective op s l ≤ fuel n s := by
    intro l
    induction l with
    | nil => intro s _; simp [effective]
    | cons i l ih =>
      intro s h
      have hs := ih (step op s i) fun j hj => h j (by simp [hj])
      unfold effective
      by_cases hd : s.pc i = .done
      · rw [if_pos hd]
        have e : step op s i = s := by unfold step; rw [hd]
        rw [e] at hs ⊢
        omega
      · rw [if_neg hd]
        have := fuel_step op n s i (h i (by simp)) hd
        omega
  refine (gen sched (init v0) hl).trans ?_
  have : fuel n (init v0) = ∑ _i ∈ Finset.range n, (2 + n) := by
    unfold fuel
    refine Finset.sum_congr rfl fun i _ => ?_
    simp [weight, live, init]
  rw [this, Finset.sum_const, Finset.card_range]
  have : n • (2 + n) = n * n + 2 * n := by rw [show n • (2 + n) = n * (2 + n) from rfl]; ring
  omega

/-- **C80, completion.**  If every thread is scheduled again and again, all of them return. -/
theorem C80_completes (op : Nat → B → Option B) (v0 : B) (n : Nat) (sched : Nat → Nat)
    (hl : ∀ k, sched k < n) (hfair : ∀ i < n, ∀ k, ∃ k' ≥ k, sched k' = i) :
    ∃ k, ∀ i < n, (runN op (init v0) sched k).pc i = .done := by
  have hmono : ∀ k, fuel n (runN op (init v0) sched (k + 1)) ≤ fuel n (runN op (init v0) sched k) := by
    intro k
    rw [runN]
    by_cases hd : (runN op (init v0) sched k).pc (sched k) = .done
    · have e : step op (runN op (init v0) sched k) (sched k) = runN op (init v0) sched k := by
        unfold step; rw [hd]
      rw [e]
    · have := fuel_step op n _ (sched k) (hl k) hd
      omega
  have hmono' : ∀ d k, fuel n (runN op (init v0) sched (k + d)) ≤ fuel n (runN op (init v0) sched k) := by
    intro d
    induction d with
    | zero => intro k; exact le_refl _
    | succ d ih => intro k; exact (hmono (k + d)).trans (ih k)
  have key : ∀ m k, fuel n (runN op (init v0) sched k) ≤ m →
      ∃ k, ∀ i < n, (runN op (init v0) sched k).pc i = .done := by
    intro m
    induction m with
    | zero =>
      intro k hk
      refine ⟨k, fun i hi => ?_⟩
      by_contra hd
      have := fuel_step op n _ i hi hd
      omega
    | succ m ih =>
      intro k hk
      by_cases hall : ∀ i < n, (runN op (init v0) sched k).pc i = .done
      · exact ⟨k, hall⟩
      push Not at hall
      obtain ⟨i, hi, hd⟩ := hall
      obtain ⟨k', hk', hs⟩ := hfair i hi k
      by_cases hd' : (runN op (init v0) sched k').pc i = .done
      · -- it returned in between, so some step was taken
        by_contra hno
        have hstay : ∀ d, (runN op (init v0) sched (k + d)).pc i ≠ .done := by
          intro d
          induction d with
          | zero => exact hd
          | succ d ihd =>
            intro hdone
            have hch : sched (k + d) = i := by
              by_contra hne
              apply ihd
              have hu : (runN op (init v0) sched (k + (d + 1))).pc i = (runN op (init v0) sched (k + d)).pc i := by
                show (step op (runN op (init v0) sched (k + d)) (sched (k + d))).pc i = _
                have hne' : i ≠ sched (k + d) := fun e => hne e.symm
                unfold step
                split
                · rfl
                · simp only [Function.update_of_ne hne']
                · split
                  · simp only [Function.update_of_ne hne']
                  · split <;> simp only [Function.update_of_ne hne']
              rw [← hu]; exact hdone
            have h1 := fuel_step op n _ i hi ihd
            have h2 : step op (runN op (init v0) sched (k + d)) i = runN op (init v0) sched (k + d + 1) := by
              rw [runN, hch]
            rw [h2] at h1
            have h3 := hmono' d k
            exact hno (ih (k + d + 1) (by omega))
        have e : k + (k' - k) = k' := by omega
        have := hstay (k' - k)
        rw [e] at this
        exact this hd'
      · have h1 := fuel_step op n _ i hi hd'
        have h2 : step op (runN op (init v0) sched k') i = runN op (init v0) sched (k' + 1) := by
          rw [runN, hs]
        rw [h2] at h1
        have h3 := hmono' (k' - k) k
        have e : k + (k' - k) = k' := by omega
        rw [e] at h3
        exact ih (k' + 1) (by omega)
  exact key _ 0 (le_refl _)

end

/-- Three threads adding 5, 7 and 9 to 1: both swaps of the first thread fail before it succeeds. -/
example : let op := addOp fun i => [5, 7, 9].getD i (0 : Int)
    let s := run op (init 1) [0, 1, 2, 1, 0, 2, 2, 0, 0]
    s.cell = 22 ∧ s.pc 0 = .done ∧ s.pc 1 = .done ∧ s.pc 2 = .done ∧
    effective op (init (1 : Int)) [0, 1, 2, 1, 0, 2, 2, 0, 0] = 9 := by decide

end Sdp.Atomics
