import Verif.Temps.Model
import Mathlib.Algebra.Order.Group.Multiset
import Mathlib.Algebra.BigOperators.Group.List.Basic
import Mathlib.Tactic.Common

/-!
# C114: an analysis of programs, and that it is right

The analysis follows the local pointers that a program is responsible for.  It is not part of the model: the theorems of
`Props.lean` do not mention it.
-/

namespace Sdp.Temps

/-- What is known: pointers to be released; pointers that are not null; pointers that can be used if there is no error, with the
pointer that is responsible for their data; and those that can be used in any case. -/
structure Know where
  own : List Nat
  here : List Nat
  solid : List (Nat × Nat)
  sure : List (Nat × Nat)
deriving DecidableEq

/-- What is to be shown: no faults at all; nothing kept, and faults only after errors; the same for executions without errors. -/
inductive Mode where
  | safe | tidy | lax
deriving DecidableEq

/-- At least as much is known as in `k`. -/
def Know.le (k k' : Know) : Bool :=
  decide (k'.own = k.own) && k.here.all (fun p => decide (p ∈ k'.here)) && k.solid.all (fun p => decide (p ∈ k'.solid)) &&
    k.sure.all (fun p => decide (p ∈ k'.sure))

/-- A pointer is made, perhaps to nothing. -/
def Know.try (k : Know) (x : Nat) : Know := { k with own := x :: k.own, solid := (x, x) :: k.solid }

/-- A pointer is made, whose data belong to `y`. -/
def Know.add (k : Know) (x y : Nat) : Know := { k with own := x :: k.own, here := x :: k.here, solid := (x, y) :: k.solid }

/-- A pointer is released. -/
def Know.drop (k : Know) (x : Nat) : Know :=
  ⟨k.own.erase x, k.here.filter (fun y => decide (y ≠ x)), k.solid.filter (fun p => decide (p.1 ≠ x ∧ p.2 ≠ x)),
    k.sure.filter (fun p => decide (p.1 ≠ x ∧ p.2 ≠ x))⟩

/-- There is no error. -/
def Know.good (k : Know) : Know := { k with sure := k.solid ++ k.sure }

/-- Can all of these be used? -/
def within (l : List (Nat × Nat)) (xs : List Nat) : Bool := xs.all fun x => l.any fun p => decide (p.1 = x)

/-- What `f` gives for all ends in `next`, and the other ends. -/
def chain (f : Know → Option (List (Exit × Know))) : List (Exit × Know) → Option (List (Exit × Know))
  | [] => some []
  | r :: l => (chain f l).bind fun out => if r.1 = .next then (f r.2).map (· ++ out) else some (r :: out)

/-- The ends that are possible, with what is known there. -/
def check (m : Mode) : Prog → Know → Option (List (Exit × Know))
  | .nop, k => some [(.next, k)]
  | .seq a b, k => (check m a k).bind (chain (check m b))
  | .null x, k => if x ∈ k.own then none else some [(.next, { k with own := x :: k.own })]
  | .make x, k => if x ∈ k.own then none else some [(.next, k.add x x)]
  | .slice x y, k =>
    if x ∈ k.own ∨ y ∉ k.here then none
    else match k.solid.find? (fun p => decide (p.1 = y)) with
      | some p => some [(.next, k.add x p.2)]
      | none => none
  | .wrap x, k => if x ∈ k.own then none else some [(.next, k.add x x)]
  | .fft x l, k => if x ∈ k.own ∨ within k.solid l = false then none else some [(.next, k.try x)]
  | .pswf x, k => if x ∈ k.own then none else some [(.next, k.add x x)]
  | .grow x, k => if x ∈ k.here then some [(.next, k)] else none
  | .tower x, k => if x ∈ k.own then none else some [(.next, k.try x)]
  | .call l, k => if within k.solid l then some [(.next, k)] else none
  | .touch l, k => if within (if m = .safe then k.sure else k.solid) l then some [(.next, k)] else none
  | .free x, k => if x ∈ k.own then some [(.next, k.drop x)] else none
  | .either a b, k => (check m a k).bind fun l => (check m b k).map fun l' => l ++ l'
  | .loop a, k => (check m a k).bind fun l =>
    if l.all (fun r => decide (r.1 = .next ∨ r.1 = .brk → k.le r.2 = true)) then
      some ((.next, k) :: l.filter fun r => decide (r.1 ≠ .next ∧ r.1 ≠ .brk))
    else none
  | .ifErr a, k => if m = .lax then some [(.next, k.good)] else (check m a k).map fun l => (.next, k.good) :: l
  | .ifOk a, k => (check m a k.good).map fun l => (.next, k) :: l
  | .ret, k => some [(.ret, k)]
  | .brk, k => some [(.brk, k)]
  | .halt, k => some [(.halt, k)]
  | .fn a, k => (check m a k).bind fun l =>
    if l.all (fun r => decide (r.1 = .next ∨ r.1 = .ret → k.le r.2 = true)) then
      some ((.next, k) :: l.filter fun r => decide (r.1 ≠ .next ∧ r.1 ≠ .ret))
    else none

/-! ## What is known of a state -/

/-- The pointer can be used as long as the blocks of the other are there. -/
def Fine (s : St) (p : Nat × Nat) : Prop :=
  ∃ i, s.vars p.1 = some i ∧ i.usable = true ∧ ∀ d, i.data = some d → ∃ j, s.vars p.2 = some j ∧ d ∈ j.blocks

/-- The state is as `k` says, and `base` are the blocks that belong to others. -/
structure Rel (k : Know) (s : St) (base : Multiset Nat) : Prop where
  nodup : k.own.Nodup
  live : s.live = base + (k.own.map fun x => held (s.vars x)).sum
  here : ∀ x ∈ k.here, x ∈ k.own ∧ s.vars x ≠ none
  solid : ∀ p ∈ k.solid, p.1 ∈ k.own ∧ p.2 ∈ k.own ∧ (s.ok = true → Fine s p)
  sure : ∀ p ∈ k.sure, p.1 ∈ k.own ∧ p.2 ∈ k.own ∧ Fine s p

variable {k k' : Know} {s s' t : St} {base : Multiset Nat} {x : Nat}

theorem Rel.weaken (h : Rel k' s base) (hk : k.le k' = true) : Rel k s base := by
  unfold Know.le at hk
  simp only [Bool.and_eq_true, decide_eq_true_eq, List.all_eq_true] at hk
  obtain ⟨⟨⟨h1, h2⟩, h3⟩, h4⟩ := hk
  exact ⟨h1 ▸ h.nodup, h1 ▸ h.live, fun x hx => h1 ▸ h.here x (h2 x hx), fun p hp => h1 ▸ h.solid p (h3 p hp),
    fun p hp => h1 ▸ h.sure p (h4 p hp)⟩

theorem Rel.err (h : Rel k s base) {ok : Bool} (ho : ok = true → s.ok = true) : Rel k (s.err ok) base :=
  ⟨h.nodup, h.live, h.here, fun p hp => ⟨(h.solid p hp).1, (h.solid p hp).2.1, fun e => (h.solid p hp).2.2 (ho e)⟩, h.sure⟩

theorem Rel.good (h : Rel k s base) (ho : s.ok = true) : Rel k.good s base := by
  refine ⟨h.nodup, h.live, h.here, h.solid, fun p hp => ?_⟩
  rcases List.mem_append.1 hp with hp | hp
  · exact ⟨(h.solid p hp).1, (h.solid p hp).2.1, (h.solid p hp).2.2 ho⟩
  · exact h.sure p hp

theorem Rel.le_live (h : Rel k s base) (hx : x ∈ k.own) {i : Item} (hi : s.vars x = some i) : i.blocks ≤ s.live := by
  rw [h.live]
  refine le_trans ?_ (Multiset.le_add_left _ _)
  obtain ⟨a, b, hab⟩ := List.append_of_mem hx
  rw [hab, List.map_append, List.sum_append, List.map_cons, List.sum_cons, hi]
  exact le_trans (Multiset.le_add_right _ _) (Multiset.le_add_left _ _)

theorem Rel.reach (h : Rel k s base) {p : Nat × Nat} (h1 : p.1 ∈ k.own) (h2 : p.2 ∈ k.own) (hf : Fine s p) : s.Reach p.1 := by
  obtain ⟨i, i1, i2, i3⟩ := hf
  refine ⟨i, i1, i2, Multiset.mem_of_le (h.le_live h1 i1) (by simp [Item.blocks]), fun d hd => ?_⟩
  obtain ⟨j, j1, j2⟩ := i3 d hd
  exact Multiset.mem_of_le (h.le_live h2 j1) j2

theorem within_iff {l : List (Nat × Nat)} {xs : List Nat} : within l xs = true ↔ ∀ x ∈ xs, ∃ y, (x, y) ∈ l := by
  unfold within
  simp only [List.all_eq_true, List.any_eq_true, decide_eq_true_eq]
  constructor
  · intro h x hx
    obtain ⟨p, hp, rfl⟩ := h x hx
    exact ⟨p.2, hp⟩
  · intro h x hx
    obtain ⟨y, hy⟩ := h x hx
    exact ⟨(x, y), hy, rfl⟩

theorem Rel.reach_solid (h : Rel k s base) {xs : List Nat} (hw : within k.solid xs = true) (ho : s.ok = true) :
    ∀ y ∈ xs, s.Reach y := by
  intro y hy
  obtain ⟨z, hz⟩ := within_iff.1 hw y hy
  obtain ⟨h1, h2, h3⟩ := h.solid _ hz
  exact h.reach h1 h2 (h3 ho)

theorem Rel.reach_sure (h : Rel k s base) {xs : List Nat} (hw : within k.sure xs = true) : ∀ y ∈ xs, s.Reach y := by
  intro y hy
  obtain ⟨z, hz⟩ := within_iff.1 hw y hy
  obtain ⟨h1, h2, h3⟩ := h.sure _ hz
  exact h.reach h1 h2 h3

theorem set_other {s : St} {x y : Nat} {v : Option Item} (h : y ≠ x) : (s.set x v).vars y = s.vars y := if_neg h

theorem set_self {s : St} {x : Nat} {v : Option Item} : (s.set x v).vars x = v := if_pos rfl

theorem map_other {l : List Nat} {v v' : Nat → Option Item} (h : ∀ y ∈ l, v' y = v y) :
    (l.map fun y => held (v' y)).sum = (l.map fun y => held (v y)).sum := by
  rw [List.map_congr_left fun y hy => by rw [h y hy]]

/-- A new pointer. -/
theorem Rel.assign (h : Rel k s base) (hx : x ∉ k.own) {v : Option Item} {s' : St} (hv : s'.vars = (s.set x v).vars)
    (hl : s'.live = held v + s.live) (ho : s'.ok = true → s.ok = true) {here : List Nat} (hh : ∀ y ∈ here, y = x ∧ v ≠ none)
    {solid : List (Nat × Nat)} (hs : ∀ p ∈ solid, p.1 = x ∧ p.2 ∈ x :: k.own ∧ (s'.ok = true → Fine s' p)) :
    Rel ⟨x :: k.own, here ++ k.here, solid ++ k.solid, k.sure⟩ s' base := by
  have same : ∀ y ∈ k.own, s'.vars y = s.vars y := fun y hy => by
    rw [hv]; exact set_other fun e => hx (e ▸ hy)
  have fine : ∀ p : Nat × Nat, p.1 ∈ k.own → p.2 ∈ k.own → Fine s p → Fine s' p := by
    rintro p h1 h2 ⟨i, i1, i2, i3⟩
    refine ⟨i, by rw [same _ h1]; exact i1, i2, fun d hd => ?_⟩
    rw [same _ h2]
    exact i3 d hd
  have self : s'.vars x = v := by rw [hv]; exact set_self
  refine ⟨List.nodup_cons.2 ⟨hx, h.nodup⟩, ?_, ?_, ?_, ?_⟩
  · rw [hl, h.live, List.map_cons, List.sum_cons, map_other same, self]
    ac_rfl
  · intro y hy
    rcases List.mem_append.1 hy with hy | hy
    · obtain ⟨rfl, h2⟩ := hh y hy
      exact ⟨by simp, by rw [self]; exact h2⟩
    · obtain ⟨h1, h2⟩ := h.here y hy
      exact ⟨by simp [h1], by rw [same _ h1]; exact h2⟩
  · intro p hp
    rcases List.mem_append.1 hp with hp | hp
    · obtain ⟨h1, h2, h3⟩ := hs p hp
      exact ⟨by rw [h1]; simp, h2, h3⟩
    · obtain ⟨h1, h2, h3⟩ := h.solid p hp
      exact ⟨by simp [h1], by simp [h2], fun e => fine p h1 h2 (h3 (ho e))⟩
  · intro p hp
    obtain ⟨h1, h2, h3⟩ := h.sure p hp
    exact ⟨by simp [h1], by simp [h2], fine p h1 h2 h3⟩

theorem put_live (s : St) (x n : Nat) (data : Option Nat) (u : Bool) :
    (s.put x n data u).live = held (some (s.fresh n data u)) + s.live := by
  show ((List.range (n + 1)).map (s.next + ·) : Multiset Nat) + s.live = _
  congr 1
  unfold held Item.blocks St.fresh
  congr 1
  rw [List.range_succ_eq_map, List.map_cons, List.map_map]
  congr 1
  refine List.map_congr_left fun y _ => ?_
  simp only [Function.comp]
  omega

/-- A new object. -/
theorem Rel.put (h : Rel k s base) (hx : x ∉ k.own) {n : Nat} {data : Option Nat} {u ok : Bool} (ho : ok = true → s.ok = true)
    {y : Nat} (hy : y = x ∨ y ∈ k.own)
    (hd : ok = true → u = true ∧ ∀ d, data = some d → ∃ j, (s.put x n data u).vars y = some j ∧ d ∈ j.blocks) :
    Rel (k.add x y) ((s.put x n data u).err ok) base := by
  refine h.assign (s' := (s.put x n data u).err ok) (x := x) (v := some (s.fresh n data u)) (here := [x]) (solid := [(x, y)]) hx rfl (put_live s x n data u) ho ?_ ?_
  · intro z hz
    exact ⟨by simpa using hz, by simp⟩
  · intro p hp
    rw [List.mem_singleton] at hp
    subst hp
    refine ⟨rfl, by simpa using hy, fun e => ?_⟩
    obtain ⟨h1, h2⟩ := hd e
    exact ⟨_, set_self, h1, h2⟩

/-- A new pointer to nothing, after an error. -/
theorem Rel.nothing (h : Rel k s base) (hx : x ∉ k.own) : Rel (k.try x) ((s.set x none).err false) base := by
  refine h.assign (s' := (s.set x none).err false) (x := x) (v := none) (here := []) (solid := [(x, x)]) hx rfl (by simp [held, St.err, St.set])
    (by simp [St.err]) (by simp) ?_
  intro p hp
  rw [List.mem_singleton] at hp
  subst hp
  exact ⟨rfl, by simp, by simp [St.err]⟩

theorem err_self (s : St) : s.err s.ok = s := rfl

theorem try_le (k : Know) (x : Nat) : (k.try x).le (k.add x x) = true := by
  unfold Know.le Know.try Know.add
  simp only [Bool.and_eq_true, decide_eq_true_eq, List.all_eq_true]
  exact ⟨⟨⟨trivial, fun p hp => List.mem_cons_of_mem _ hp⟩, fun p hp => hp⟩, fun p hp => hp⟩

theorem le_refl' (k : Know) : k.le k = true := by
  unfold Know.le
  simp

theorem Rel.null (h : Rel k s base) (hx : x ∉ k.own) : Rel { k with own := x :: k.own } (s.set x none) base :=
  h.assign (x := x) (v := none) (here := []) (solid := []) hx rfl (by simp [held, St.set]) id (by simp) (by simp)

theorem Rel.free (h : Rel k s base) (hx : x ∈ k.own) {v : Option Item} (hv : s.vars x = v) :
    held v ≤ s.live ∧ Rel (k.drop x) { s with live := s.live - held v } base := by
  have hl : s.live = held v + (base + ((k.own.erase x).map fun y => held (s.vars y)).sum) := by
    have hp := ((List.perm_cons_erase hx).map fun y => held (s.vars y)).sum_eq
    rw [List.map_cons, List.sum_cons, hv] at hp
    rw [h.live, hp]
    ac_rfl
  have keep : ∀ y ∈ k.own, y ≠ x → y ∈ k.own.erase x := fun y hy hn => (List.mem_erase_of_ne hn).2 hy
  refine ⟨by rw [hl]; exact Multiset.le_add_right _ _, h.nodup.erase x, ?_, ?_, ?_, ?_⟩
  · show s.live - held v = _
    conv_lhs => rw [hl]
    rw [add_tsub_cancel_left]
    rfl
  · intro y hy
    have hy' : y ∈ k.here ∧ y ≠ x := by simpa [Know.drop] using hy
    obtain ⟨h1, h2⟩ := h.here y hy'.1
    exact ⟨keep y h1 hy'.2, h2⟩
  · intro p hp
    have hp' : p ∈ k.solid ∧ p.1 ≠ x ∧ p.2 ≠ x := by simpa [Know.drop] using hp
    obtain ⟨h1, h2, h3⟩ := h.solid p hp'.1
    exact ⟨keep _ h1 hp'.2.1, keep _ h2 hp'.2.2, h3⟩
  · intro p hp
    have hp' : p ∈ k.sure ∧ p.1 ≠ x ∧ p.2 ≠ x := by simpa [Know.drop] using hp
    obtain ⟨h1, h2, h3⟩ := h.sure p hp'.1
    exact ⟨keep _ h1 hp'.2.1, keep _ h2 hp'.2.2, h3⟩

theorem Rel.grow (h : Rel k s base) (hx : x ∈ k.own) {i : Item} (hi : s.vars x = some i) (n : Nat) :
    Rel k ((s.more n).set x (some { i with more := (List.range n).map (s.next + ·) ++ i.more })) base := by
  generalize hl : (List.range n).map (s.next + ·) = l
  have hlive : ((s.more n).set x (some { i with more := l ++ i.more })).live = (l : Multiset Nat) + s.live := by
    rw [← hl]; rfl
  generalize hs' : (s.more n).set x (some { i with more := l ++ i.more }) = s' at hlive ⊢
  have hv : ∀ y, s'.vars y = if y = x then some { i with more := l ++ i.more } else s.vars y := by
    intro y; rw [← hs']; rfl
  have hok : s'.ok = s.ok := by rw [← hs']; rfl
  have fine : ∀ p, Fine s p → Fine s' p := by
    rintro p ⟨j, j1, j2, j3⟩
    have more : ∀ d, j.data = some d → ∃ q, s'.vars p.2 = some q ∧ d ∈ q.blocks := by
      intro d hd
      obtain ⟨q, q1, q2⟩ := j3 d hd
      rw [hv]
      by_cases hp : p.2 = x
      · rw [if_pos hp]
        rw [hp, hi] at q1
        obtain rfl := Option.some.inj q1
        refine ⟨_, rfl, ?_⟩
        simp only [Item.blocks, Multiset.mem_coe, List.mem_cons, List.mem_append] at q2 ⊢
        rcases q2 with q2 | q2
        · exact Or.inl q2
        · exact Or.inr (Or.inr q2)
      · rw [if_neg hp]
        exact ⟨q, q1, q2⟩
    unfold Fine
    rw [hv p.1]
    by_cases hp : p.1 = x
    · rw [if_pos hp]
      rw [hp, hi] at j1
      obtain rfl := Option.some.inj j1
      exact ⟨_, rfl, j2, more⟩
    · rw [if_neg hp]
      exact ⟨j, j1, j2, more⟩
  refine ⟨h.nodup, ?_, ?_, fun p hp => ?_, fun p hp => ?_⟩
  · have hp := ((List.perm_cons_erase hx).map fun y => held (s.vars y)).sum_eq
    have hp' := ((List.perm_cons_erase hx).map fun y => held (s'.vars y)).sum_eq
    rw [List.map_cons, List.sum_cons] at hp hp'
    rw [hlive, h.live, hp, hp', map_other (l := k.own.erase x) (v := s.vars) (v' := s'.vars), hi, hv x, if_pos rfl]
    · show (l : Multiset Nat) + (base + (((i.desc :: i.more : List Nat) : Multiset Nat) + _)) =
        base + (((i.desc :: (l ++ i.more) : List Nat) : Multiset Nat) + _)
      rw [← Multiset.cons_coe, ← Multiset.cons_coe, ← Multiset.coe_add, ← Multiset.singleton_add, ← Multiset.singleton_add]
      ac_rfl
    · intro y hy
      rw [hv, if_neg]
      rintro rfl
      exact absurd hy (List.Nodup.not_mem_erase h.nodup)
  · intro y hy
    obtain ⟨h1, h2⟩ := h.here y hy
    refine ⟨h1, ?_⟩
    rw [hv]
    split
    · simp
    · exact h2
  · obtain ⟨h1, h2, h3⟩ := h.solid p hp
    exact ⟨h1, h2, fun e => fine p (h3 (hok ▸ e))⟩
  · obtain ⟨h1, h2, h3⟩ := h.sure p hp
    exact ⟨h1, h2, fine p h3⟩

/-! ## Executions -/

/-- An error stays. -/
theorem Exec.error {p : Prog} {e : Exit} (h : Exec p s e t) (hs : s.ok = false) : t.ok = false := by
  induction h with
  | make ho => rw [ho] at hs; cases hs
  | makeEmpty ho => rw [ho] at hs; cases hs
  | fft ho _ => rw [ho] at hs; cases hs
  | @grow x s n ok i ho _ _ =>
    cases ok
    · rfl
    · rw [ho rfl] at hs; cases hs
  | @tower x s n ok ho =>
    cases ok
    · rfl
    · rw [ho rfl] at hs; cases hs
  | call ho _ => rw [ho] at hs; cases hs
  | seq _ _ i1 i2 => exact i2 (i1 hs)
  | loopStep _ _ i1 i2 => exact i2 (i1 hs)
  | cut _ _ i => exact i hs
  | left _ i => exact i hs
  | right _ i => exact i hs
  | loopBreak _ i => exact i hs
  | loopExit _ _ _ i => exact i hs
  | ifErr _ _ i => exact i hs
  | ifOk _ _ i => exact i hs
  | fnNext _ i => exact i hs
  | fnRet _ i => exact i hs
  | fnExit _ _ _ i => exact i hs
  | makeFail _ => rfl
  | fftRefused _ _ => rfl
  | pswfFault => rfl
  | towerRefused => rfl
  | towerFault => rfl
  | _ => exact hs

theorem chain_spec {f : Know → Option (List (Exit × Know))} {l out : List (Exit × Know)} (h : chain f l = some out) :
    ∀ r ∈ l, (r.1 = .next → ∃ l', f r.2 = some l' ∧ ∀ q ∈ l', q ∈ out) ∧ (r.1 ≠ .next → r ∈ out) := by
  induction l generalizing out with
  | nil => simp
  | cons a l ih =>
    simp only [chain, Option.bind_eq_some_iff] at h
    obtain ⟨o, h1, h2⟩ := h
    have key : (∀ q ∈ o, q ∈ out) ∧ ((a.1 = .next → ∃ l', f a.2 = some l' ∧ ∀ q ∈ l', q ∈ out) ∧ (a.1 ≠ .next → a ∈ out)) := by
      split at h2
      · next ha =>
        simp only [Option.map_eq_some_iff] at h2
        obtain ⟨l', h3, rfl⟩ := h2
        exact ⟨fun q hq => List.mem_append_right _ hq, fun _ => ⟨l', h3, fun q hq => List.mem_append_left _ hq⟩,
          fun hn => absurd ha hn⟩
      · next ha =>
        rw [← Option.some.inj h2]
        exact ⟨fun q hq => List.mem_cons_of_mem _ hq, fun h => absurd h ha, fun _ => List.mem_cons_self⟩
    intro r hr
    rcases List.mem_cons.1 hr with rfl | hr
    · exact key.2
    · obtain ⟨i1, i2⟩ := ih h1 r hr
      exact ⟨fun h => by
        obtain ⟨l', j1, j2⟩ := i1 h
        exact ⟨l', j1, fun q hq => key.1 q (j2 q hq)⟩, fun h => key.1 r (i2 h)⟩

/-- What the analysis promises for an end. -/
def Ends (m : Mode) (l : List (Exit × Know)) (base : Multiset Nat) (e : Exit) (t : St) : Prop :=
  (e = .fault → m ≠ .safe ∧ t.ok = false) ∧
  (e = .crash → t.ok = false) ∧
  (e ≠ .fault → e ≠ .crash → (∃ k, (e, k) ∈ l ∧ Rel k t base) ∨ (m = .lax ∧ t.ok = false))

theorem Ends.one {m : Mode} {e : Exit} (he : e ≠ .fault ∧ e ≠ .crash) (h : Rel k t base) {l : List (Exit × Know)} (hl : (e, k) ∈ l) :
    Ends m l base e t := ⟨fun h => absurd h he.1, fun h => absurd h he.2, fun _ _ => Or.inl ⟨k, hl, h⟩⟩

theorem Ends.err {e : Exit} (he : t.ok = false) {l : List (Exit × Know)} : Ends .lax l base e t :=
  ⟨fun _ => ⟨by decide, he⟩, fun _ => he, fun _ _ => Or.inr ⟨rfl, he⟩⟩

theorem Ends.mono {m : Mode} {e : Exit} {l l' : List (Exit × Know)} (h : Ends m l base e t)
    (hl : ∀ k, (e, k) ∈ l → (e, k) ∈ l') : Ends m l' base e t :=
  ⟨h.1, h.2.1, fun he hc => (h.2.2 he hc).imp (fun ⟨k, h1, h2⟩ => ⟨k, hl k h1, h2⟩) id⟩

theorem sound (m : Mode) {p : Prog} {e : Exit} (hp : Exec p s e t) : ∀ {k : Know} {l : List (Exit × Know)},
    check m p k = some l → Rel k s base → Ends m l base e t := by
  induction hp with
  | nop =>
    intro k l hc hr
    obtain rfl := Option.some.inj hc
    exact .one (by decide) hr (by simp)
  | @seq a b s s' e t h1 h2 i1 i2 =>
    intro k l hc hr
    simp only [check, Option.bind_eq_some_iff] at hc
    obtain ⟨l1, c1, c2⟩ := hc
    rcases (i1 c1 hr).2.2 (by decide) (by decide) with ⟨k', k1, k2⟩ | ⟨rfl, hb⟩
    · obtain ⟨l2, j1, j2⟩ := (chain_spec c2 _ k1).1 rfl
      exact (i2 j1 k2).mono fun q hq => j2 _ hq
    · exact .err (h2.error hb)
  | @cut a b s e t he h1 i1 =>
    intro k l hc hr
    simp only [check, Option.bind_eq_some_iff] at hc
    obtain ⟨l1, c1, c2⟩ := hc
    exact (i1 c1 hr).mono fun q hq => (chain_spec c2 _ hq).2 he
  | null =>
    intro k l hc hr
    simp only [check] at hc
    split at hc
    · cases hc
    next hx =>
    obtain rfl := Option.some.inj hc
    exact .one (by decide) (hr.null hx) (by simp)
  | @makeErr x s ho =>
    intro k l hc hr
    simp only [check] at hc
    split at hc
    · cases hc
    next hx =>
    obtain rfl := Option.some.inj hc
    exact .one (by decide) (hr.put (ok := s.ok) hx id (Or.inl rfl) fun h => by rw [ho] at h; cases h) (by simp)
  | @make x s ho =>
    intro k l hc hr
    simp only [check] at hc
    split at hc
    · cases hc
    next hx =>
    obtain rfl := Option.some.inj hc
    refine .one (by decide) (hr.put (ok := s.ok) hx id (Or.inl rfl) fun _ => ⟨rfl, fun d hd => ⟨_, set_self, ?_⟩⟩) (by simp)
    obtain rfl := Option.some.inj hd
    simp [Item.blocks, St.fresh]
  | @makeEmpty x s ho =>
    intro k l hc hr
    simp only [check] at hc
    split at hc
    · cases hc
    next hx =>
    obtain rfl := Option.some.inj hc
    exact .one (by decide) (hr.put (ok := s.ok) hx id (Or.inl rfl) fun _ => ⟨rfl, fun d hd => by cases hd⟩) (by simp)
  | @makeFail x s ho =>
    intro k l hc hr
    simp only [check] at hc
    split at hc
    · cases hc
    next hx =>
    obtain rfl := Option.some.inj hc
    exact .one (by decide) (hr.put (ok := false) hx (fun h => by cases h) (Or.inl rfl) fun h => by cases h) (by simp)
  | @slice x y s i hy hd =>
    intro k l hc hr
    simp only [check] at hc
    split at hc
    · cases hc
    next hx =>
    rw [not_or, not_not] at hx
    split at hc
    · next p hp =>
      obtain rfl := Option.some.inj hc
      have hps := List.mem_of_find?_eq_some hp
      have hpy : p.1 = y := by simpa using List.find?_some hp
      obtain ⟨s1, s2, s3⟩ := hr.solid p hps
      refine .one (by decide) (hr.put (ok := s.ok) hx.1 id (Or.inr s2) fun h => ?_) (by simp)
      obtain ⟨j, j1, j2, j3⟩ := s3 h
      rw [hpy, hy] at j1
      obtain rfl := Option.some.inj j1
      refine ⟨j2, fun d hd => ?_⟩
      obtain ⟨q, q1, q2⟩ := j3 d hd
      refine ⟨q, ?_, q2⟩
      rw [← q1]
      exact set_other fun e => hx.1 (e ▸ s2)
    · cases hc
  | @sliceNull x y s hy =>
    intro k l hc hr
    simp only [check] at hc
    split at hc
    · cases hc
    next hx =>
    rw [not_or, not_not] at hx
    exact absurd hy (hr.here y hx.2).2
  | @sliceGone x y s i hy hd =>
    intro k l hc hr
    simp only [check] at hc
    split at hc
    · cases hc
    next hx =>
    rw [not_or, not_not] at hx
    exact absurd (Multiset.mem_of_le (hr.le_live (hr.here y hx.2).1 hy) (by simp [Item.blocks])) hd
  | @wrap x s =>
    intro k l hc hr
    simp only [check] at hc
    split at hc
    · cases hc
    next hx =>
    obtain rfl := Option.some.inj hc
    exact .one (by decide) (hr.put (ok := s.ok) hx id (Or.inl rfl) fun _ => ⟨rfl, fun d hd => by cases hd⟩) (by simp)
  | @fftErr x l s ho =>
    intro k l hc hr
    simp only [check] at hc
    split at hc
    · cases hc
    next hx =>
    rw [not_or] at hx
    obtain rfl := Option.some.inj hc
    have h := hr.nothing hx.1
    rw [← ho] at h
    exact .one (by decide) h (by simp)
  | fftRefused ho hl =>
    intro k l hc hr
    simp only [check] at hc
    split at hc
    · cases hc
    next hx =>
    rw [not_or] at hx
    obtain rfl := Option.some.inj hc
    exact .one (by decide) (hr.nothing hx.1) (by simp)
  | @fft x l s n ok ho hl =>
    intro k l hc hr
    simp only [check] at hc
    split at hc
    · cases hc
    next hx =>
    rw [not_or] at hx
    obtain rfl := Option.some.inj hc
    exact .one (by decide) ((hr.put (ok := ok) hx.1 (fun _ => ho) (Or.inl rfl) fun h => ⟨h, fun d hd => by cases hd⟩).weaken
      (try_le k x)) (by simp)
  | @fftFault x l s ho hl =>
    intro k l hc hr
    simp only [check] at hc
    split at hc
    · cases hc
    next hx =>
    rw [not_or, Bool.not_eq_false] at hx
    obtain ⟨y, y1, y2⟩ := hl
    exact absurd (hr.reach_solid hx.2 ho y y1) y2
  | @pswf x s =>
    intro k l hc hr
    simp only [check] at hc
    split at hc
    · cases hc
    next hx =>
    obtain rfl := Option.some.inj hc
    exact .one (by decide) (hr.put (ok := s.ok) hx id (Or.inl rfl) fun _ => ⟨rfl, fun d hd => by cases hd⟩) (by simp)
  | pswfFault =>
    intro k l hc hr
    exact ⟨(fun h => by cases h), (fun _ => rfl), (fun _ h => absurd rfl h)⟩
  | @grow x s n ok i ho hi hd =>
    intro k l hc hr
    simp only [check] at hc
    split at hc
    · next hx =>
      obtain rfl := Option.some.inj hc
      exact .one (by decide) ((hr.grow (hr.here x hx).1 hi n).err ho) (by simp)
    · cases hc
  | @growNull x s hi =>
    intro k l hc hr
    simp only [check] at hc
    split at hc
    · next hx => exact absurd hi (hr.here x hx).2
    · cases hc
  | @growGone x s i hi hd =>
    intro k l hc hr
    simp only [check] at hc
    split at hc
    · next hx => exact absurd (Multiset.mem_of_le (hr.le_live (hr.here x hx).1 hi) (by simp [Item.blocks])) hd
    · cases hc
  | towerRefused =>
    intro k l hc hr
    simp only [check] at hc
    split at hc
    · cases hc
    next hx =>
    obtain rfl := Option.some.inj hc
    exact .one (by decide) (hr.nothing hx) (by simp)
  | @tower x s n ok ho =>
    intro k l hc hr
    simp only [check] at hc
    split at hc
    · cases hc
    next hx =>
    obtain rfl := Option.some.inj hc
    exact .one (by decide) ((hr.put (ok := ok) hx ho (Or.inl rfl) fun h => ⟨h, fun d hd => by cases hd⟩).weaken
      (try_le k x)) (by simp)
  | towerFault =>
    intro k l hc hr
    exact ⟨(fun h => by cases h), (fun _ => rfl), (fun _ h => absurd rfl h)⟩
  | callErr ho =>
    intro k l hc hr
    simp only [check] at hc
    split at hc
    · obtain rfl := Option.some.inj hc
      exact .one (by decide) hr (by simp)
    · cases hc
  | @call xs s ok ho hl =>
    intro k l hc hr
    simp only [check] at hc
    split at hc
    · obtain rfl := Option.some.inj hc
      exact .one (by decide) (hr.err fun _ => ho) (by simp)
    · cases hc
  | callFault ho hl =>
    intro k l hc hr
    simp only [check] at hc
    split at hc
    · next hx =>
      obtain ⟨y, y1, y2⟩ := hl
      exact absurd (hr.reach_solid hx ho y y1) y2
    · cases hc
  | @touch xs s hl =>
    intro k l hc hr
    simp only [check] at hc
    by_cases hx : within (if m = .safe then k.sure else k.solid) xs = true
    · rw [if_pos hx] at hc
      obtain rfl := Option.some.inj hc
      exact .one (by decide) hr (by simp)
    · rw [if_neg hx] at hc
      cases hc
  | @touchFault xs s hl =>
    intro k l hc hr
    simp only [check] at hc
    by_cases hx : within (if m = .safe then k.sure else k.solid) xs = true
    · obtain ⟨y, y1, y2⟩ := hl
      refine ⟨fun _ => ?_, (fun h => by cases h), (fun h => absurd rfl h)⟩
      by_cases hm : m = .safe
      · rw [if_pos hm] at hx
        exact absurd (hr.reach_sure hx y y1) y2
      · rw [if_neg hm] at hx
        refine ⟨hm, ?_⟩
        by_contra hn
        exact y2 (hr.reach_solid hx (by simpa using hn) y y1)
    · rw [if_neg hx] at hc
      cases hc
  | @freeNull x s hx =>
    intro k l hc hr
    simp only [check] at hc
    split at hc
    · next h =>
      obtain rfl := Option.some.inj hc
      have := (hr.free h hx).2
      rw [show s.live - held none = s.live by simp [held]] at this
      exact .one (by decide) this (by simp)
    · cases hc
  | @free x s i hx hl =>
    intro k l hc hr
    simp only [check] at hc
    split at hc
    · next h =>
      obtain rfl := Option.some.inj hc
      exact .one (by decide) (hr.free h hx).2 (by simp)
    · cases hc
  | @freeFault x s i hx hl =>
    intro k l hc hr
    simp only [check] at hc
    split at hc
    · next h => exact absurd (hr.free h hx).1 hl
    · cases hc
  | left h i =>
    intro k l hc hr
    simp only [check, Option.bind_eq_some_iff, Option.map_eq_some_iff] at hc
    obtain ⟨l1, c1, l2, c2, rfl⟩ := hc
    exact (i c1 hr).mono fun q hq => List.mem_append_left _ hq
  | right h i =>
    intro k l hc hr
    simp only [check, Option.bind_eq_some_iff, Option.map_eq_some_iff] at hc
    obtain ⟨l1, c1, l2, c2, rfl⟩ := hc
    exact (i c2 hr).mono fun q hq => List.mem_append_right _ hq
  | loopEnd =>
    intro k l hc hr
    simp only [check, Option.bind_eq_some_iff] at hc
    obtain ⟨l1, c1, c2⟩ := hc
    split at c2
    · obtain rfl := Option.some.inj c2
      exact .one (by decide) hr (by simp)
    · cases c2
  | @loopStep a s s' e t h1 h2 i1 i2 =>
    intro k l hc hr
    have hc' := hc
    simp only [check, Option.bind_eq_some_iff] at hc
    obtain ⟨l1, c1, c2⟩ := hc
    split at c2
    · next ha =>
      rw [List.all_eq_true] at ha
      rcases (i1 c1 hr).2.2 (by decide) (by decide) with ⟨k', k1, k2⟩ | ⟨rfl, hb⟩
      · exact i2 hc' (k2.weaken (of_decide_eq_true (ha _ k1) (Or.inl rfl)))
      · exact .err (h2.error hb)
    · cases c2
  | loopBreak h i =>
    intro k l hc hr
    simp only [check, Option.bind_eq_some_iff] at hc
    obtain ⟨l1, c1, c2⟩ := hc
    split at c2
    · next ha =>
      rw [List.all_eq_true] at ha
      obtain rfl := Option.some.inj c2
      rcases (i c1 hr).2.2 (by decide) (by decide) with ⟨k', k1, k2⟩ | ⟨rfl, hb⟩
      · exact .one (by decide) (k2.weaken (of_decide_eq_true (ha _ k1) (Or.inr rfl))) (by simp)
      · exact .err hb
    · cases c2
  | loopExit n1 n2 h i =>
    intro k l hc hr
    simp only [check, Option.bind_eq_some_iff] at hc
    obtain ⟨l1, c1, c2⟩ := hc
    split at c2
    · obtain rfl := Option.some.inj c2
      exact (i c1 hr).mono fun q hq => List.mem_cons_of_mem _ (List.mem_filter.2 ⟨hq, by simpa using ⟨n1, n2⟩⟩)
    · cases c2
  | @ifErr a s e t ho h i =>
    intro k l hc hr
    simp only [check] at hc
    split at hc
    · next hm => subst hm; exact .err (h.error ho)
    · simp only [Option.map_eq_some_iff] at hc
      obtain ⟨l1, c1, rfl⟩ := hc
      exact (i c1 hr).mono fun q hq => List.mem_cons_of_mem _ hq
  | @ifErrNot a s ho =>
    intro k l hc hr
    have : (Exit.next, k.good) ∈ l := by
      simp only [check] at hc
      split at hc
      · obtain rfl := Option.some.inj hc
        simp
      · simp only [Option.map_eq_some_iff] at hc
        obtain ⟨l1, c1, rfl⟩ := hc
        simp
    exact .one (by decide) (hr.good ho) this
  | ifOk ho h i =>
    intro k l hc hr
    simp only [check, Option.map_eq_some_iff] at hc
    obtain ⟨l1, c1, rfl⟩ := hc
    exact (i c1 (hr.good ho)).mono fun q hq => List.mem_cons_of_mem _ hq
  | ifOkNot ho =>
    intro k l hc hr
    simp only [check, Option.map_eq_some_iff] at hc
    obtain ⟨l1, c1, rfl⟩ := hc
    exact .one (by decide) hr (by simp)
  | ret =>
    intro k l hc hr
    obtain rfl := Option.some.inj hc
    exact .one (by decide) hr (by simp)
  | brk =>
    intro k l hc hr
    obtain rfl := Option.some.inj hc
    exact .one (by decide) hr (by simp)
  | halt =>
    intro k l hc hr
    obtain rfl := Option.some.inj hc
    exact .one (by decide) hr (by simp)
  | fnNext h i =>
    intro k l hc hr
    simp only [check, Option.bind_eq_some_iff] at hc
    obtain ⟨l1, c1, c2⟩ := hc
    split at c2
    · next ha =>
      rw [List.all_eq_true] at ha
      obtain rfl := Option.some.inj c2
      rcases (i c1 hr).2.2 (by decide) (by decide) with ⟨k', k1, k2⟩ | ⟨rfl, hb⟩
      · exact .one (by decide) (k2.weaken (of_decide_eq_true (ha _ k1) (Or.inl rfl))) (by simp)
      · exact .err hb
    · cases c2
  | fnRet h i =>
    intro k l hc hr
    simp only [check, Option.bind_eq_some_iff] at hc
    obtain ⟨l1, c1, c2⟩ := hc
    split at c2
    · next ha =>
      rw [List.all_eq_true] at ha
      obtain rfl := Option.some.inj c2
      rcases (i c1 hr).2.2 (by decide) (by decide) with ⟨k', k1, k2⟩ | ⟨rfl, hb⟩
      · exact .one (by decide) (k2.weaken (of_decide_eq_true (ha _ k1) (Or.inr rfl))) (by simp)
      · exact .err hb
    · cases c2
  | fnExit n1 n2 h i =>
    intro k l hc hr
    simp only [check, Option.bind_eq_some_iff] at hc
    obtain ⟨l1, c1, c2⟩ := hc
    split at c2
    · obtain rfl := Option.some.inj c2
      exact (i c1 hr).mono fun q hq => List.mem_cons_of_mem _ (List.mem_filter.2 ⟨hq, by simpa using ⟨n1, n2⟩⟩)
    · cases c2

end Sdp.Temps
