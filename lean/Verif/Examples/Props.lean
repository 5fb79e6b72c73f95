import Mathlib.Algebra.Ring.Basic
import Mathlib.Algebra.BigOperators.Intervals
import Mathlib.Algebra.BigOperators.Ring.Finset
import Mathlib.Tactic.Ring
import Mathlib.Tactic.Linarith
import Verif.Examples.Model

/-!
# C51, C52: the example functions
-/

set_option linter.unusedSectionVars false

namespace Sdp.Examples

variable {R : Type}

/-! ## C51: vector addition -/

/-- The descriptors are accepted: output writable (which includes having storage), one type for
all, one location, one length. -/
structure Accepted (a b o : Vec) : Prop where
  writable : o.desc.data.isSome ∧ o.desc.isReadOnly = false
  type : a.desc.type = o.desc.type ∧ b.desc.type = o.desc.type
  real : o.desc.type = .double ∨ o.desc.type = .float
  location : a.desc.location = .cpu ∧ b.desc.location = .cpu ∧ o.desc.location = .cpu
  length : a.desc.queryNumElements = o.desc.queryNumElements ∧
    b.desc.queryNumElements = o.desc.queryNumElements

/-- An input does not start below the output and overlap it. -/
def Clear (x o : Vec) (n : Nat) : Prop := o.base ≤ x.base ∨ x.base + n ≤ o.base

theorem addLoop_ok [Add R] (n a b o : Nat) (mem : Arr R) (ha : o ≤ a ∨ a + n ≤ o)
    (hb : o ≤ b ∨ b + n ≤ o) (sa : a + n ≤ mem.size) (sb : b + n ≤ mem.size)
    (so : o + n ≤ mem.size) :
    ∃ r, addLoop n a b o mem = some r ∧ r.size = mem.size ∧
      (∀ i, i < n → r.get (o + i) = mem.get (a + i) + mem.get (b + i)) ∧
      (∀ k, (k < o ∨ o + n ≤ k) → r.get k = mem.get k) := by
  unfold addLoop
  have key : ∀ m, m ≤ n → ∃ r, loop (fun m (i : Nat) => (m.read ((a + i : Nat) : Int)).bind fun x =>
      (m.read ((b + i : Nat) : Int)).bind fun y =>
      m.write ((o + i : Nat) : Int) (x + y)) mem (List.range m) = some r ∧ r.size = mem.size ∧
      (∀ i, i < m → r.get (o + i) = mem.get (a + i) + mem.get (b + i)) ∧
      (∀ k, (k < o ∨ o + m ≤ k) → r.get k = mem.get k) := by
    intro m
    induction m with
    | zero => intro _; exact ⟨mem, rfl, rfl, by intro i hi; omega, fun _ _ => rfl⟩
    | succ m ih =>
      intro hm
      obtain ⟨r, r1, r2, r3, r4⟩ := ih (by omega)
      rw [List.range_succ, loop_append, r1]
      simp only [Option.bind_some, loop]
      rw [Arr.read_nat, if_pos (by omega), Option.bind_some, Arr.read_nat, if_pos (by omega),
        Option.bind_some, Arr.write_nat, if_pos (by omega), r4 (a + m) (by omega),
        r4 (b + m) (by omega)]
      refine ⟨_, rfl, r2, ?_, ?_⟩
      · intro i hi
        rw [Arr.put_get]
        by_cases h : i = m
        · subst h; rw [if_pos rfl]
        · rw [if_neg (by omega)]; exact r3 i (by omega)
      · intro k hk
        rw [Arr.put_get, if_neg (by omega)]
        exact r4 k (by omega)
  exact key n le_rfl

/-- **C51.**  For accepted vectors of every length, stored anywhere (also in place, or with inputs
further up than the output): the call succeeds, every output element is the sum of the inputs'
elements before the call, and nothing else in memory changes.  Elements are consecutive. -/
theorem C51_sum_partial [Add R] (mem : Arr R) (a b o : Vec) (h : Accepted a b o) (n : Nat)
    (hn : o.desc.queryNumElements = n) (ha : Clear a o n) (hb : Clear b o n)
    (sa : a.base + n ≤ mem.size) (sb : b.base + n ≤ mem.size) (so : o.base + n ≤ mem.size) :
    ∃ r, vectorAdd mem a b o .success = some (r, .success) ∧ r.size = mem.size ∧
      (∀ i, i < n → r.get (o.base + i) = mem.get (a.base + i) + mem.get (b.base + i)) ∧
      (∀ k, (k < o.base ∨ o.base + n ≤ k) → r.get k = mem.get k) := by
  obtain ⟨r, r1, r2, r3, r4⟩ := addLoop_ok n a.base b.base o.base mem ha hb sa sb so
  refine ⟨r, ?_, r2, r3, r4⟩
  have hro : o.desc.queryReadOnly = false := by
    unfold Mem.queryReadOnly
    rw [if_neg (by simpa [Option.isNone_iff_eq_none, ← Option.isSome_iff_ne_none] using h.writable.1)]
    exact h.writable.2
  unfold vectorAdd
  rw [if_neg (by simp), hro, if_neg (by simp), if_neg (by simp [h.type]),
    if_neg (by simp [h.location]), if_neg (by simp [h.length]), h.location.2.2]
  simp only
  rw [if_pos h.real, hn, Int.toNat_natCast, r1]
  rfl

/-- **C51, errors.**  Without CUDA, for arrays in CPU or GPU memory: the call reports success only
for accepted vectors, whenever it reports an error memory is unchanged, an incoming error is
returned, and the code reported is the one of the first check that fails. -/
theorem C51_errors [Add R] (mem : Arr R) (a b o : Vec) (status : Status)
    (hloc : o.desc.location ≠ .other) :
    (status ≠ .success → vectorAdd mem a b o status = some (mem, status)) ∧
    (∀ r s, vectorAdd mem a b o status = some (r, s) → s ≠ .success → r = mem) ∧
    (∀ r, vectorAdd mem a b o status = some (r, .success) → Accepted a b o) ∧
    (status = .success → o.desc.queryReadOnly = true →
      vectorAdd mem a b o status = some (mem, .runtime)) ∧
    (status = .success → o.desc.queryReadOnly = false →
      ¬ (a.desc.type = o.desc.type ∧ b.desc.type = o.desc.type) →
      vectorAdd mem a b o status = some (mem, .dataType)) ∧
    (status = .success → o.desc.queryReadOnly = false →
      (a.desc.type = o.desc.type ∧ b.desc.type = o.desc.type) →
      ¬ (a.desc.location = o.desc.location ∧ b.desc.location = o.desc.location) →
      vectorAdd mem a b o status = some (mem, .memLocation)) ∧
    (status = .success → o.desc.queryReadOnly = false →
      (a.desc.type = o.desc.type ∧ b.desc.type = o.desc.type) →
      (a.desc.location = o.desc.location ∧ b.desc.location = o.desc.location) →
      ¬ (a.desc.queryNumElements = o.desc.queryNumElements ∧
        b.desc.queryNumElements = o.desc.queryNumElements) →
      vectorAdd mem a b o status = some (mem, .runtime)) := by
  refine ⟨?_, ?_, ?_, ?_, ?_, ?_, ?_⟩
  · intro h; unfold vectorAdd; rw [if_pos h]
  · intro r s h hs
    unfold vectorAdd at h
    cases hl : o.desc.location <;> rw [hl] at h <;> simp only at h
    · split_ifs at h with h1
      all_goals try (simp only [Option.some.injEq, Prod.mk.injEq] at h; exact h.1.symm)
      obtain ⟨m, _, hm⟩ := Option.map_eq_some_iff.1 h
      simp only [Prod.mk.injEq] at hm
      exact absurd (not_not.1 h1) (by rw [hm.2]; exact hs)
    · split_ifs at h <;> (simp only [Option.some.injEq, Prod.mk.injEq] at h; exact h.1.symm)
    · exact absurd hl hloc
  · intro r h
    unfold vectorAdd at h
    cases hl : o.desc.location <;> rw [hl] at h <;> simp only at h
    · split_ifs at h with h1 h2 h3 h4 h5 h6
      all_goals try (simp only [Option.some.injEq, Prod.mk.injEq] at h
                     exact absurd h.2 (by first | exact h1 | decide))
      push Not at h3 h4 h5
      have hw : o.desc.data.isSome ∧ o.desc.isReadOnly = false := by
        unfold Mem.queryReadOnly at h2
        cases hd : o.desc.data with
        | none => simp [hd] at h2
        | some _ => simpa [hd] using h2
      exact ⟨hw, h3, h6, ⟨h4.1, h4.2, hl⟩, h5⟩
    · split_ifs at h with h1
      all_goals try (simp only [Option.some.injEq, Prod.mk.injEq] at h
                     exact absurd h.2 (by first | exact h1 | decide))
      rw [not_not.1 h1] at h
      simp [launch] at h
    · exact absurd hl hloc
  · intro h1 h2; unfold vectorAdd; rw [if_neg (by simp [h1]), if_pos h2]
  · intro h1 h2 h3
    unfold vectorAdd
    rw [if_neg (by simp [h1]), if_neg (by simp [h2]), if_pos (by tauto)]
  · intro h1 h2 h3 h4
    unfold vectorAdd
    rw [if_neg (by simp [h1]), if_neg (by simp [h2]), if_neg (by tauto), if_pos (by tauto)]
  · intro h1 h2 h3 h4 h5
    unfold vectorAdd
    rw [if_neg (by simp [h1]), if_neg (by simp [h2]), if_neg (by tauto), if_neg (by tauto),
      if_pos (by tauto)]

/-- A double vector of `n` elements whose elements are `step` elements apart, starting at element
`base` of memory. -/
def vec (n step base : Nat) : Vec :=
  ⟨(createWrapper (some ⟨0, 8 * base⟩) .double .cpu [(n : Int)] (some [8 * (step : Int)]) .success).1, base⟩

/-- **C51 fails for strided vectors**: contiguity is not checked.  Adding the two-element vectors
at positions 0, 2 and 4, 6 into positions 8, 10 leaves position 10 unchanged and overwrites
position 9, which is not part of the output. -/
theorem C51_strided_false :
    Accepted (vec 2 2 0) (vec 2 2 4) (vec 2 2 8) ∧
    (vectorAdd ⟨12, fun k => (k : Int)⟩ (vec 2 2 0) (vec 2 2 4) (vec 2 2 8) .success).map
      (fun r => (r.1.get 10, r.1.get 9, r.2)) = some (10, 6, .success) := by
  refine ⟨⟨?_, ?_, ?_, ?_, ?_⟩, ?_⟩ <;> decide +kernel

/-- **C51 fails when an input overlaps the output from below**: adding positions 0.. to themselves
into positions 1.. reads sums already written. -/
theorem C51_overlap_false :
    Accepted (vec 2 1 0) (vec 2 1 0) (vec 2 1 1) ∧
    (vectorAdd ⟨3, fun _ => (1 : Int)⟩ (vec 2 1 0) (vec 2 1 0) (vec 2 1 1) .success).map
      (fun r => (r.1.get 1, r.1.get 2, r.2)) = some (2, 4, .success) := by
  refine ⟨⟨?_, ?_, ?_, ?_, ?_⟩, ?_⟩ <;> decide +kernel

/-- **Empty vectors are refused as read-only**, since they have no storage. -/
theorem C51_empty_false [Add R] (mem : Arr R) (a b o : Vec) (h : o.desc.data = none) :
    vectorAdd mem a b o .success = some (mem, .runtime) := by
  unfold vectorAdd Mem.queryReadOnly
  simp [h]

/-- Non-vacuity of C51: three separate vectors, and in place. -/
example : Accepted (vec 3 1 0) (vec 3 1 3) (vec 3 1 6) ∧ Clear (vec 3 1 3) (vec 3 1 6) 3 ∧
    (vec 3 1 6).desc.queryNumElements = 3 ∧
    Accepted (vec 3 1 0) (vec 3 1 3) (vec 3 1 0) ∧ Clear (vec 3 1 3) (vec 3 1 0) 3 ∧
    (vectorAdd ⟨9, fun k => (k : Int)⟩ (vec 3 1 0) (vec 3 1 3) (vec 3 1 6) .success).map
      (fun r => (r.1.get 6, r.1.get 7, r.1.get 8, r.2)) = some (3, 5, 7, .success) := by
  refine ⟨⟨?_, ?_, ?_, ?_, ?_⟩, Or.inr ?_, ?_, ⟨?_, ?_, ?_, ?_, ?_⟩, Or.inl ?_, ?_⟩ <;> decide +kernel

/-! ## C52: the example plan -/

/-- The plan as the caller sees it: `sum` over `i < f` of `c i`. -/
def expected [CommRing R] (c : R) (f : Nat) : R := c * ((f * (f - 1) / 2 : Nat) : R)

theorem sum_expected [CommRing R] (c : R) (f : Nat) :
    ∑ i ∈ Finset.range f, c * (i : R) = expected c f := by
  unfold expected
  rw [← Finset.mul_sum, ← Finset.sum_range_id, Nat.cast_sum]

theorem acc_ok [CommRing R] (w : Arr R) (g : Nat → R) (f : Nat) (h : ∀ i, i < f → w.read (i : Int) = some (g i)) :
    loop (fun acc (i : Nat) => (w.read (i : Int)).map fun x => acc + x) (0 : R) (List.range f) =
      some (∑ i ∈ Finset.range f, g i) := by
  induction f with
  | zero => rfl
  | succ f ih =>
    rw [List.range_succ, loop_append, ih fun i hi => h i (by omega)]
    simp only [Option.bind_some, loop]
    rw [h f (by omega)]
    simp [Finset.sum_range_succ]

/-- Running `m` iterations. -/
theorem execLoop_ok [CommRing R] (c : R) (w out : Arr R) (m : Nat) (hw : m ≤ w.size)
    (ho : m ≤ out.size) :
    ∃ w' o', loop (execStep c) (w, out) (List.range m) = some (w', o') ∧ w'.size = w.size ∧
      o'.size = out.size ∧ (∀ i, i < m → w'.get i = c * i) ∧ (∀ i, i < m → o'.get i = expected c i) ∧
      (∀ i, m ≤ i → o'.get i = out.get i) := by
  induction m with
  | zero => exact ⟨w, out, rfl, rfl, rfl, by intro i hi; omega, by intro i hi; omega, fun _ _ => rfl⟩
  | succ m ih =>
    obtain ⟨w', o', h1, h2, h3, h4, h5, h6⟩ := ih (by omega) (by omega)
    rw [List.range_succ, loop_append, h1]
    simp only [Option.bind_some, loop]
    unfold execStep
    rw [Arr.write_nat, if_pos (by simp only; omega), Option.bind_some,
      acc_ok _ (fun i => c * (i : R)) m, Option.bind_some, Arr.write_nat, if_pos (by simp only; omega)]
    · refine ⟨_, _, rfl, h2, h3, ?_, ?_, ?_⟩
      · intro i hi
        rw [Arr.put_get]
        by_cases h : i = m
        · subst h; rw [if_pos rfl]
        · rw [if_neg h]; exact h4 i (by omega)
      · intro i hi
        rw [Arr.put_get]
        by_cases h : i = m
        · subst h; rw [if_pos rfl, sum_expected]
        · rw [if_neg h]; exact h5 i (by omega)
      · intro i hi
        rw [Arr.put_get, if_neg (by omega)]
        exact h6 i (by omega)
    · intro i hi
      rw [Arr.read_nat, if_pos (by simp only [Arr.put_size]; omega), Arr.put_get, if_neg (by omega),
        h4 i hi]

/-- **C52 (partial).**  For every planned size `a b` and an output of exactly that size: no access
leaves the buffers and output element `f` becomes `c f (f-1) / 2`. -/
theorem C52_exec_partial [CommRing R] (a b : Int) (c : R) (p : Plan R) (d : Mem) (out : Arr R)
    (hp : createPlan a b c .success = (some p, .success))
    (ht : d.type = .float) (hl : d.location = .cpu) (hw : d.queryReadOnly = false)
    (hn : d.queryNumElements = a * b) (hs : (out.size : Int) = d.queryNumElements) :
    ∃ p' o', exec (some p) d out .success = some (some p', o', .success) ∧
      o'.size = out.size ∧ ∀ f, f < out.size → o'.get f = c * ((f * (f - 1) / 2 : Nat) : R) := by
  unfold createPlan at hp
  rw [if_neg (by simp)] at hp
  split_ifs at hp with h10
  · simp at hp
  simp only [Prod.mk.injEq, Option.some.injEq, and_true] at hp
  subst hp
  obtain ⟨w', o', h1, _, h3, _, h5, _⟩ := execLoop_ok c ⟨(a * b).toNat, fun _ => 0⟩ out out.size
    (by simp only; omega) le_rfl
  refine ⟨⟨a, b, c, w'⟩, o', ?_, h3, h5⟩
  unfold exec
  simp only
  rw [if_neg (by simp), if_neg (by simp [ht]), if_neg (by simp [hl]), if_neg (by simp [hw]),
    if_neg (by omega), ← hs, Int.toNat_natCast, h1]
  rfl

/-- **C52 fails for outputs larger than planned**: the loop runs over the output, so the work area
is written past its end, for every size. -/
theorem C52_larger_false [CommRing R] (a b : Int) (c : R) (p : Plan R) (d : Mem) (out : Arr R)
    (hp : createPlan a b c .success = (some p, .success))
    (ht : d.type = .float) (hl : d.location = .cpu) (hw : d.queryReadOnly = false)
    (hn : a * b < d.queryNumElements) (h0 : 0 < d.queryNumElements)
    (hs : (out.size : Int) = d.queryNumElements) :
    exec (some p) d out .success = none := by
  unfold createPlan at hp
  rw [if_neg (by simp)] at hp
  split_ifs at hp with h10
  · simp at hp
  simp only [Prod.mk.injEq, Option.some.injEq, and_true] at hp
  subst hp
  unfold exec
  simp only
  rw [if_neg (by simp), if_neg (by simp [ht]), if_neg (by simp [hl]), if_neg (by simp [hw]),
    if_neg (by omega)]
  obtain ⟨k, hk⟩ : ∃ k, d.queryNumElements.toNat = (a * b).toNat + 1 + k :=
    ⟨d.queryNumElements.toNat - (a * b).toNat - 1, by omega⟩
  obtain ⟨w', o', h1, h2, _⟩ := execLoop_ok c ⟨(a * b).toNat, fun _ => 0⟩ out (a * b).toNat
    le_rfl (by omega)
  have e : List.range d.queryNumElements.toNat =
      List.range (a * b).toNat ++ ((a * b).toNat :: (List.range k).map (fun j => (a * b).toNat + 1 + j)) := by
    rw [hk, List.range_add, List.range_succ]
    simp
  rw [e, loop_append, h1]
  simp only [Option.bind_some, loop]
  have : execStep c (w', o') (a * b).toNat = none := by
    unfold execStep
    rw [Arr.write_nat, if_neg (by simp only at h2; simp only; omega)]
    rfl
  rw [this]
  rfl

/-- **C52, refusals.**  `a = 10` gives no plan and an invalid-argument status; an unsuitable output
(type, location, read-only, too small) is reported with nothing written; an incoming error or a
missing plan makes the call do nothing. -/
theorem C52_refused [CommRing R] (b : Int) (c : R) (p : Plan R) (d : Mem) (out : Arr R)
    (status : Status) :
    (createPlan 10 b c .success = (none, .invalidArgument)) ∧
    (∀ a, status ≠ .success → createPlan a b c status = (none, status)) ∧
    (exec (none : Option (Plan R)) d out status = some (none, out, status)) ∧
    (status ≠ .success → exec (some p) d out status = some (some p, out, status)) ∧
    (d.type ≠ .float → exec (some p) d out .success = some (some p, out, .dataType)) ∧
    (d.type = .float → d.location ≠ .cpu →
      exec (some p) d out .success = some (some p, out, .memLocation)) ∧
    (d.type = .float → d.location = .cpu →
      (d.queryReadOnly = true ∨ d.queryNumElements < p.a * p.b) →
      exec (some p) d out .success = some (some p, out, .runtime)) := by
  refine ⟨rfl, ?_, rfl, ?_, ?_, ?_, ?_⟩
  · intro a h; unfold createPlan; rw [if_pos h]
  · intro h; unfold exec; simp only; rw [if_pos h]
  · intro h; unfold exec; simp only; rw [if_neg (by simp), if_pos h]
  · intro h1 h; unfold exec; simp only; rw [if_neg (by simp), if_neg (by simp [h1]), if_pos h]
  · intro h1 h2 h
    unfold exec
    simp only
    rw [if_neg (by simp), if_neg (by simp [h1]), if_neg (by simp [h2])]
    by_cases hr : d.queryReadOnly = true
    · rw [if_pos hr]
    · rw [if_neg hr, if_pos (by tauto)]

/-- **C52, creation.**  A plan is made exactly when the status is clear and `a` is not 10; it carries
the arguments and a cleared work area of `a b` elements. -/
theorem C52_create [CommRing R] (a b : Int) (c : R) (status : Status) :
    ((createPlan a b c status).1.isSome ↔ status = .success ∧ a ≠ 10) ∧
    (∀ p, (createPlan a b c status).1 = some p → (createPlan a b c status).2 = .success ∧
      p.a = a ∧ p.b = b ∧ p.c = c ∧ p.workarea.size = (a * b).toNat ∧ ∀ i, p.workarea.get i = 0) := by
  unfold createPlan
  constructor
  · split_ifs with h1 h2 <;> simp_all
  · intro p hp
    split_ifs at hp ⊢ with h1 h2
    all_goals simp_all
    subst hp
    simp

/-- Non-vacuity of C52: a 2 x 3 plan and an output of six floats. -/
example : ∃ p : Plan Int, createPlan 2 3 5 .success = (some p, .success) ∧
    (exec (some p) (createWrapper (some ⟨0, 0⟩) .float .cpu [6] none .success).1 ⟨6, fun _ => 0⟩
      .success).map (fun r => (List.range 6).map r.2.1.get) = some [0, 0, 5, 15, 30, 50] :=
  ⟨_, rfl, by decide +kernel⟩

end Sdp.Examples
