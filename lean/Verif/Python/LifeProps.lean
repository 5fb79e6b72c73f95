import Verif.Python.Life

/-!
# C105, lifetimes: proofs
-/

namespace Verif.Python.Life

/-- What every reachable state satisfies. -/
structure Ok (s : St) : Prop where
  nodup : s.gone.Nodup
  old : ∀ x ∈ s.gone, x < s.kinds.length
  idle : s.over = false → ∀ x ∈ s.gone, s.refs x = 0
  bound : ∀ x, s.kinds.length ≤ x → s.refs x = 0

theorem add_ok {s : St} (h : Ok s) (k : Kind) (n : Nat) : Ok (s.add k n) where
  nodup := h.nodup
  old := fun x hx => by
    have := h.old x hx
    simp only [St.add, List.length_append, List.length_singleton]; omega
  idle := fun ho x hx => by
    have := h.old x hx
    simp only [St.add]
    rw [Function.update_of_ne (by omega)]
    exact h.idle ho x hx
  bound := fun x hx => by
    simp only [St.add, List.length_append, List.length_singleton] at hx ⊢
    rw [Function.update_of_ne (by omega)]
    exact h.bound x (by omega)

theorem temps_ok (l : List Nat) : ∀ {s : St}, Ok s → Ok (s.temps l) := by
  unfold St.temps
  induction l with
  | nil => exact fun h => h
  | cons a l ih => exact fun h => ih (add_ok h _ _)

theorem exit_gone {s : St} (h : Ok s) :
    (((List.range s.kinds.length).filter fun x =>
        decide (x ∉ s.gone ∧ s.kinds[x]? ≠ some .array)) ++ s.gone).Nodup := by
  refine List.Nodup.append (List.nodup_range.filter _) h.nodup ?_
  intro x hx hx'
  have := (List.mem_filter.1 hx).2
  simp only [decide_eq_true_eq] at this
  exact this.1 hx'

theorem step_ok {s s' : St} {e : Event} (h : Ok s) (hs : step s e = some s') : Ok s' := by
  unfold step at hs
  by_cases ho : s.over = true
  · rw [if_pos ho] at hs; cases hs; exact h
  rw [if_neg ho] at hs
  have ho' : s.over = false := by simpa using ho
  cases e with
  | newArray => cases hs; exact add_ok h _ _
  | wrap a =>
    simp only at hs
    split_ifs at hs <;> (cases hs; first | exact add_ok h _ _ | exact h)
  | create arrays r =>
    simp only at hs
    split_ifs at hs with h1 h2
    · have ht := temps_ok arrays h
      cases r with
      | ok => cases hs; exact add_ok ht _ _
      | null => cases hs; exact ht
      | failed => cases hs; exact ⟨ht.nodup, ht.old, ht.idle, ht.bound⟩
    · cases hs; exact h
  | use ws arrays =>
    simp only at hs
    split_ifs at hs with h1 h2
    · cases hs; exact temps_ok arrays h
    · cases hs; exact h
  | hold x =>
    simp only at hs
    split_ifs at hs with h1
    · cases hs
      refine ⟨h.nodup, h.old, fun _ y hy => ?_, fun y hy => ?_⟩
      · have : y ≠ x := by
          rintro rfl; exact absurd (h.idle ho' y hy) (by have := h1.2; omega)
        simp only [Function.update_of_ne this]; exact h.idle ho' y hy
      · have : y ≠ x := by rintro rfl; exact absurd h1.1 (by simpa using hy)
        simp only [Function.update_of_ne this]; exact h.bound y hy
    · cases hs; exact h
  | drop x =>
    simp only at hs
    split_ifs at hs with h1
    · cases hs
      refine ⟨h.nodup, h.old, fun _ y hy => ?_, fun y hy => ?_⟩
      · have : y ≠ x := by
          rintro rfl; exact absurd (h.idle ho' y hy) (by have := h1.2; omega)
        simp only [Function.update_of_ne this]; exact h.idle ho' y hy
      · have : y ≠ x := by rintro rfl; exact absurd h1.1 (by simpa using hy)
        simp only [Function.update_of_ne this]; exact h.bound y hy
    · cases hs; exact h
  | collect x =>
    simp only at hs
    split_ifs at hs with h1
    · cases hs
      refine ⟨List.nodup_cons.2 ⟨h1.2.2, h.nodup⟩, fun y hy => ?_, fun _ y hy => ?_, h.bound⟩
      · rcases List.mem_cons.1 hy with rfl | hy
        · exact h1.1
        · exact h.old y hy
      · rcases List.mem_cons.1 hy with rfl | hy
        · exact h1.2.1
        · exact h.idle ho' y hy
    · cases hs; exact h
  | exit =>
    cases hs
    refine ⟨exit_gone h, fun y hy => ?_, (fun h' => by cases h'), h.bound⟩
    rcases List.mem_append.1 hy with hy | hy
    · exact List.mem_range.1 (List.mem_filter.1 hy).1
    · exact h.old y hy

theorem start_ok : Ok start := ⟨List.nodup_nil, by simp [start], by simp [start], by simp [start]⟩

theorem run_ok (es : List Event) : ∀ {s s' : St}, Ok s → run s es = some s' → Ok s' := by
  induction es with
  | nil => intro s s' h hs; cases hs; exact h
  | cons e es ih =>
    intro s s' h hs
    simp only [run, Option.bind_eq_some_iff] at hs
    obtain ⟨s1, h1, h2⟩ := hs
    exact ih (step_ok h h1) h2

theorem run_append (es es' : List Event) : ∀ s, run s (es ++ es') = (run s es).bind (run · es') := by
  induction es with
  | nil => intro s; rfl
  | cons e es ih =>
    intro s
    simp only [List.cons_append, run]
    cases step s e with
    | none => rfl
    | some s1 => simpa using ih s1

/-- **C105, freed once.** In every program, at every moment, no C structure and no array buffer
has been freed twice, and as long as the interpreter runs nothing the program still refers to has
been freed. -/
theorem C105_freed_once (es : List Event) (s : St) (h : run start es = some s) :
    s.gone.Nodup ∧ (s.over = false → ∀ x, s.held x → x ∉ s.gone) := by
  have hk := run_ok es start_ok h
  refine ⟨hk.nodup, fun ho x hx hg => ?_⟩
  have := hk.idle ho x hg
  have := hx.2
  omega

/-- **C105, freed in the end.** When the interpreter exits, every C structure a Python object
stands for has been freed, exactly once; when the collector takes an object that the program has
forgotten, its C structure is freed. -/
theorem C105_freed (es : List Event) (s : St) (h : run start es = some s) :
    (s.over = true → ∀ x, IsWrapper s x → s.gone.count x = 1) ∧
    (s.over = false → ∀ x, IsWrapper s x → s.refs x = 0 →
      ∃ s', step s (.collect x) = some s' ∧ x ∈ s'.gone) := by
  have hk := run_ok es start_ok h
  refine ⟨fun ho x hx => ?_, fun ho x hx hr => ?_⟩
  · have key : ∀ (es : List Event) (s s' : St), (s.over = true → ∀ x, IsWrapper s x → x ∈ s.gone) →
        run s es = some s' → s'.over = true → ∀ x, IsWrapper s' x → x ∈ s'.gone := by
      intro es
      induction es with
      | nil => intro s s' h0 hs ho; cases hs; exact h0 ho
      | cons e es ih =>
        intro s s' h0 hs
        simp only [run, Option.bind_eq_some_iff] at hs
        obtain ⟨s1, h1, h2⟩ := hs
        refine ih s1 s' (fun ho1 => ?_) h2
        unfold step at h1
        by_cases ho : s.over = true
        · rw [if_pos ho] at h1; cases h1; exact h0 ho
        rw [if_neg ho] at h1
        have tover : ∀ (l : List Nat) (s : St), (s.temps l).over = s.over := by
          intro l
          unfold St.temps
          induction l with
          | nil => intro s; rfl
          | cons a l ih => intro s; rw [List.foldl_cons, ih]; rfl
        cases e with
        | newArray => cases h1; exact absurd ho1 ho
        | wrap a =>
          simp only at h1
          split_ifs at h1 <;> (cases h1; exact absurd ho1 ho)
        | create arrays r =>
          simp only at h1
          split_ifs at h1
          · cases r <;> cases h1
            · exact absurd ho1 (by simpa [St.add, tover] using ho)
            · exact absurd ho1 (by simpa [tover] using ho)
            · exact absurd ho1 (by simpa [tover] using ho)
          · cases h1; exact absurd ho1 ho
        | use ws arrays =>
          simp only at h1
          split_ifs at h1
          · cases h1; exact absurd ho1 (by simpa [tover] using ho)
          · cases h1; exact absurd ho1 ho
        | hold x =>
          simp only at h1
          split_ifs at h1 <;> (cases h1; exact absurd ho1 ho)
        | drop x =>
          simp only at h1
          split_ifs at h1 <;> (cases h1; exact absurd ho1 ho)
        | collect x =>
          simp only at h1
          split_ifs at h1 <;> (cases h1; exact absurd ho1 ho)
        | exit =>
          cases h1
          intro x hx
          obtain ⟨k, hk1, hk2⟩ := hx
          by_cases hg : x ∈ s.gone
          · exact List.mem_append_right _ hg
          · refine List.mem_append_left _ (List.mem_filter.2 ⟨List.mem_range.2 ?_, ?_⟩)
            · exact (List.getElem?_eq_some_iff.1 hk1).1
            · simp only [decide_eq_true_eq]
              exact ⟨hg, by rw [show s.kinds[x]? = some k from hk1]; simpa using hk2⟩
    exact List.count_eq_one_of_mem hk.nodup
      (key es start s (by simp [start]) h ho x hx)
  · obtain ⟨k, hk1, hk2⟩ := hx
    by_cases hg : x ∈ s.gone
    · refine ⟨s, ?_, hg⟩
      unfold step
      rw [if_neg (by simp [ho])]
      simp only
      rw [if_neg (by tauto)]
    · refine ⟨{ s with gone := x :: s.gone }, ?_, List.mem_cons_self ..⟩
      unfold step
      rw [if_neg (by simp [ho])]
      simp only
      rw [if_pos ⟨(List.getElem?_eq_some_iff.1 hk1).1, hr, hg⟩]

/-- The kinds of the objects of a call's temporaries. -/
theorem temps_kinds (l : List Nat) : ∀ s : St,
    (s.temps l).kinds = s.kinds ++ l.map Kind.mem ∧
    (∀ x, s.kinds.length ≤ x → x < s.kinds.length + l.length → (s.temps l).refs x = 0) ∧
    (∀ x, x < s.kinds.length → (s.temps l).refs x = s.refs x) := by
  unfold St.temps
  induction l with
  | nil => intro s; simp; intro x h1 h2; omega
  | cons a l ih =>
    intro s
    obtain ⟨h1, h2, h3⟩ := ih (s.add (.mem a) 0)
    rw [List.foldl_cons]
    refine ⟨by rw [h1]; simp [St.add], fun x hx hx' => ?_, fun x hx => ?_⟩
    · by_cases e : x = s.kinds.length
      · subst e
        rw [h3 _ (by simp [St.add])]
        simp [St.add]
      · apply h2
        · simp [St.add]; omega
        · simp [St.add] at hx' ⊢; omega
    · rw [h3 x (by simp [St.add]; omega)]
      simp [St.add, Function.update_of_ne (show x ≠ s.kinds.length by omega)]

/-- **C105, calls read live memory.** A program that never makes a `Mem` itself, and leaves that
to the bindings: no C function it calls ever reads a freed structure or a freed array, whatever
it makes, uses, forgets and in whatever order the collector works, the interpreter's exit
included. -/
theorem C105_calls_partial (es : List Event) (hes : ∀ e ∈ es, e.plain) :
    ∃ s, run start es = some s := by
  -- the program holds no `Mem`
  have key : ∀ (es : List Event) (s : St), (∀ e ∈ es, e.plain) → Ok s →
      (∀ x b, s.kinds[x]? = some (.mem b) → s.refs x = 0) → ∃ s', run s es = some s' := by
    intro es
    induction es with
    | nil => intro s _ _ _; exact ⟨s, rfl⟩
    | cons e es ih =>
      intro s hp hk hm
      have hp' : ∀ e ∈ es, e.plain := fun e he => hp e (List.mem_cons_of_mem _ he)
      have tempsm : ∀ l, ∀ x b, (s.temps l).kinds[x]? = some (.mem b) → (s.temps l).refs x = 0 := by
        intro l x b hx
        obtain ⟨h1, h2, h3⟩ := temps_kinds l s
        by_cases hlt : x < s.kinds.length
        · rw [h3 x hlt]
          rw [h1, List.getElem?_append_left hlt] at hx
          exact hm x b hx
        · refine h2 x (by omega) ?_
          have := (List.getElem?_eq_some_iff.1 hx).1
          rw [h1] at this
          simpa using this
      have addm : ∀ (t : St) (k : Kind) (n : Nat), (∀ b, k ≠ .mem b) →
          (∀ x b, t.kinds[x]? = some (.mem b) → t.refs x = 0) →
          ∀ x b, (t.add k n).kinds[x]? = some (.mem b) → (t.add k n).refs x = 0 := by
        intro t k n hkb ht x b hx
        by_cases hlt : x < t.kinds.length
        · simp only [St.add] at hx ⊢
          rw [Function.update_of_ne (by omega)]
          rw [List.getElem?_append_left hlt] at hx
          exact ht x b hx
        · simp only [St.add] at hx
          rw [List.getElem?_append_right (by omega)] at hx
          have := (List.getElem?_eq_some_iff.1 hx).1
          have e0 : x - t.kinds.length = 0 := by simpa using this
          rw [e0] at hx
          simp at hx
          exact absurd hx (hkb b)
      suffices hstep : ∃ s1, step s e = some s1 ∧
          (∀ x b, s1.kinds[x]? = some (.mem b) → s1.refs x = 0) by
        obtain ⟨s1, h1, h2⟩ := hstep
        obtain ⟨s', h3⟩ := ih s1 hp' (step_ok hk h1) h2
        exact ⟨s', by simp [run, h1, h3]⟩
      unfold step
      by_cases ho : s.over = true
      · rw [if_pos ho]; exact ⟨s, rfl, hm⟩
      rw [if_neg ho]
      have ho' : s.over = false := by simpa using ho
      have live : ∀ x, s.held x → x ∉ s.gone := fun x hx hg => by
        have := hk.idle ho' x hg; have := hx.2; omega
      cases e with
      | newArray => exact ⟨_, rfl, addm s _ _ (by simp) hm⟩
      | wrap a => exact absurd (hp (.wrap a) (List.mem_cons_self ..)) (by simp [Event.plain])
      | create arrays r =>
        simp only
        by_cases h1 : ∀ a ∈ arrays, s.held a ∧ s.kinds[a]? = some .array
        · rw [if_pos h1, if_pos fun a ha => live a (h1 a ha).1]
          cases r with
          | ok => exact ⟨_, rfl, addm _ _ _ (by simp) (tempsm arrays)⟩
          | null => exact ⟨_, rfl, tempsm arrays⟩
          | failed => exact ⟨_, rfl, tempsm arrays⟩
        · rw [if_neg h1]; exact ⟨s, rfl, hm⟩
      | use ws arrays =>
        simp only
        by_cases h1 : (∀ w ∈ ws, s.held w ∧ s.kinds[w]? ≠ some .array) ∧
            ∀ a ∈ arrays, s.held a ∧ s.kinds[a]? = some .array
        · rw [if_pos h1, if_pos]
          · exact ⟨_, rfl, tempsm arrays⟩
          · refine ⟨fun w hw => ⟨live w (h1.1 w hw).1, fun b hb => ?_⟩,
              fun a ha => live a (h1.2 a ha).1⟩
            have := hm w b hb
            have := (h1.1 w hw).1.2
            omega
        · rw [if_neg h1]; exact ⟨s, rfl, hm⟩
      | hold x =>
        simp only
        by_cases h1 : s.held x
        · rw [if_pos h1]
          refine ⟨_, rfl, fun y b hy => ?_⟩
          have : y ≠ x := by
            rintro rfl
            have := hm y b hy; have := h1.2; omega
          simp only [Function.update_of_ne this]; exact hm y b hy
        · rw [if_neg h1]; exact ⟨s, rfl, hm⟩
      | drop x =>
        simp only
        by_cases h1 : s.held x
        · rw [if_pos h1]
          refine ⟨_, rfl, fun y b hy => ?_⟩
          have : y ≠ x := by
            rintro rfl
            have := hm y b hy; have := h1.2; omega
          simp only [Function.update_of_ne this]; exact hm y b hy
        · rw [if_neg h1]; exact ⟨s, rfl, hm⟩
      | collect x =>
        simp only
        by_cases h1 : x < s.kinds.length ∧ s.refs x = 0 ∧ x ∉ s.gone
        · rw [if_pos h1]; exact ⟨_, rfl, hm⟩
        · rw [if_neg h1]; exact ⟨s, rfl, hm⟩
      | exit => exact ⟨_, rfl, hm⟩
  exact key es start hes start_ok (by simp [start])

/-- A program that makes an array and a plan from it, forgets the array, lets it be collected, and
goes on using the plan with another array. -/
example : ∃ s, run start [.newArray, .create [0] .ok, .drop 0, .collect 0, .collect 1, .newArray,
    .use [2] [3], .collect 4, .exit] = some s ∧ s.gone = [2, 4, 1, 0] ∧ s.kinds.length = 5 := by
  simp [run, step, start, St.add, St.temps, St.held, St.usable, List.range_succ, Function.update]

/-- **C105, a kept `Mem`, fails.** A `Mem` does not keep its array alive: a program that makes
one, forgets the array, and uses the `Mem` after the array was collected makes the C function read
a freed buffer. -/
theorem C105_kept_mem_false :
    ¬ ∀ es : List Event, ∃ s, run start es = some s := by
  intro h
  obtain ⟨s, hs⟩ := h [.newArray, .wrap 0, .drop 0, .collect 0, .use [1] []]
  simp [run, step, start, St.add, St.held, St.usable, Function.update] at hs

/-- **C105, failed construction, fails.** A C creation function that sets an error code and
returns a structure all the same: Python raises before it has seen the structure, and nothing the
program does later frees it. -/
theorem C105_leak_false (es : List Event) (s : St)
    (h : run start ([.newArray, .create [0] .failed] ++ es) = some s) : 1 ≤ s.lost := by
  have mono : ∀ (es : List Event) (s s' : St), run s es = some s' → s.lost ≤ s'.lost := by
    intro es
    induction es with
    | nil => intro s s' h; cases h; exact Nat.le_refl _
    | cons e es ih =>
      intro s s' hs
      simp only [run, Option.bind_eq_some_iff] at hs
      obtain ⟨s1, h1, h2⟩ := hs
      refine Nat.le_trans ?_ (ih s1 s' h2)
      have tlost : ∀ (l : List Nat) (s : St), (s.temps l).lost = s.lost := by
        intro l
        unfold St.temps
        induction l with
        | nil => intro s; rfl
        | cons a l ih => intro s; rw [List.foldl_cons, ih]; rfl
      unfold step at h1
      split_ifs at h1 with ho
      · cases h1; exact Nat.le_refl _
      cases e with
      | newArray => cases h1; exact Nat.le_refl _
      | create arrays r =>
        simp only at h1
        split_ifs at h1
        · cases r <;> cases h1
          · exact Nat.le_of_eq (tlost arrays s).symm
          · exact Nat.le_of_eq (tlost arrays s).symm
          · exact Nat.le_succ _
        · cases h1; exact Nat.le_refl _
      | use ws arrays =>
        simp only at h1
        split_ifs at h1
        · cases h1; exact Nat.le_of_eq (tlost arrays s).symm
        · cases h1; exact Nat.le_refl _
      | exit => cases h1; exact Nat.le_refl _
      | wrap a => simp only at h1; split_ifs at h1 <;> (cases h1; exact Nat.le_refl _)
      | hold a => simp only at h1; split_ifs at h1 <;> (cases h1; exact Nat.le_refl _)
      | drop a => simp only at h1; split_ifs at h1 <;> (cases h1; exact Nat.le_refl _)
      | collect a => simp only at h1; split_ifs at h1 <;> (cases h1; exact Nat.le_refl _)
  rw [run_append] at h
  simp only [Option.bind_eq_some_iff] at h
  obtain ⟨s1, h1, h2⟩ := h
  refine Nat.le_trans ?_ (mono es s1 s h2)
  simp [run, step, start, St.add, St.held, St.temps, Function.update] at h1
  rw [← h1]
  exact Nat.le_refl _

/-- The hypothesis of `C105_leak_false` is met: the program goes on and exits. -/
example : ∃ s, run start ([.newArray, .create [0] .failed] ++ [.exit]) = some s ∧ s.lost = 1 := by
  simp [run, step, start, St.add, St.temps, St.held, Function.update, List.range_succ]

end Verif.Python.Life
