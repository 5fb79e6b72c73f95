import Verif.Python.Wrap

/-!
# C104, first use: proofs
-/

namespace Verif.Python.Wrap

variable {d : Decl}

/-- A thread in one of these places has still to append to the list. -/
def Pc.early : Pc → Prop
  | .fetch => True
  | .keep _ => True
  | .setRes _ => True
  | .setArgs _ => True
  | .grow _ => True
  | _ => False

/-- The function object a thread relies on at its place. -/
def Pc.ready (good : Nat → Prop) (made : Nat → Prop) (typed : Nat → Prop) : Pc → Prop
  | .keep f => made f
  | .setRes f => made f
  | .setArgs f => typed f
  | .grow f => good f
  | .publish f => good f
  | .call f => good f
  | _ => True

def made (s : Shared) (f : Nat) : Prop := f < s.objs.length
def typed (s : Shared) (f : Nat) : Prop := ∃ o, s.objs[f]? = some o ∧ o.res = true
def good (d : Decl) (top : Nat) (s : Shared) (f : Nat) : Prop :=
  ∃ o, s.objs[f]? = some o ∧ o.res = true ∧ ∃ c, o.conv = some c ∧ d.args ≤ c ∧ c ≤ top

/-- Invariant: `top` bounds the number of converters; `g` says which threads have appended. -/
structure Inv (d : Decl) (top : Nat) (g : Nat → Bool) (s : State) : Prop where
  low : d.args ≤ s.mem.entries
  room : ∀ i, (s.pcs i).early → g i = false
  rest : ∀ i, g i = true → s.pcs i = .idle → s.mem.attr ≠ none
  ready : ∀ i, (s.pcs i).ready (good d top s.mem) (made s.mem) (typed s.mem)
  cached : ∀ f, s.mem.cached = some f → made s.mem f
  attr : ∀ f, s.mem.attr = some f → good d top s.mem f
  again : ∀ i, s.pcs i = .again → s.mem.attr ≠ none
  held : ∀ i f, s.pcs i = .call f → s.mem.attr ≠ none
  log : ∀ e ∈ s.log, passed d < top ∨ Fine d e.2

theorem ready_mono {p p' q q' r r' : Nat → Prop} (h1 : ∀ f, p f → p' f) (h2 : ∀ f, q f → q' f)
    (h3 : ∀ f, r f → r' f) {pc : Pc} (h : pc.ready p q r) : pc.ready p' q' r' := by
  cases pc <;> simp only [Pc.ready] at h ⊢ <;> first | exact h1 _ h | exact h2 _ h | exact h3 _ h

theorem modify_get (l : List Func) (f k : Nat) (u : Func → Func) :
    (l.modify f u)[k]? = if f = k then l[k]?.map u else l[k]? := by
  rw [List.getElem?_modify]
  split_ifs with h
  · cases l[k]? <;> rfl
  · cases l[k]? <;> rfl

theorem good_typed {top : Nat} {s : Shared} {f : Nat} (h : good d top s f) : typed s f := by
  obtain ⟨o, h1, h2, _⟩ := h; exact ⟨o, h1, h2⟩

theorem typed_made {s : Shared} {f : Nat} (h : typed s f) : made s f := by
  obtain ⟨o, h1, _⟩ := h
  exact (List.getElem?_eq_some_iff.1 h1).1

/-- Nothing good is undone by any step. -/
theorem step_mono {top : Nat} {s : State} {i : Nat} (hlow : d.args ≤ s.mem.entries)
    (htop : ∀ f, s.pcs i = .setArgs f → s.mem.entries ≤ top) :
    (∀ f, made s.mem f → made (step d s i).mem f) ∧
    (∀ f, typed s.mem f → typed (step d s i).mem f) ∧
    (∀ f, good d top s.mem f → good d top (step d s i).mem f) := by
  unfold step
  cases hpc : s.pcs i with
  | idle => cases s.mem.attr <;> exact ⟨fun _ h => h, fun _ h => h, fun _ h => h⟩
  | fetch =>
    cases s.mem.cached with
    | some f => exact ⟨fun _ h => h, fun _ h => h, fun _ h => h⟩
    | none =>
      have key : ∀ (f : Nat) (o : Func), s.mem.objs[f]? = some o →
          (s.mem.objs ++ [⟨none, false⟩])[f]? = some o := by
        intro f o h
        rw [List.getElem?_append_left (List.getElem?_eq_some_iff.1 h).1]; exact h
      refine ⟨fun f h => ?_, fun f h => ?_, fun f h => ?_⟩
      · simp only [made, State.goto, List.length_append] at h ⊢; simp; omega
      · obtain ⟨o, h1, h2⟩ := h; exact ⟨o, key f o h1, h2⟩
      · obtain ⟨o, h1, h2⟩ := h; exact ⟨o, key f o h1, h2⟩
  | keep f => exact ⟨fun _ h => h, fun _ h => h, fun _ h => h⟩
  | setRes f =>
    refine ⟨fun k h => ?_, fun k h => ?_, fun k h => ?_⟩
    · simpa [made, State.goto] using h
    · obtain ⟨o, h1, h2⟩ := h
      by_cases e : f = k
      · exact ⟨{ o with res := true }, by simp only [State.goto]; rw [modify_get, if_pos e, h1]; rfl, rfl⟩
      · exact ⟨o, by simp only [State.goto]; rw [modify_get, if_neg e, h1], h2⟩
    · obtain ⟨o, h1, h2, h3⟩ := h
      by_cases e : f = k
      · exact ⟨{ o with res := true }, by simp only [State.goto]; rw [modify_get, if_pos e, h1]; rfl,
          rfl, h3⟩
      · exact ⟨o, by simp only [State.goto]; rw [modify_get, if_neg e, h1], h2, h3⟩
  | setArgs f =>
    have ht := htop f hpc
    refine ⟨fun k h => ?_, fun k h => ?_, fun k h => ?_⟩
    · simpa [made, State.goto] using h
    · obtain ⟨o, h1, h2⟩ := h
      by_cases e : f = k
      · exact ⟨{ o with conv := some s.mem.entries },
          by simp only [State.goto]; rw [modify_get, if_pos e, h1]; rfl, h2⟩
      · exact ⟨o, by simp only [State.goto]; rw [modify_get, if_neg e, h1], h2⟩
    · obtain ⟨o, h1, h2, h3⟩ := h
      by_cases e : f = k
      · exact ⟨{ o with conv := some s.mem.entries },
          by simp only [State.goto]; rw [modify_get, if_pos e, h1]; rfl,
          h2, s.mem.entries, rfl, hlow, ht⟩
      · exact ⟨o, by simp only [State.goto]; rw [modify_get, if_neg e, h1], h2, h3⟩
  | grow f => exact ⟨fun _ h => h, fun _ h => h, fun _ h => h⟩
  | publish f => exact ⟨fun _ h => h, fun _ h => h, fun _ h => h⟩
  | again => cases s.mem.attr <;> exact ⟨fun _ h => h, fun _ h => h, fun _ h => h⟩
  | call f => exact ⟨fun _ h => h, fun _ h => h, fun _ h => h⟩

/-- The other threads stay where they are. -/
theorem step_other (d : Decl) (s : State) {i k : Nat} (h : k ≠ i) :
    (step d s i).pcs k = s.pcs k := by
  unfold step
  cases s.pcs i with
  | idle => cases s.mem.attr <;> simp [State.goto, Function.update_of_ne h]
  | fetch => cases s.mem.cached <;> simp [State.goto, Function.update_of_ne h]
  | again => cases s.mem.attr <;> simp [State.goto, Function.update_of_ne h]
  | _ => simp [State.goto, Function.update_of_ne h]

/-- Once published, always published. -/
theorem step_attr (d : Decl) (s : State) (i : Nat) (h : s.mem.attr ≠ none) :
    (step d s i).mem.attr ≠ none := by
  unfold step
  cases s.pcs i with
  | idle => cases h' : s.mem.attr <;> simp_all [State.goto]
  | fetch => cases s.mem.cached <;> simpa [State.goto] using h
  | again => cases h' : s.mem.attr <;> simp_all [State.goto]
  | publish f => simp
  | _ => simpa [State.goto] using h

/-- A good function object: the call goes through. -/
theorem call_fine {top : Nat} {s : Shared} {f : Nat} (h : good d top s f) :
    passed d < top ∨ Fine d (match s.objs[f]? with
        | some o => callFunc d o
        | none => .typeError) := by
  obtain ⟨o, h1, h2, c, h3, h4, h5⟩ := h
  by_cases ht : passed d < top
  · exact .inl ht
  · refine .inr ?_
    rw [h1]
    simp only [callFunc, h3, Option.getD_some]
    rw [if_neg (by omega)]
    exact ⟨h4, h2⟩

open Classical in
/-- One step keeps the invariant, provided a thread that assigns the list finds it short enough. -/
theorem inv_step {top : Nat} {g : Nat → Bool} {s : State} (h : Inv d top g s) (i : Nat)
    (htop : ∀ f, s.pcs i = .setArgs f → s.mem.entries ≤ top) :
    Inv d top (if (∃ f, s.pcs i = .grow f) then Function.update g i true else g) (step d s i) := by
  obtain ⟨m1, m2, m3⟩ := step_mono h.low htop
  have mready : ∀ k, (s.pcs k).ready (good d top (step d s i).mem) (made (step d s i).mem)
      (typed (step d s i).mem) := fun k => ready_mono m3 m1 m2 (h.ready k)
  have hother : ∀ k, k ≠ i → (step d s i).pcs k = s.pcs k := fun k hk => step_other d s hk
  have mattr := step_attr d s i
  have hi := h.ready i
  -- the facts about the moving thread, place by place
  have hself : d.args ≤ (step d s i).mem.entries ∧
      (((step d s i).pcs i).early → (s.pcs i).early ∧ (∀ f, s.pcs i ≠ .grow f) ∨
        s.pcs i = .idle ∧ s.mem.attr = none) ∧
      ((step d s i).pcs i = .idle → ∃ f, s.pcs i = .call f) ∧
      ((step d s i).pcs i).ready (good d top (step d s i).mem) (made (step d s i).mem)
        (typed (step d s i).mem) ∧
      (∀ f, (step d s i).mem.cached = some f → made (step d s i).mem f) ∧
      (∀ f, (step d s i).mem.attr = some f → good d top (step d s i).mem f) ∧
      ((step d s i).pcs i = .again ∨ (∃ f, (step d s i).pcs i = .call f) →
        (step d s i).mem.attr ≠ none) ∧
      (∀ e ∈ (step d s i).log, passed d < top ∨ Fine d e.2) := by
    have hl := h.low
    have hc := h.cached
    have ha := h.attr
    have hg := h.log
    have hagain := h.again i
    revert m1 m2 m3 mready
    unfold step
    cases hpc : s.pcs i with
    | idle =>
      rw [hpc] at hi
      cases hat : s.mem.attr with
      | some f =>
        intro m1 m2 m3 _
        simp only [State.goto, Function.update_self]
        exact ⟨hl, fun h => absurd h (by simp [Pc.early]), fun h => absurd h (by simp), ha f hat, hc,
          fun k hk => ha k hk, fun _ => by rw [hat]; simp, hg⟩
      | none =>
        intro m1 m2 m3 _
        simp only [State.goto, Function.update_self]
        exact ⟨hl, fun _ => .inr ⟨trivial, trivial⟩, fun h => absurd h (by simp), trivial, hc,
          fun k hk => ha k hk, fun h => absurd h (by simp), hg⟩
    | fetch =>
      cases hca : s.mem.cached with
      | some f =>
        intro m1 m2 m3 _
        simp only [State.goto, Function.update_self]
        exact ⟨hl, fun _ => .inl ⟨trivial, fun _ => by simp⟩, fun h => absurd h (by simp), hc f hca, hc,
          fun k hk => ha k hk, fun h => absurd h (by simp), hg⟩
      | none =>
        intro m1 m2 m3 _
        simp only [State.goto, Function.update_self]
        refine ⟨hl, fun _ => .inl ⟨trivial, fun _ => by simp⟩, fun h => absurd h (by simp), ?_,
          fun k hk => ?_, fun k hk => m3 k (ha k hk), fun h => absurd h (by simp), hg⟩
        · simp [Pc.ready, made]
        · rw [hca] at hk; cases hk
    | keep f =>
      intro m1 m2 m3 _
      rw [hpc] at hi
      simp only [State.goto, Function.update_self]
      refine ⟨hl, fun _ => .inl ⟨trivial, fun _ => by simp⟩, fun h => absurd h (by simp), m1 f hi,
          fun k hk => ?_, fun k hk => ha k hk, fun h => absurd h (by simp), hg⟩
      cases hk; exact m1 f hi
    | setRes f =>
      intro m1 m2 m3 _
      rw [hpc] at hi
      simp only [State.goto, Function.update_self] at m1 m2 m3 ⊢
      refine ⟨hl, fun _ => .inl ⟨trivial, fun _ => by simp⟩, fun h => absurd h (by simp), ?_,
          fun k hk => m1 k (hc k hk), fun k hk => m3 k (ha k hk), fun h => absurd h (by simp), hg⟩
      have hlt : f < s.mem.objs.length := hi
      exact ⟨{ s.mem.objs[f] with res := true },
        by rw [modify_get, if_pos rfl, List.getElem?_eq_getElem hlt]; rfl, rfl⟩
    | setArgs f =>
      intro m1 m2 m3 _
      rw [hpc] at hi
      simp only [State.goto, Function.update_self] at m1 m2 m3 ⊢
      refine ⟨hl, fun _ => .inl ⟨trivial, fun _ => by simp⟩, fun h => absurd h (by simp), ?_,
          fun k hk => m1 k (hc k hk), fun k hk => m3 k (ha k hk), fun h => absurd h (by simp), hg⟩
      obtain ⟨o, h1, h2⟩ := hi
      exact ⟨{ o with conv := some s.mem.entries },
        by rw [modify_get, if_pos rfl, h1]; rfl, h2, s.mem.entries, rfl, hl, htop f hpc⟩
    | grow f =>
      intro m1 m2 m3 _
      rw [hpc] at hi
      simp only [State.goto, Function.update_self]
      exact ⟨Nat.le_add_right_of_le hl, fun h => absurd h (by simp [Pc.early]),
        fun h => absurd h (by simp), hi, hc, fun k hk => ha k hk, fun h => absurd h (by simp), hg⟩
    | publish f =>
      intro m1 m2 m3 _
      rw [hpc] at hi
      simp only [State.goto, Function.update_self]
      refine ⟨hl, fun h => absurd h (by simp [Pc.early]), fun h => absurd h (by simp), trivial, hc,
        fun k hk => ?_, fun _ => by simp, hg⟩
      cases hk; exact m3 f hi
    | again =>
      cases hat : s.mem.attr with
      | some f =>
        intro m1 m2 m3 _
        simp only [State.goto, Function.update_self]
        exact ⟨hl, fun h => absurd h (by simp [Pc.early]), fun h => absurd h (by simp), ha f hat, hc,
          fun k hk => ha k hk, fun _ => by rw [hat]; simp, hg⟩
      | none => exact absurd hat (hagain hpc)
    | call f =>
      intro m1 m2 m3 _
      rw [hpc] at hi
      simp only [State.goto, Function.update_self]
      refine ⟨hl, fun h => absurd h (by simp [Pc.early]), fun _ => ⟨f, rfl⟩, trivial, hc,
        fun k hk => ha k hk, fun h => absurd h (by simp), fun e he => ?_⟩
      rcases List.mem_cons.1 he with rfl | he
      · exact call_fine hi
      · exact hg e he
  obtain ⟨s1, s2, s3, s4, s5, s6, s7, s8⟩ := hself
  have gother : ∀ k, k ≠ i →
      (if (∃ f, s.pcs i = .grow f) then Function.update g i true else g) k = g k := by
    intro k hk; split_ifs
    · exact Function.update_of_ne hk _ _
    · rfl
  refine ⟨s1, fun k hk => ?_, fun k hk hk' => ?_, fun k => ?_, s5, s6, fun k hk => ?_,
    fun k f hk => ?_, s8⟩
  · by_cases e : k = i
    · subst e
      rcases s2 hk with ⟨h1, h2⟩ | ⟨h1, h2⟩
      · rw [if_neg (by rintro ⟨f, hf⟩; exact h2 f hf)]; exact h.room k h1
      · rw [if_neg (by rw [h1]; rintro ⟨f, hf⟩; cases hf)]
        by_contra hne
        exact h.rest k (by simpa using hne) h1 h2
    · rw [gother k e]; rw [hother k e] at hk; exact h.room k hk
  · by_cases e : k = i
    · subst e
      obtain ⟨f, hf⟩ := s3 hk'
      exact mattr (h.held k f hf)
    · rw [gother k e] at hk; rw [hother k e] at hk'
      exact mattr (h.rest k hk hk')
  · by_cases e : k = i
    · subst e; exact s4
    · rw [hother k e]; exact mready k
  · by_cases e : k = i
    · subst e; exact s7 (.inl hk)
    · rw [hother k e] at hk; exact mattr (h.again k hk)
  · by_cases e : k = i
    · subst e; exact s7 (.inr ⟨f, hk⟩)
    · rw [hother k e] at hk; exact mattr (h.held k f hk)


theorem inv_start (d : Decl) (top : Nat) : Inv d top (fun _ => false) (start d) where
  low := Nat.le_refl _
  room := fun _ _ => rfl
  rest := fun _ h => by simp at h
  ready := fun _ => trivial
  cached := fun _ h => by simp [start] at h
  attr := fun _ h => by simp [start] at h
  again := fun _ h => by simp [start] at h
  held := fun _ _ h => by simp [start] at h
  log := fun _ h => by simp [start] at h

open Classical in
theorem step_entries (d : Decl) (s : State) (i : Nat) :
    (step d s i).mem.entries = s.mem.entries +
      if (∃ f, s.pcs i = .grow f) ∧ d.check = true then 1 else 0 := by
  unfold step
  cases hpc : s.pcs i with
  | idle => cases s.mem.attr <;> simp [State.goto]
  | fetch => cases s.mem.cached <;> simp [State.goto]
  | again => cases s.mem.attr <;> simp [State.goto]
  | grow f => simp
  | _ => simp [State.goto]

/-- **C104, first use.** Any number of Python threads, each calling a library function any number
of times, under any schedule, starting from a freshly imported module.  If the function takes no
error code, or if at most two threads use it, then every call reaches the C function, with every
argument of the binding converted as declared and with the declared return type.

Partial: with three threads and an error code this fails, see `C104_first_use_false`. -/
theorem C104_first_use_partial (d : Decl) (sched : List Nat)
    (h : d.check = false ∨ ∀ i ∈ sched, i < 2) :
    ∀ e ∈ (run d (start d) sched).log, Fine d e.2 := by
  have main : ∀ (l : List Nat) (s : State) (g : Nat → Bool),
      (d.check = false ∨ ∀ i ∈ l, i < 2) → Inv d (passed d) g s →
      s.mem.entries = d.args +
        (if d.check then (if g 0 then 1 else 0) + (if g 1 then 1 else 0) else 0) →
      ∃ g', Inv d (passed d) g' (run d s l) := by
    intro l
    induction l with
    | nil => intro s g _ hi _; exact ⟨g, hi⟩
    | cons i l ih =>
      intro s g hl hi he
      have hl' : d.check = false ∨ ∀ i ∈ l, i < 2 :=
        hl.imp id fun h k hk => h k (List.mem_cons_of_mem _ hk)
      have htop : ∀ f, s.pcs i = .setArgs f → s.mem.entries ≤ passed d := by
        intro f hf
        have hgi : g i = false := hi.room i (by rw [hf]; trivial)
        rw [he]
        unfold passed
        cases hc : d.check with
        | false => simp
        | true =>
          have hi2 : i < 2 := by
            rcases hl with h | h
            · rw [hc] at h; cases h
            · exact h i (List.mem_cons_self ..)
          have : i = 0 ∨ i = 1 := by omega
          rcases this with rfl | rfl
          · rw [hgi]; simp; split_ifs <;> simp
          · rw [hgi]; simp; split_ifs <;> simp
      have hn := inv_step hi i htop
      refine ih (step d s i) _ hl' hn ?_
      rw [step_entries, he]
      cases hc : d.check with
      | false => simp
      | true =>
        have hi2 : i < 2 := by
          rcases hl with h | h
          · rw [hc] at h; cases h
          · exact h i (List.mem_cons_self ..)
        by_cases hgrow : ∃ f, s.pcs i = .grow f
        · have hgi : g i = false := by
            obtain ⟨f, hf⟩ := hgrow
            exact hi.room i (by rw [hf]; trivial)
          have : i = 0 ∨ i = 1 := by omega
          rcases this with rfl | rfl
          · simp [hgrow, hgi]; omega
          · simp [hgrow, hgi]; omega
        · simp [hgrow]
  obtain ⟨g, hg⟩ := main sched (start d) (fun _ => false) h (inv_start d _) (by simp [start])
  intro e he
  rcases hg.log e he with h | h
  · omega
  · exact h

/-- Two threads racing from the start, and a later call by each: four calls, all fine. -/
example : (run ⟨3, true⟩ (start ⟨3, true⟩)
    ([0, 1, 0, 0, 1, 0, 0, 0, 1, 1, 1, 1, 0, 0, 0, 1, 1, 1] ++ [0, 0, 1, 1])).log
    = [(1, .ran 4 true), (0, .ran 4 true), (1, .ran 4 true), (0, .ran 4 true)] := by decide

/-- All threads that are not idle hold the function `f`, which is published. -/
structure Settled (f : Nat) (o : Func) (s : State) : Prop where
  attr : s.mem.attr = some f
  obj : s.mem.objs[f]? = some o
  pcs : ∀ i, s.pcs i = .idle ∨ s.pcs i = .again ∨ s.pcs i = .call f

theorem settled_step {f : Nat} {o : Func} {s : State} (h : Settled f o s) (i : Nat) :
    Settled f o (step d s i) ∧ ((step d s i).log = s.log ∨
      (step d s i).log = (i, callFunc d o) :: s.log) := by
  have hp := h.pcs
  have ha := h.attr
  have ho := h.obj
  have upd : ∀ pc, (pc = .idle ∨ pc = .again ∨ pc = .call f) →
      ∀ k, Function.update s.pcs i pc k = .idle ∨ Function.update s.pcs i pc k = .again ∨
        Function.update s.pcs i pc k = .call f := by
    intro pc hpc k
    by_cases e : k = i
    · subst e; simpa using hpc
    · simpa [Function.update_of_ne e] using hp k
  rcases hp i with h1 | h1 | h1
  · have : step d s i = s.goto i (.call f) := by unfold step; rw [h1, ha]
    rw [this]
    exact ⟨⟨ha, ho, upd _ (.inr (.inr rfl))⟩, .inl rfl⟩
  · have : step d s i = s.goto i (.call f) := by unfold step; rw [h1, ha]
    rw [this]
    exact ⟨⟨ha, ho, upd _ (.inr (.inr rfl))⟩, .inl rfl⟩
  · have : step d s i = { s.goto i .idle with log := (i, callFunc d o) :: s.log } := by
      unfold step; rw [h1]; simp only [ho]
    rw [this]
    exact ⟨⟨ha, ho, upd _ (.inl rfl)⟩, .inr rfl⟩

theorem settled_run {f : Nat} {o : Func} (l : List Nat) : ∀ {s : State}, Settled f o s →
    Settled f o (run d s l) ∧
      ∃ new : List (Nat × Outcome), (run d s l).log = new ++ s.log ∧ ∀ e ∈ new, e.2 = callFunc d o := by
  induction l with
  | nil => intro s h; exact ⟨h, [], rfl, by simp⟩
  | cons i l ih =>
    intro s h
    obtain ⟨h1, h2⟩ := settled_step (d := d) h i
    obtain ⟨h3, new, h4, h5⟩ := ih h1
    refine ⟨h3, ?_⟩
    rcases h2 with h2 | h2
    · exact ⟨new, by rw [← h2]; exact h4, h5⟩
    · refine ⟨new ++ [(i, callFunc d o)], ?_, ?_⟩
      · rw [List.append_assoc]; rw [h2] at h4; exact h4
      · intro e he
        rcases List.mem_append.1 he with he | he
        · exact h5 e he
        · rw [List.mem_singleton.1 he]

/-- The steps of a thread that finds nothing set up and makes one call. -/
def alone : List Nat := [0, 0, 0, 0, 0, 0, 0, 0, 0]

theorem alone_run (d : Decl) : Settled 0 ⟨some d.args, true⟩ (run d (start d) alone) ∧
    (run d (start d) alone).log = [(0, .ran d.args true)] := by
  have hp : ¬ passed d < d.args := by unfold passed; omega
  refine ⟨⟨?_, ?_, fun i => ?_⟩, ?_⟩ <;>
    simp [alone, run, step, start, State.goto, callFunc, hp, List.modify_cons]

/-- **C104, warmed up.** If one thread calls the function once before any other thread touches
it, then any number of threads can use it under any schedule: every call goes through. -/
theorem C104_warm (d : Decl) (sched : List Nat) :
    ∀ e ∈ (run d (start d) (alone ++ sched)).log, Fine d e.2 := by
  obtain ⟨h1, h2⟩ := alone_run d
  have : run d (start d) (alone ++ sched) = run d (run d (start d) alone) sched := by
    simp [run, List.foldl_append]
  rw [this]
  obtain ⟨_, new, h4, h5⟩ := settled_run (d := d) sched h1
  rw [h4, h2]
  have hf : Fine d (callFunc d ⟨some d.args, true⟩) := by
    have hp : ¬ passed d < d.args := by unfold passed; omega
    simp [callFunc, hp, Fine]
  intro e he
  rcases List.mem_append.1 he with he | he
  · rw [h5 e he]; exact hf
  · rw [List.mem_singleton.1 he]; exact ⟨Nat.le_refl _, rfl⟩

/-- The unlucky interleaving of three threads that reach the function for the first time. -/
def unlucky : List Nat :=
  [0, 1, 2] ++ [0, 0] ++ [1, 2] ++ [0, 1, 2] ++ [0, 0] ++ [1, 1] ++ [2, 2] ++ [0, 1, 2]

theorem unlucky_run (n : Nat) :
    Settled 0 ⟨some (n + 2), true⟩ (run ⟨n, true⟩ (start ⟨n, true⟩) unlucky) ∧
    (run ⟨n, true⟩ (start ⟨n, true⟩) unlucky).log = [] := by
  refine ⟨⟨?_, ?_, fun i => ?_⟩, ?_⟩
  · simp [unlucky, run, step, start, State.goto, List.modify_cons]
  · simp [unlucky, run, step, start, State.goto, List.modify_cons]
  · by_cases h0 : i = 0
    · subst h0; simp [unlucky, run, step, start, State.goto, List.modify_cons]
    by_cases h1 : i = 1
    · subst h1; simp [unlucky, run, step, start, State.goto, List.modify_cons]
    by_cases h2 : i = 2
    · subst h2; simp [unlucky, run, step, start, State.goto, List.modify_cons]
    simp [unlucky, run, step, start, State.goto, List.modify_cons, Function.update_of_ne h0,
      Function.update_of_ne h1, Function.update_of_ne h2]
  · simp [unlucky, run, step, start, State.goto, List.modify_cons]

/-- **C104, first use, fails.** For every function with an error code, whatever its number of
arguments: three threads that reach it for the first time together can leave the binding in a
state in which every call that any thread ever makes again raises `TypeError` and never reaches
the C function.  (And such calls are made: thread 7 makes one in its next two steps.) -/
theorem C104_first_use_false (n : Nat) : ∃ pre : List Nat,
    (∀ i ∈ pre, i < 3) ∧
    (∀ post, ∀ e ∈ (run ⟨n, true⟩ (start ⟨n, true⟩) (pre ++ post)).log, e.2 = .typeError) ∧
    (run ⟨n, true⟩ (start ⟨n, true⟩) (pre ++ [7, 7])).log = [(7, .typeError)] := by
  obtain ⟨h1, h2⟩ := unlucky_run n
  have happ : ∀ post, run ⟨n, true⟩ (start ⟨n, true⟩) (unlucky ++ post)
      = run ⟨n, true⟩ (run ⟨n, true⟩ (start ⟨n, true⟩) unlucky) post := fun post => by
    simp [run, List.foldl_append]
  have hc : callFunc ⟨n, true⟩ ⟨some (n + 2), true⟩ = .typeError := by simp [callFunc, passed]
  refine ⟨unlucky, by decide, fun post e he => ?_, ?_⟩
  · rw [happ] at he
    obtain ⟨_, new, h4, h5⟩ := settled_run (d := ⟨n, true⟩) post h1
    rw [h4, h2, List.append_nil] at he
    rw [h5 e he, hc]
  · rw [happ]
    have h7 : (run ⟨n, true⟩ (start ⟨n, true⟩) unlucky).pcs 7 = .idle := by
      simp [unlucky, run, step, start, State.goto, List.modify_cons]
    generalize run ⟨n, true⟩ (start ⟨n, true⟩) unlucky = s at h1 h2 h7 ⊢
    have e1 : step ⟨n, true⟩ s 7 = s.goto 7 (.call 0) := by unfold step; rw [h7, h1.attr]
    show (step ⟨n, true⟩ (step ⟨n, true⟩ s 7) 7).log = _
    rw [e1]
    unfold step
    simp only [State.goto, Function.update_self, h1.obj, hc, h2]

end Verif.Python.Wrap
