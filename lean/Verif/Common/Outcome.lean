import Verif.Common.Race

/-!
# Possible outcomes of a launch

`Launch prog ts a o`: threads `ts`, started on array `a`, can end with `o`, which is `none` if one of
them has left an array.
-/

namespace Sdp.Race
variable {α ι : Type} [DecidableEq ι]

/-- A launch can end like this. -/
inductive Launch (prog : ι → Prog α) (ts : List ι) (a : Arr α) : Option (Arr α) → Prop
  | done (sched : List ι) (hs : ∀ t ∈ sched, t ∈ ts) (s : St α ι)
      (h : run ⟨a, prog⟩ sched = some s) (hd : ∀ t ∈ ts, s.prog t = .done) :
      Launch prog ts a (some s.mem)
  | fault (sched : List ι) (hs : ∀ t ∈ sched, t ∈ ts) (h : run (⟨a, prog⟩ : St α ι) sched = none) :
      Launch prog ts a none

/-- A launch whose result does not depend on the schedule has that outcome only. -/
theorem Launch.eq {prog : ι → Prog α} {ts : List ι} {a r : Arr α} (hy : Yields prog ts a r)
    {o : Option (Arr α)} (h : Launch prog ts a o) : o = some r := by
  cases h with
  | done sched hs s h hd =>
    obtain ⟨s', e1, e2⟩ := hy.1 sched hs
    rw [h] at e1
    cases e1
    rw [e2 hd]
  | fault sched hs h =>
    obtain ⟨s', e1, -⟩ := hy.1 sched hs
    rw [h] at e1
    cases e1

/-- One thread running on its own. -/
theorem run_solo (t : ι) : ∀ (p : Prog α) (a : Arr α) (prog : ι → Prog α), prog t = p →
    ∃ n, (p.exec a = none → run (⟨a, prog⟩ : St α ι) (List.replicate n t) = none) ∧
      ∀ r, p.exec a = some r → ∃ s, run (⟨a, prog⟩ : St α ι) (List.replicate n t) = some s ∧ s.mem = r ∧
        s.prog t = .done ∧ ∀ t', t' ≠ t → s.prog t' = prog t' := by
  intro p
  induction p with
  | done =>
    intro a prog hp
    refine ⟨0, (fun h => by cases h), fun r h => ?_⟩
    simp only [Prog.exec, Option.some.injEq] at h
    exact ⟨⟨a, prog⟩, rfl, h, hp, fun _ _ => rfl⟩
  | fault =>
    intro a prog hp
    refine ⟨1, fun _ => ?_, fun r h => by cases h⟩
    simp [run, loop, step, hp]
  | read i k ih =>
    intro a prog hp
    cases hv : a.read i with
    | none =>
      refine ⟨1, fun _ => ?_, fun r h => ?_⟩
      · simp [run, loop, step, hp, hv]
      · simp [Prog.exec, hv] at h
    | some v =>
      obtain ⟨n, h1, h2⟩ := ih v a (Function.update prog t (k v)) (by simp)
      have e : ∀ l, run (⟨a, prog⟩ : St α ι) (t :: l) = run ⟨a, Function.update prog t (k v)⟩ l := by
        intro l
        simp [run, loop, step, hp, hv]
      refine ⟨n + 1, fun h => ?_, fun r h => ?_⟩
      · rw [List.replicate_succ, e]
        apply h1
        simpa [Prog.exec, hv] using h
      · obtain ⟨s, s1, s2, s3, s4⟩ := h2 r (by simpa [Prog.exec, hv] using h)
        refine ⟨s, by rw [List.replicate_succ, e]; exact s1, s2, s3, fun t' ht => ?_⟩
        rw [s4 t' ht, Function.update_of_ne ht]
  | write i v k ih =>
    intro a prog hp
    cases hv : a.write i v with
    | none =>
      refine ⟨1, fun _ => ?_, fun r h => ?_⟩
      · simp [run, loop, step, hp, hv]
      · simp [Prog.exec, hv] at h
    | some b =>
      obtain ⟨n, h1, h2⟩ := ih b (Function.update prog t k) (by simp)
      have e : ∀ l, run (⟨a, prog⟩ : St α ι) (t :: l) = run ⟨b, Function.update prog t k⟩ l := by
        intro l
        simp [run, loop, step, hp, hv]
      refine ⟨n + 1, fun h => ?_, fun r h => ?_⟩
      · rw [List.replicate_succ, e]
        apply h1
        simpa [Prog.exec, hv] using h
      · obtain ⟨s, s1, s2, s3, s4⟩ := h2 r (by simpa [Prog.exec, hv] using h)
        refine ⟨s, by rw [List.replicate_succ, e]; exact s1, s2, s3, fun t' ht => ?_⟩
        rw [s4 t' ht, Function.update_of_ne ht]

/-- A thread that leaves the array when it runs first makes a fault possible. -/
theorem Launch.bad {prog : ι → Prog α} {ts : List ι} {a : Arr α} {t : ι} (ht : t ∈ ts)
    (h : (prog t).exec a = none) : Launch prog ts a none := by
  obtain ⟨n, h1, -⟩ := run_solo t (prog t) a prog rfl
  exact .fault (List.replicate n t) (fun t' h' => by rw [(List.mem_replicate.1 h').2]; exact ht) (h1 h)

theorem run_all (ts : List ι) : ∀ (l : List ι) (a : Arr α) (prog : ι → Prog α), l.Nodup → (∀ t ∈ l, t ∈ ts) →
    ∃ sched : List ι, (∀ t ∈ sched, t ∈ ts) ∧ (run (⟨a, prog⟩ : St α ι) sched = none ∨
      ∃ s, run (⟨a, prog⟩ : St α ι) sched = some s ∧ (∀ t ∈ l, s.prog t = .done) ∧
        ∀ t, t ∉ l → s.prog t = prog t) := by
  intro l
  induction l with
  | nil => intro a prog _ _; exact ⟨[], by simp, .inr ⟨⟨a, prog⟩, rfl, by simp, fun _ _ => rfl⟩⟩
  | cons t l ih =>
    intro a prog hn hl
    have hn' := List.nodup_cons.1 hn
    obtain ⟨n, h1, h2⟩ := run_solo t (prog t) a prog rfl
    have hrep : ∀ t' ∈ List.replicate n t, t' ∈ ts := fun t' h' => by
      rw [(List.mem_replicate.1 h').2]; exact hl t (by simp)
    cases he : (prog t).exec a with
    | none => exact ⟨List.replicate n t, hrep, .inl (h1 he)⟩
    | some r =>
      obtain ⟨s, s1, s2, s3, s4⟩ := h2 r he
      obtain ⟨sched, hs, hr⟩ := ih s.mem s.prog hn'.2 fun t' h' => hl t' (by simp [h'])
      have e : run (⟨a, prog⟩ : St α ι) (List.replicate n t ++ sched) = run ⟨s.mem, s.prog⟩ sched := by
        have : run (⟨a, prog⟩ : St α ι) (List.replicate n t ++ sched) =
            (run (⟨a, prog⟩ : St α ι) (List.replicate n t)).bind fun x => run x sched :=
          loop_append _ _ _ _
        rw [this, s1]
        rfl
      refine ⟨List.replicate n t ++ sched, ?_, ?_⟩
      · intro t' h'
        rcases List.mem_append.1 h' with h' | h'
        · exact hrep t' h'
        · exact hs t' h'
      · rw [e]
        rcases hr with hr | ⟨x, x1, x2, x3⟩
        · exact .inl hr
        · refine .inr ⟨x, x1, ?_, ?_⟩
          · intro t' h'
            rcases List.mem_cons.1 h' with rfl | h'
            · rw [x3 t' hn'.1, s3]
            · exact x2 t' h'
          · intro t' h'
            rw [List.mem_cons, not_or] at h'
            rw [x3 t' h'.2, s4 t' h'.1]

/-- Every launch has an outcome: its threads can run one after the other. -/
theorem Launch.exists (prog : ι → Prog α) (ts : List ι) (hn : ts.Nodup) (a : Arr α) :
    ∃ o, Launch prog ts a o := by
  obtain ⟨sched, hs, h | ⟨s, h, hd, -⟩⟩ := run_all ts ts a prog hn fun _ h => h
  · exact ⟨none, .fault sched hs h⟩
  · exact ⟨some s.mem, .done sched hs s h hd⟩

/-- First one step, then another that depends on its result; a fault ends both. -/
def Then {α β : Type} (R : Option α → Prop) (k : α → Option β → Prop) : Option β → Prop :=
  fun o => (R none ∧ o = none) ∨ ∃ a, R (some a) ∧ k a o

theorem Then.exact {α β : Type} {R : Option α → Prop} {k : α → Option β → Prop} {a : α}
    (hR : ∀ o, R o → o = some a) {o : Option β} (h : Then R k o) : k a o := by
  rcases h with ⟨h, -⟩ | ⟨b, h, hk⟩
  · cases hR _ h
  · cases hR _ h
    exact hk

theorem Then.run {α β : Type} {R : Option α → Prop} {k : α → Option β → Prop} {a : α}
    (hR : R (some a)) {o : Option β} (hk : k a o) : Then R k o := .inr ⟨a, hR, hk⟩

end Sdp.Race
