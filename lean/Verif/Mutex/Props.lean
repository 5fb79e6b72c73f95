import Verif.Mutex.Model
import Mathlib.Tactic.Ring
import Mathlib.Tactic.Abel
import Mathlib.Tactic.Linarith
import Mathlib.Tactic.FinCases

/-!
# C128: a mutex keeps changes of a shared value apart
-/

namespace Sdp.Mutex
open Finset

variable {n : Nat} {σ δ : Type} {ap : σ → δ → σ}

theorem sum_upd {M : Type} [AddCommMonoid M] (g : Thread σ δ → M) (f : Fin n → Thread σ δ) (i : Fin n) (v : Thread σ δ) :
    ∑ t, g (Function.update f i v t) + g (f i) = ∑ t, g (f t) + g v := by
  rw [← add_sum_erase univ _ (mem_univ i), ← add_sum_erase univ (fun t => g (f t)) (mem_univ i)]
  have h : ∑ t ∈ univ.erase i, g (Function.update f i v t) = ∑ t ∈ univ.erase i, g (f t) := by
    refine sum_congr rfl fun t ht => ?_
    rw [Function.update_of_ne (ne_of_mem_erase ht)]
  simp only [h, Function.update_self]
  abel

/-- What is known of every state that can be reached. -/
structure Inv (ap : σ → δ → σ) (x0 : σ) (prog : Fin n → List δ) (s : St n σ δ) : Prop where
  free : s.m = false → ∀ t, (s.thr t).pc = .outside
  one : ∀ t u, (s.thr t).pc ≠ .outside → (s.thr u).pc ≠ .outside → t = u
  read : ∀ t v, (s.thr t).pc = .loaded v → v = s.x ∧ (s.thr t).todo ≠ []
  locked : ∀ t, (s.thr t).pc = .locked → (s.thr t).todo ≠ []
  held : s.m = true → ∃ t, (s.thr t).pc ≠ .outside
  serial : ∃ L : List (Fin n × δ), s.x = L.foldl (fun a p => ap a p.2) x0 ∧
    ∀ t, (L.filter (fun p => p.1 = t)).map Prod.snd ++ (s.thr t).todo = prog t

theorem inv_start (x0 : σ) (prog : Fin n → List δ) : Inv ap x0 prog (start x0 prog) :=
  ⟨fun _ _ => rfl, fun _ _ h => absurd rfl h, fun _ _ h => (by cases h), fun _ h => (by cases h),
    fun h => (by cases h), [], rfl, fun _ => rfl⟩

theorem serial_same {s : St n σ δ} {prog : Fin n → List δ} {L : List (Fin n × δ)} (t : Fin n) (pc : Pc σ) (l : List δ)
    (htd : (s.thr t).todo = l) (h : ∀ u, (L.filter (fun p => p.1 = u)).map Prod.snd ++ (s.thr u).todo = prog u)
    (u : Fin n) : (L.filter (fun p => p.1 = u)).map Prod.snd ++ (Function.update s.thr t ⟨pc, l⟩ u).todo = prog u := by
  by_cases hc : u = t
  · subst hc
    rw [Function.update_self, ← h u, htd]
  · rw [Function.update_of_ne hc, h u]

theorem inv_step {x0 : σ} {prog : Fin n → List δ} {s s' : St n σ δ} (h : Inv ap x0 prog s) (t : Fin n)
    (hs : step ap true s t = some s') : Inv ap x0 prog s' := by
  obtain ⟨L, hL, hLt⟩ := h.serial
  rcases ht : s.thr t with ⟨pc, l⟩
  have hpc : (s.thr t).pc = pc := by rw [ht]
  have htd : (s.thr t).todo = l := by rw [ht]
  have alone : pc ≠ .outside → ∀ u, u ≠ t → (s.thr u).pc = .outside := fun hp u hu => by
    by_contra hc
    exact hu (h.one u t hc (by rw [hpc]; exact hp))
  unfold step at hs
  rw [ht] at hs
  cases pc with
  | outside =>
    cases l with
    | nil => cases hs
    | cons d ds =>
      simp only [lock, if_true] at hs
      cases hm : s.m with
      | true => rw [hm] at hs; cases hs
      | false =>
        rw [hm] at hs
        obtain rfl := Option.some.inj hs
        have ho := h.free hm
        have hother : ∀ u, u ≠ t → (Function.update s.thr t ⟨Pc.locked, d :: ds⟩ u).pc = .outside := fun u hu => by
          rw [Function.update_of_ne hu]; exact ho u
        refine ⟨fun hc => (by cases hc), fun a b ha hb => ?_, fun a v ha => ?_, fun a ha => ?_, fun _ => ⟨t, ?_⟩, ?_⟩
        · have h1 : a = t := by by_contra hc; exact ha (hother a hc)
          have h2 : b = t := by by_contra hc; exact hb (hother b hc)
          rw [h1, h2]
        · by_cases hc : a = t
          · subst hc; simp at ha
          · rw [hother a hc] at ha; cases ha
        · by_cases hc : a = t
          · subst hc; simp
          · rw [hother a hc] at ha; cases ha
        · simp
        · exact ⟨L, hL, serial_same t _ _ htd hLt⟩
  | locked =>
    obtain rfl := Option.some.inj hs
    have hother : ∀ u, u ≠ t → (Function.update s.thr t ⟨Pc.loaded s.x, l⟩ u).pc = .outside := fun u hu => by
      rw [Function.update_of_ne hu]; exact alone (by simp) u hu
    refine ⟨fun hc => ?_, fun a b ha hb => ?_, fun a v ha => ?_, fun a ha => ?_, fun _ => ⟨t, ?_⟩, ?_⟩
    · have := h.free hc t
      rw [hpc] at this; cases this
    · have h1 : a = t := by by_contra hc; exact ha (hother a hc)
      have h2 : b = t := by by_contra hc; exact hb (hother b hc)
      rw [h1, h2]
    · by_cases hc : a = t
      · subst hc
        simp only [Function.update_self, Pc.loaded.injEq] at ha ⊢
        exact ⟨ha.symm, htd ▸ h.locked a hpc⟩
      · rw [hother a hc] at ha; cases ha
    · by_cases hc : a = t
      · subst hc; simp at ha
      · rw [hother a hc] at ha; cases ha
    · simp
    · exact ⟨L, hL, serial_same t _ _ htd hLt⟩
  | loaded v =>
    cases l with
    | nil => cases hs
    | cons d ds =>
      obtain rfl := Option.some.inj hs
      obtain ⟨hv, -⟩ := h.read t v hpc
      have hother : ∀ u, u ≠ t → (Function.update s.thr t ⟨Pc.stored, ds⟩ u).pc = .outside := fun u hu => by
        rw [Function.update_of_ne hu]; exact alone (by simp) u hu
      refine ⟨fun hc => ?_, fun a b ha hb => ?_, fun a v ha => ?_, fun a ha => ?_, fun _ => ⟨t, ?_⟩, ?_⟩
      · have := h.free hc t
        rw [hpc] at this; cases this
      · have h1 : a = t := by by_contra hc; exact ha (hother a hc)
        have h2 : b = t := by by_contra hc; exact hb (hother b hc)
        rw [h1, h2]
      · by_cases hc : a = t
        · subst hc; simp at ha
        · rw [hother a hc] at ha; cases ha
      · by_cases hc : a = t
        · subst hc; simp at ha
        · rw [hother a hc] at ha; cases ha
      · simp
      · refine ⟨L ++ [(t, d)], ?_, fun u => ?_⟩
        · rw [List.foldl_append, ← hL, hv]
          rfl
        · rw [← hLt u, List.filter_append, List.map_append, List.append_assoc]
          by_cases hc : u = t
          · subst hc
            rw [htd]
            simp
          · simp only [Function.update_of_ne hc]
            simp [Ne.symm hc]
  | stored =>
    obtain rfl := Option.some.inj hs
    have hall : ∀ u, (Function.update s.thr t ⟨Pc.outside, l⟩ u).pc = .outside := fun u => by
      by_cases hc : u = t
      · subst hc; simp
      · rw [Function.update_of_ne hc]; exact alone (by simp) u hc
    refine ⟨fun _ => hall, fun a b ha hb => absurd (hall a) ha, fun a v ha => ?_, fun a ha => ?_, fun hc => ?_, ?_⟩
    · rw [hall a] at ha; cases ha
    · rw [hall a] at ha; cases ha
    · simp [unlock] at hc
    · exact ⟨L, hL, serial_same t _ _ htd hLt⟩

theorem run_cons (omp : Bool) (s : St n σ δ) (t : Fin n) (l : List (Fin n)) :
    run ap omp s (t :: l) = (step ap omp s t).bind fun s' => run ap omp s' l := rfl

theorem inv_run {x0 : σ} {prog : Fin n → List δ} (l : List (Fin n)) :
    ∀ {s s' : St n σ δ}, Inv ap x0 prog s → run ap true s l = some s' → Inv ap x0 prog s' := by
  induction l with
  | nil => intro s s' h hr; obtain rfl := Option.some.inj hr; exact h
  | cons t l ih =>
    intro s s' h hr
    rw [run_cons] at hr
    obtain ⟨s1, h1, h2⟩ := Option.bind_eq_some_iff.1 hr
    exact ih (inv_step h t h1) h2

/-- **C128, as if one after the other.**  For every number of threads, all shared data and changes and every interleaving:
when all threads have ended, the shared data are what the changes of all threads give when made one after the other in
some order, in which each thread's changes are all there and in its own order. -/
theorem C128_serial (x0 : σ) (prog : Fin n → List δ) (sched : List (Fin n)) (s : St n σ δ)
    (h : run ap true (start x0 prog) sched = some s) (he : s.Ended) :
    ∃ L : List (Fin n × δ), s.x = L.foldl (fun a p => ap a p.2) x0 ∧
      ∀ t, (L.filter (fun p => p.1 = t)).map Prod.snd = prog t := by
  obtain ⟨L, h1, h2⟩ := (inv_run sched (inv_start x0 prog) h).serial
  refine ⟨L, h1, fun t => ?_⟩
  rw [← h2 t, (he t).2, List.append_nil]

theorem foldl_sum (L : List (Fin n × Int)) : ∀ x : Int, L.foldl (fun a p => a + p.2) x =
    x + ∑ t, ((L.filter (fun p => p.1 = t)).map Prod.snd).sum := by
  induction L with
  | nil => intro x; simp
  | cons p L ih =>
    intro x
    rw [List.foldl_cons, ih, add_assoc]
    congr 1
    have : ∀ t, (((p :: L).filter (fun p => p.1 = t)).map Prod.snd).sum =
        (if p.1 = t then p.2 else 0) + ((L.filter (fun p => p.1 = t)).map Prod.snd).sum := by
      intro t
      by_cases hc : p.1 = t <;> simp [hc]
    simp only [this, sum_add_distrib, sum_ite_eq, mem_univ, if_true]

/-- **C128, no change is lost.**  For every number of threads, everything they add and every interleaving: when all
threads have ended, the shared value has been increased by the sum of all that was to be added. -/
theorem C128_updates (x0 : Int) (prog : Fin n → List Int) (sched : List (Fin n)) (s : St n Int Int)
    (h : run (· + ·) true (start x0 prog) sched = some s) (he : s.Ended) : s.x = x0 + ∑ t, (prog t).sum := by
  obtain ⟨L, h1, h2⟩ := C128_serial x0 prog sched s h he
  rw [h1, foldl_sum]
  congr 1
  exact sum_congr rfl fun t _ => by rw [h2 t]

/-- **C128, one at a time.**  At no time are two threads between lock and unlock. -/
theorem C128_exclusive (x0 : σ) (prog : Fin n → List δ) (sched : List (Fin n)) (s : St n σ δ)
    (h : run ap true (start x0 prog) sched = some s) (t u : Fin n) (ht : s.Inside t) (hu : s.Inside u) : t = u :=
  (inv_run sched (inv_start x0 prog) h).one t u ht hu

/-- **C128, no deadlock.**  Unless all threads have ended, one of them can go on. -/
theorem C128_progress (x0 : σ) (prog : Fin n → List δ) (sched : List (Fin n)) (s : St n σ δ)
    (h : run ap true (start x0 prog) sched = some s) (he : ¬s.Ended) : ∃ t s', step ap true s t = some s' := by
  have hi := inv_run sched (inv_start x0 prog) h
  cases hm : s.m with
  | false =>
    have ho := hi.free hm
    by_contra hc
    refine he fun t => ⟨ho t, ?_⟩
    by_contra hl
    refine hc ⟨t, ?_⟩
    rcases ht : s.thr t with ⟨pc, l⟩
    have hp := ho t
    rw [ht] at hp hl
    simp only at hp hl
    subst hp
    cases l with
    | nil => exact absurd rfl hl
    | cons d ds =>
      unfold step lock
      rw [ht, hm]
      exact ⟨_, rfl⟩
  | true =>
    obtain ⟨t, htp⟩ := hi.held hm
    refine ⟨t, ?_⟩
    have h1 := hi.read t
    have h2 := hi.locked t
    rcases ht : s.thr t with ⟨pc, l⟩
    rw [ht] at htp h1 h2
    unfold step
    rw [ht]
    cases pc with
    | outside => exact absurd rfl htp
    | locked => exact ⟨_, rfl⟩
    | loaded v =>
      cases l with
      | nil => exact absurd rfl (h1 v rfl).2
      | cons d ds => exact ⟨_, rfl⟩
    | stored => exact ⟨_, rfl⟩

/-- Steps all threads have left, where a started pass counts by what is left of it. -/
def steps (s : St n σ δ) : Nat := ∑ t, match s.thr t with
  | ⟨.outside, l⟩ => 4 * l.length
  | ⟨.locked, l⟩ => 4 * l.length - 1
  | ⟨.loaded _, l⟩ => 4 * l.length - 2
  | ⟨.stored, l⟩ => 4 * l.length + 1

theorem steps_step {s s' : St n σ δ} (omp : Bool) (t : Fin n) (hs : step ap omp s t = some s') (hl : ∀ u,
    (s.thr u).pc = .locked → (s.thr u).todo ≠ []) : steps s' + 1 = steps s := by
  have hsum := fun v => sum_upd (fun a : Thread σ δ => match a with
    | ⟨.outside, l⟩ => 4 * l.length
    | ⟨.locked, l⟩ => 4 * l.length - 1
    | ⟨.loaded _, l⟩ => 4 * l.length - 2
    | ⟨.stored, l⟩ => 4 * l.length + 1) s.thr t v
  have hl := hl t
  unfold step at hs
  rcases ht : s.thr t with ⟨pc, l⟩
  rw [ht] at hs hl
  simp only [ht] at hsum
  unfold steps
  cases pc with
  | outside =>
    cases l with
    | nil => cases hs
    | cons d ds =>
      simp only [Option.map_eq_some_iff] at hs
      obtain ⟨m, -, rfl⟩ := hs
      have := hsum ⟨.locked, d :: ds⟩
      simp only [List.length_cons] at this ⊢
      omega
  | locked =>
    obtain rfl := Option.some.inj hs
    have := hsum ⟨.loaded s.x, l⟩
    have h0 := List.length_pos_iff.2 (hl rfl)
    simp only at this h0 ⊢
    omega
  | loaded v =>
    cases l with
    | nil => cases hs
    | cons d ds =>
      obtain rfl := Option.some.inj hs
      have := hsum ⟨.stored, ds⟩
      simp only [List.length_cons] at this ⊢
      omega
  | stored =>
    obtain rfl := Option.some.inj hs
    have := hsum ⟨.outside, l⟩
    simp only at this ⊢
    omega

theorem steps_run {x0 : σ} {prog : Fin n → List δ} (l : List (Fin n)) :
    ∀ {s s' : St n σ δ}, Inv ap x0 prog s → run ap true s l = some s' → steps s' + l.length = steps s := by
  induction l with
  | nil => intro s s' _ hr; obtain rfl := Option.some.inj hr; rfl
  | cons t l ih =>
    intro s s' h hr
    rw [run_cons] at hr
    obtain ⟨s1, h1, h2⟩ := Option.bind_eq_some_iff.1 hr
    have := ih (inv_step h t h1) h2
    have := steps_step true t h1 h.locked
    simp only [List.length_cons]
    omega

/-- **C128, all threads end.**  No interleaving has more than four steps for each change; together with `C128_progress`,
every interleaving that goes on while it can ends with all threads ended. -/
theorem C128_ends (x0 : σ) (prog : Fin n → List δ) (sched : List (Fin n)) (s : St n σ δ)
    (h : run ap true (start x0 prog) sched = some s) : sched.length ≤ ∑ t, 4 * (prog t).length := by
  have h1 := steps_run sched (inv_start x0 prog) h
  have h2 : steps (start x0 prog) = ∑ t, 4 * (prog t).length := rfl
  omega

/-- The interleaving in which both threads read before either writes. -/
def mixed : List (Fin 2) := [0, 0, 1, 1, 0, 1, 0, 1]

/-- **C128 is false of a library compiled without OpenMP**: there the mutex does nothing, and of two threads (of the
caller) adding one each, one change is lost. -/
theorem C128_no_openmp_false : ∃ (prog : Fin 2 → List Int) (sched : List (Fin 2)) (s : St 2 Int Int),
    run (· + ·) false (start 0 prog) sched = some s ∧ s.Ended ∧ s.x ≠ 0 + ∑ t, (prog t).sum := by
  refine ⟨fun _ => [1], mixed, _, rfl, ?_, ?_⟩
  · intro t
    fin_cases t <;> exact ⟨rfl, rfl⟩
  · decide

/-- With OpenMP the same interleaving does not exist, and one in which the threads take turns does. -/
example : run (· + ·) true (start (0 : Int) fun _ : Fin 2 => [(1 : Int)]) mixed = none := rfl

example : ∃ s : St 2 Int Int, run (· + ·) true (start 0 fun _ => [1]) [0, 0, 0, 0, 1, 1, 1, 1] = some s ∧ s.Ended ∧ s.x = 2 := by
  refine ⟨_, rfl, ?_, rfl⟩
  intro t
  fin_cases t <;> exact ⟨rfl, rfl⟩

end Sdp.Mutex
