import Verif.Temps.Check
import Verif.Temps.Play

/-!
# C114: what calls do with the memory that they allocate for themselves

`script` gives for each function that allocates memory for the time of a call (or, `sdp_mem_convert_precision`, to return it) what
it does with that memory; `Exec (script f) s e t` says that a call made in state `s` can end as `e` in state `t`.  All of them are
the executions: any allocation can fail, any check or computation can report an error, branches go either way, loops run any
number of times.
-/

namespace Sdp.Temps

/-- The call comes back to its caller. -/
def Back (e : Exit) : Prop := e = .next ∨ e = .ret

/-- Undefined behaviour. -/
def Undefined (e : Exit) : Prop := e = .fault ∨ e = .crash

/-- The functions that keep memory when they come back with an error, or (the last) always. -/
def keeps : List Fn := [.finishInplace, .finishSubgrid, .finishInplace2d, .esGrid, .esDegrid, .countTiles true]

/-- The functions that go to memory without knowing that it was allocated. -/
def careless : List Fn :=
  [.fftConvolution false, .hogbom false, .hogbom true, .msClean, .makePswfKernel, .sumDiff true, .wstackDegrid true,
    .wstackGrid true, .countTiles true, .briggs true, .convertPrecision false, .convertPrecision true]

theorem rel_start (s : St) : Rel ⟨[], [], [], []⟩ s s.live := by
  refine ⟨List.nodup_nil, by simp, ?_, ?_, ?_⟩ <;> simp

/-- The analysis of a function. -/
def analysis (m : Mode) (f : Fn) : Option (List (Exit × Know)) := check m (script f) ⟨[], [], [], []⟩

/-- At the end only what is returned is left. -/
def clean (f : Fn) (l : List (Exit × Know)) : Bool := l.all fun r => decide (r.1 = .halt ∨ r.2.own = returns f)

theorem clean_spec {m : Mode} {f : Fn} (hc : (analysis m f).any (clean f) = true) {s t : St} {e : Exit}
    (h : Exec (script f) s e t) (he : Back e) (hm : m = .lax → t.ok = true) :
    t.live = s.live + ((returns f).map fun x => held (t.vars x)).sum := by
  unfold analysis at hc
  cases ha : check m (script f) ⟨[], [], [], []⟩ with
  | none => rw [ha] at hc; cases hc
  | some l =>
    rw [ha] at hc
    have hc' : clean f l = true := hc
    have he' : e ≠ .fault ∧ e ≠ .crash ∧ e ≠ .halt := by rcases he with rfl | rfl <;> decide
    rcases (sound m h ha (rel_start s)).2.2 he'.1 he'.2.1 with ⟨k, k1, k2⟩ | ⟨h1, h2⟩
    · have := of_decide_eq_true (List.all_eq_true.1 hc' _ k1)
      rcases this with h3 | h3
      · exact absurd h3 he'.2.2
      · rw [← h3]
        exact k2.live
    · rw [hm h1] at h2
      cases h2

/-- Memory is released: when the call comes back, with or without an error, what was allocated before is still allocated and
nothing else, except what the function returns.  Missing: the functions of `keeps` (see `C114_released_false` and
`C114_count_tiles_false`). -/
theorem C114_released_partial (f : Fn) (hf : f ∉ keeps) {s t : St} {e : Exit} (h : Exec (script f) s e t) (he : Back e) :
    t.live = s.live + ((returns f).map fun x => held (t.vars x)).sum := by
  refine clean_spec (m := .tidy) ?_ h he (fun h => by cases h)
  revert hf
  cases f with
  | fftConvolution b => cases b <;> decide +kernel
  | hogbom b => cases b <;> decide +kernel
  | gridCorrect b => cases b <;> decide +kernel
  | residual b c => cases b <;> cases c <;> decide +kernel
  | rmsDiff b c => cases b <;> cases c <;> decide +kernel
  | sumDiff b => cases b <;> decide +kernel
  | bounds b => cases b <;> decide +kernel
  | towerDegrid b => cases b <;> decide +kernel
  | towerGrid b => cases b <;> decide +kernel
  | wstackDegrid b => cases b <;> decide +kernel
  | wstackGrid b => cases b <;> decide +kernel
  | countTiles b => cases b <;> decide +kernel
  | briggs b => cases b <;> decide +kernel
  | convertPrecision b => cases b <;> decide +kernel
  | _ => decide +kernel

/-- All but one of the functions release it when they come back without an error. -/
theorem C114_success_partial (f : Fn) (hf : f ≠ .countTiles true) {s t : St} {e : Exit} (h : Exec (script f) s e t) (he : Back e)
    (ht : t.ok = true) : t.live = s.live + ((returns f).map fun x => held (t.vars x)).sum := by
  by_cases hk : f ∈ keeps
  · refine clean_spec (m := .lax) ?_ h he (fun _ => ht)
    revert hk hf
    cases f with
    | fftConvolution b => cases b <;> decide +kernel
    | hogbom b => cases b <;> decide +kernel
    | gridCorrect b => cases b <;> decide +kernel
    | residual b c => cases b <;> cases c <;> decide +kernel
    | rmsDiff b c => cases b <;> cases c <;> decide +kernel
    | sumDiff b => cases b <;> decide +kernel
    | bounds b => cases b <;> decide +kernel
    | towerDegrid b => cases b <;> decide +kernel
    | towerGrid b => cases b <;> decide +kernel
    | wstackDegrid b => cases b <;> decide +kernel
    | wstackGrid b => cases b <;> decide +kernel
    | countTiles b => cases b <;> decide +kernel
    | briggs b => cases b <;> decide +kernel
    | convertPrecision b => cases b <;> decide +kernel
    | _ => decide +kernel
  · exact C114_released_partial f hk h he

/-- Five functions keep memory only if its allocation has set an error: once they have passed the test that follows the allocation
(`finishTail`, `esGridTail` and `esDegridTail` are what comes after that test), the memory is released whatever fails later. -/
theorem C114_kept_only_then {p : Prog} (hp : p ∈ [finishTail 0, esGridTail 0, esDegridTail 0]) {s t : St} {e : Exit}
    {i : Item} {others : Multiset Nat} (hi : s.vars 0 = some i) (hu : i.usable = true) (hd : ∀ d, i.data = some d → d ∈ i.blocks)
    (hl : s.live = others + i.blocks) (h : Exec p s e t) (he : Back e) : t.live = others := by
  have hf : Fine s (0, 0) := ⟨i, hi, hu, fun d hd' => ⟨i, hi, hd d hd'⟩⟩
  have hr : Rel ⟨[0], [0], [(0, 0)], [(0, 0)]⟩ s others := by
    refine ⟨by simp, ?_, ?_, ?_, ?_⟩
    · rw [hl]; simp [hi, held]
    · intro x hx; simp at hx; subst hx; simp [hi]
    · intro q hq; simp at hq; subst hq; simp [hf]
    · intro q hq; simp at hq; subst hq; simp [hf]
  have hc : (check .tidy p ⟨[0], [0], [(0, 0)], [(0, 0)]⟩).any
      (fun l => l.all fun r => decide (r.1 = .halt ∨ r.2.own = [])) = true := by
    simp only [List.mem_cons, List.not_mem_nil, or_false] at hp
    rcases hp with rfl | rfl | rfl <;> decide +kernel
  cases ha : check .tidy p ⟨[0], [0], [(0, 0)], [(0, 0)]⟩ with
  | none => rw [ha] at hc; cases hc
  | some l =>
    rw [ha] at hc
    have he' : e ≠ .fault ∧ e ≠ .crash ∧ e ≠ .halt := by rcases he with rfl | rfl <;> decide
    rcases (sound .tidy h ha hr).2.2 he'.1 he'.2.1 with ⟨k, k1, k2⟩ | ⟨h1, _⟩
    · rcases of_decide_eq_true (List.all_eq_true.1 hc _ k1) with h3 | h3
      · exact absurd h3 he'.2.2
      · rw [k2.live, h3]; simp
    · cases h1

theorem analysed (f : Fn) : (analysis .tidy f).isSome = true := by
  cases f with
  | fftConvolution b => cases b <;> decide +kernel
  | hogbom b => cases b <;> decide +kernel
  | gridCorrect b => cases b <;> decide +kernel
  | residual b c => cases b <;> cases c <;> decide +kernel
  | rmsDiff b c => cases b <;> cases c <;> decide +kernel
  | sumDiff b => cases b <;> decide +kernel
  | bounds b => cases b <;> decide +kernel
  | towerDegrid b => cases b <;> decide +kernel
  | towerGrid b => cases b <;> decide +kernel
  | wstackDegrid b => cases b <;> decide +kernel
  | wstackGrid b => cases b <;> decide +kernel
  | countTiles b => cases b <;> decide +kernel
  | briggs b => cases b <;> decide +kernel
  | convertPrecision b => cases b <;> decide +kernel
  | _ => decide +kernel

/-- Undefined behaviour comes only after an error: a call in which nothing fails never touches memory that is not there and
releases nothing twice. -/
theorem C114_undefined_after_errors (f : Fn) {s t : St} {e : Exit} (h : Exec (script f) s e t) (he : Undefined e) :
    t.ok = false := by
  obtain ⟨l, hl⟩ := Option.isSome_iff_exists.1 (analysed f)
  have := sound .tidy h hl (rel_start s)
  rcases he with rfl | rfl
  · exact (this.1 rfl).2
  · exact this.2.1 rfl

/-- The functions that look before they access memory never go wrong, whatever fails; the exit `crash` stands for what happens
when `sdp_pswf_create` has no memory for its coefficients.  Missing: the functions of `careless` (see `C114_no_fault_false`). -/
theorem C114_no_fault_partial (f : Fn) (hf : f ∉ careless) {s t : St} : ¬ Exec (script f) s .fault t := by
  have ha : (analysis .safe f).isSome = true := by
    revert hf
    cases f with
    | fftConvolution b => cases b <;> decide +kernel
    | hogbom b => cases b <;> decide +kernel
    | gridCorrect b => cases b <;> decide +kernel
    | residual b c => cases b <;> cases c <;> decide +kernel
    | rmsDiff b c => cases b <;> cases c <;> decide +kernel
    | sumDiff b => cases b <;> decide +kernel
    | bounds b => cases b <;> decide +kernel
    | towerDegrid b => cases b <;> decide +kernel
    | towerGrid b => cases b <;> decide +kernel
    | wstackDegrid b => cases b <;> decide +kernel
    | wstackGrid b => cases b <;> decide +kernel
    | countTiles b => cases b <;> decide +kernel
    | briggs b => cases b <;> decide +kernel
    | convertPrecision b => cases b <;> decide +kernel
    | _ => decide +kernel
  intro h
  obtain ⟨l, hl⟩ := Option.isSome_iff_exists.1 ha
  exact ((sound .safe h hl (rel_start s)).1 rfl).1 rfl

/-- The functions that can end the process. -/
def stops (f : Fn) (l : List (Exit × Know)) : Bool :=
  l.all fun r => decide (r.1 = .next ∨ r.1 = .ret ∨
    r.1 = .halt ∧ f ∈ [.wstackDegrid false, .wstackDegrid true, .wstackGrid false, .wstackGrid true])

/-- Only the calls of w-stacking can end the process; every other call comes back, unless its behaviour is undefined. -/
theorem C114_comes_back (f : Fn) {s t : St} {e : Exit} (h : Exec (script f) s e t) :
    Back e ∨ Undefined e ∨
      e = .halt ∧ f ∈ [.wstackDegrid false, .wstackDegrid true, .wstackGrid false, .wstackGrid true] := by
  have ha : (analysis .tidy f).any (stops f) = true := by
    cases f with
    | fftConvolution b => cases b <;> decide +kernel
    | hogbom b => cases b <;> decide +kernel
    | gridCorrect b => cases b <;> decide +kernel
    | residual b c => cases b <;> cases c <;> decide +kernel
    | rmsDiff b c => cases b <;> cases c <;> decide +kernel
    | sumDiff b => cases b <;> decide +kernel
    | bounds b => cases b <;> decide +kernel
    | towerDegrid b => cases b <;> decide +kernel
    | towerGrid b => cases b <;> decide +kernel
    | wstackDegrid b => cases b <;> decide +kernel
    | wstackGrid b => cases b <;> decide +kernel
    | countTiles b => cases b <;> decide +kernel
    | briggs b => cases b <;> decide +kernel
    | convertPrecision b => cases b <;> decide +kernel
    | _ => decide +kernel
  obtain ⟨l, hl⟩ := Option.isSome_iff_exists.1 (analysed f)
  rw [hl] at ha
  have ha' : stops f l = true := ha
  by_cases h1 : e = .fault
  · exact Or.inr (Or.inl (Or.inl h1))
  by_cases h2 : e = .crash
  · exact Or.inr (Or.inl (Or.inr h2))
  rcases (sound .tidy h hl (rel_start s)).2.2 h1 h2 with ⟨k, k1, _⟩ | ⟨h3, _⟩
  · have := of_decide_eq_true (List.all_eq_true.1 ha' _ k1)
    rcases this with h4 | h4 | h4
    · exact Or.inl (Or.inl h4)
    · exact Or.inl (Or.inr h4)
    · exact Or.inr (Or.inr h4)
  · cases h3

/-- An error is never taken back. -/
theorem C114_errors_stay (f : Fn) {s t : St} {e : Exit} (h : Exec (script f) s e t) (hs : s.ok = false) : t.ok = false :=
  h.error hs

/-- Is it seen at once that the program does nothing after an error? -/
def idle : Prog → Bool
  | .fn a => idle a
  | .seq (.ifErr .ret) _ => true
  | .seq (.seq (.call _) (.seq (.ifErr .ret) _)) _ => true
  | _ => false

theorem error_ret {s t : St} {e : Exit} (hs : s.ok = false) (h : Exec (.ifErr .ret) s e t) : t = s ∧ e = .ret := by
  cases h with
  | ifErr _ h => cases h; exact ⟨rfl, rfl⟩
  | ifErrNot h => rw [hs] at h; cases h

theorem error_call {s t : St} {e : Exit} {l : List Nat} (hs : s.ok = false) (h : Exec (.call l) s e t) : t = s ∧ e = .next := by
  cases h with
  | callErr _ => exact ⟨rfl, rfl⟩
  | call h => rw [hs] at h; cases h
  | callFault h => rw [hs] at h; cases h

theorem idle_spec : ∀ {p : Prog}, idle p = true → ∀ {s t : St} {e : Exit}, Exec p s e t → s.ok = false → t = s ∧ Back e := by
  intro p
  induction p with
  | fn a ih =>
    intro hi s t e h hs
    cases h with
    | fnNext h => exact ⟨(ih hi h hs).1, Or.inl rfl⟩
    | fnRet h => exact ⟨(ih hi h hs).1, Or.inl rfl⟩
    | fnExit h1 h2 h => rcases (ih hi h hs).2 with h3 | h3; exacts [absurd h3 h1, absurd h3 h2]
  | seq a b _ _ =>
    intro hi s t e h hs
    match a, hi with
    | .ifErr .ret, _ =>
      cases h with
      | seq h _ => exact absurd (error_ret hs h).2 (by decide)
      | cut _ h => exact ⟨(error_ret hs h).1, Or.inr (error_ret hs h).2⟩
    | .seq (.call l) (.seq (.ifErr .ret) c), _ =>
      have key : ∀ {u e'}, Exec (.seq (.call l) (.seq (.ifErr .ret) c)) s e' u → u = s ∧ e' = .ret := by
        intro u e' h
        cases h with
        | seq h1 h2 =>
          obtain ⟨rfl, _⟩ := error_call hs h1
          cases h2 with
          | seq h _ => exact absurd (error_ret hs h).2 (by decide)
          | cut _ h => exact error_ret hs h
        | cut h1 h2 => exact absurd (error_call hs h2).2 h1
      cases h with
      | seq h _ => exact absurd (key h).2 (by decide)
      | cut _ h => exact ⟨(key h).1, Or.inr (key h).2⟩
  | _ => intro hi; cases hi

/-- After an error these functions do nothing at all. -/
theorem C114_nothing_after_error_partial (f : Fn) (hf : f ∉ [.countTiles false, .countTiles true, .convertPrecision false,
    .convertPrecision true]) {s t : St} {e : Exit} (h : Exec (script f) s e t) (hs : s.ok = false) : t = s ∧ Back e := by
  refine idle_spec ?_ h hs
  revert hf
  cases f with
  | countTiles b => cases b <;> decide
  | convertPrecision b => cases b <;> decide
  | _ => intro _; rfl

/-! ## Examples: every function has an execution without errors -/

theorem C114_runs (f : Fn) : ∃ e t, Exec (script f) start e t ∧ Back e ∧ t.ok = true := by
  have ho : ∃ e same, outcome (script f) [] = some (e, true, same) ∧ (e = .next ∨ e = .ret) := by
    have key : (outcome (script f) []).any (fun r => decide (r.1 = .next ∨ r.1 = .ret) && r.2.1) = true := by
      cases f with
      | fftConvolution b => cases b <;> decide +kernel
      | hogbom b => cases b <;> decide +kernel
      | gridCorrect b => cases b <;> decide +kernel
      | residual b c => cases b <;> cases c <;> decide +kernel
      | rmsDiff b c => cases b <;> cases c <;> decide +kernel
      | sumDiff b => cases b <;> decide +kernel
      | bounds b => cases b <;> decide +kernel
      | towerDegrid b => cases b <;> decide +kernel
      | towerGrid b => cases b <;> decide +kernel
      | wstackDegrid b => cases b <;> decide +kernel
      | wstackGrid b => cases b <;> decide +kernel
      | countTiles b => cases b <;> decide +kernel
      | briggs b => cases b <;> decide +kernel
      | convertPrecision b => cases b <;> decide +kernel
      | _ => decide +kernel
    cases h : outcome (script f) [] with
    | none => rw [h] at key; cases key
    | some r =>
      rw [h] at key
      have key' : (decide (r.1 = .next ∨ r.1 = .ret) && r.2.1) = true := key
      rw [Bool.and_eq_true, decide_eq_true_eq] at key'
      exact ⟨r.1, r.2.2, by rw [← key'.2], key'.1⟩
  obtain ⟨e, same, h1, h2⟩ := ho
  obtain ⟨t, h3, h4, _⟩ := outcome_spec h1
  exact ⟨e, t, h3, h2, h4⟩

/-- Degridding of a subgrid with three planes in the stack and two w-planes; the second computation fails and it comes back. -/
example : outcome (script (.towerDegrid true)) [true, true, true, true, true, true, true, true, true, true, true, true, true,
    true, true, true, true, true, true, true, true, true, false] = some (.next, false, true) := by decide +kernel

/-- CLEAN with two components. -/
example : outcome (script (.hogbom false)) ([true, true] ++ [true, true, true, true] ++ [true, false, true, false, false]) =
    some (.next, true, true) := by decide +kernel

end Sdp.Temps
