import Verif.Plans.Props

/-! # C113: what fails, and examples -/

namespace Sdp.Plans

/-- Tables to try: even sizes. -/
def exT (even : Bool) : Tables Nat Nat where
  odd := fun _ => false
  even := fun _ => (even, even)
  uv := fun p => 100 + p
  w := fun p => 200 + p
  pattern := fun p => 300 + p
  coeff := fun p => 400 + p
  values := fun p n => 500 + p + 10 * n
  window := fun p => 600 + p
  inverse := fun p => 700 + p
  quad := fun p => 800 + p

/-- What the last call of a history reads, `none` for a fault. -/
def reads (T : Tables Nat Nat) (hist : History Nat) (c : Op Nat × Status × List Status) : Option (Status × List (Option Nat)) :=
  (run T (start 0 0) hist).bind fun s => (step T s c.1 c.2.1 c.2.2).map fun r => r.2

/-- Blocks left after a history. -/
def left (T : Tables Nat Nat) (hist : History Nat) : Option Nat := (run T (start 0 0) hist).map fun s => s.live.card

/-- Is there a handle? -/
def has (T : Tables Nat Nat) (hist : History Nat) (i : Nat) : Option Bool :=
  (run T (start 0 0) hist).map fun s => (s.handles[i]?).join.isSome

/-- A call in which nothing fails. -/
def ok (op : Op Nat) : Op Nat × Status × List Status := (op, .success, [])

/-- Handles of all kinds are made, used on the CPU and on the GPU, and freed in another order; a second spheroidal function is
generated in between. -/
def exHist : History Nat :=
  [ok (.make .tower true 1), ok (.make .pswf true 2), ok (.make .direct true 3), ok (.make .es true 4), ok (.make .fft true 5),
    ok (.use 0 true false 3), ok (.generate 1 8), ok (.values 1 true), ok (.use 0 false true 2), ok (.use 0 true true 1),
    ok (.coeff 1 true), ok (.generate 1 9), ok (.use 2 false false 0), ok (.use 3 true false 0), ok (.free 0), ok (.free 4),
    ok (.freeNull .tower)]

example : left (exT true) exHist = some 21 := by decide +kernel
example : left (exT true) (exHist ++ [ok (.free 1), ok (.free 2), ok (.free 3)]) = some 0 := by decide +kernel
example : reads (exT true) exHist (ok (.values 1 true)) = some (.success, [some 592]) := by decide +kernel
example : reads (exT true) exHist (ok (.use 3 true false 0)) = some (.success, [some 804, some 804, some 804, some 804]) := by
  decide +kernel
example : reads (exT true) (exHist.take 7) (ok (.use 0 true true 1)) = some (.success, [some 101, some 201, some 301]) := by
  decide +kernel
example : swiftlies exHist = 0 := by decide

/-- Checking that a history is calm. -/
def calmB (s : State Nat Nat) (c : Op Nat × Status × List Status) : Bool :=
  match c.1 with
  | .make k _ _ => c.2.2.all (· = .success) && (!(k = .tower || k = .direct) || c.2.1 = .success)
  | .use _ gpu _ _ => !gpu || (c.2.2.take 6).all (· = .success)
  | .coeff _ gpu => !gpu || (c.2.1 = .success && c.2.2.all (· = .success))
  | .values i gpu => (!gpu || (c.2.1 = .success && c.2.2.all (· = .success))) &&
      match s.handles[i]? with
      | some (some h) => h.kind ≠ .pswf || h.samples ≠ 0
      | _ => true
  | .generate _ _ => c.2.2.all (· = .success)
  | .free _ => true
  | .freeNull k => k ≠ .pswf

theorem calmB_ok {s : State Nat Nat} {c : Op Nat × Status × List Status} (h : calmB s c = true) : Calm s c := by
  obtain ⟨op, st, tape⟩ := c
  have quiet : ∀ l : List Status, l.all (· = .success) = true → Quiet l := fun l hl t ht => by
    have := List.all_eq_true.1 hl t ht
    simpa using this
  cases op with
  | make k g p =>
    simp only [calmB, Bool.and_eq_true, Bool.or_eq_true, Bool.not_eq_true', decide_eq_true_eq] at h
    refine ⟨quiet _ h.1, fun hk => ?_⟩
    rcases h.2 with h | h
    · rcases hk with rfl | rfl <;> simp at h
    · exact h
  | use i gpu grid planes =>
    intro hg
    subst hg
    simp only [calmB, Bool.not_true, Bool.false_or] at h
    exact quiet _ h
  | coeff i gpu =>
    intro hg
    subst hg
    simp only [calmB, Bool.not_true, Bool.false_or, Bool.and_eq_true, decide_eq_true_eq] at h
    exact ⟨h.1, quiet _ h.2⟩
  | values i gpu =>
    simp only [calmB, Bool.and_eq_true] at h
    refine ⟨fun hg => ?_, fun x hx hk => ?_⟩
    · subst hg
      simp only [Bool.not_true, Bool.false_or, Bool.and_eq_true, decide_eq_true_eq] at h
      exact ⟨h.1.1, quiet _ h.1.2⟩
    · have h2 := h.2
      rw [hx] at h2
      simpa [hk] using h2
  | generate i n => exact quiet _ h
  | free i => trivial
  | freeNull k => simpa [calmB, Calm] using h

/-- The same for a history. -/
def calmRunB (T : Tables Nat Nat) (s : State Nat Nat) : History Nat → Bool
  | [] => true
  | c :: cs => calmB s c &&
    match step T s c.1 c.2.1 c.2.2 with
    | some r => calmRunB T r.1 cs
    | none => true

theorem calmRunB_ok (T : Tables Nat Nat) (cs : History Nat) : ∀ s, calmRunB T s cs = true → CalmRun T s cs := by
  induction cs with
  | nil => exact fun _ _ => trivial
  | cons c cs ih =>
    intro s h
    simp only [calmRunB, Bool.and_eq_true] at h
    refine ⟨calmB_ok h.1, fun r hr => ih _ ?_⟩
    have := h.2
    rw [hr] at this
    exact this

example : CalmRun (exT true) (start 0 0) exHist := calmRunB_ok _ _ _ (by decide +kernel)
example : CalmRun (exT true) (start 0 0) (exHist ++ [ok (.make .swiftly true 6), ok (.use 5 false false 0)]) :=
  calmRunB_ok _ _ _ (by decide +kernel)

/-- Not all memory is released: a SwiFTly plan is made and freed without any failure and its structure stays allocated; a SwiFTly
plan that cannot be made for want of memory leaves the descriptor of an array. -/
theorem C113_released_false :
    (¬ ∀ (T : Tables Nat Nat) (hist : History Nat) (s : State Nat Nat), run T (start 0 0) hist = some s →
      (∀ x ∈ s.handles, x = none) → s.live = 0) ∧
    left (exT true) [ok (.make .swiftly true 1), ok (.free 0)] = some 1 ∧
    left (exT true) [(.make .swiftly true 1, .success, [.memAllocFailure])] = some 1 ∧
    has (exT true) [(.make .swiftly true 1, .success, [.memAllocFailure])] 0 = some false := by
  refine ⟨fun h => ?_, by decide +kernel, by decide +kernel, by decide +kernel⟩
  have hr : ((run (exT true) (start 0 0) [ok (.make .swiftly true 1), ok (.free 0)]).map fun s =>
      (s.handles.all Option.isNone, s.live.card)) = some (true, 1) := by decide +kernel
  rw [Option.map_eq_some_iff] at hr
  obtain ⟨s, hs, h1⟩ := hr
  have e1 := congrArg Prod.fst h1
  have e2 := congrArg Prod.snd h1
  simp only at e1 e2
  rw [h _ _ s hs (fun x hx => by simpa using List.all_eq_true.1 e1 x hx)] at e2
  simp at e2

/-- Calls can fault: `sdp_pswf_free` of a null pointer; making a spheroidal function, a direct gridder (also with an error already
set), an ES gridder or, with an even number of kernel columns, a w-tower gridder when there is no memory for an array; asking for
values on the GPU before they were generated. -/
theorem C113_faults_false :
    run (exT true) (start 0 0) [ok (.freeNull .pswf)] = none ∧
    run (exT true) (start 0 0) [(.make .pswf true 1, .success, [.memAllocFailure])] = none ∧
    run (exT true) (start 0 0) [(.make .direct true 1, .success, [.memAllocFailure])] = none ∧
    run (exT true) (start 0 0) [(.make .direct true 1, .invalidArgument, [])] = none ∧
    run (exT true) (start 0 0) [(.make .es true 1, .success, [.success, .success, .success, .memAllocFailure])] = none ∧
    run (exT true) (start 0 0) [(.make .tower true 1, .success, [.success, .memAllocFailure])] = none ∧
    run (exT true) (start 0 0) [ok (.make .pswf true 1), ok (.values 0 true)] = none := by
  have key : ∀ {α : Type} {o : Option α}, o.isNone = true → o = none := fun h => by simpa using h
  exact ⟨key (by decide +kernel), key (by decide +kernel), key (by decide +kernel), key (by decide +kernel), key (by decide +kernel),
    key (by decide +kernel), key (by decide +kernel)⟩

/-- A failure is remembered.  A w-tower call on the GPU runs out of memory and says so; the next call, with the status cleared and
nothing failing, faults, because the copies without data are kept.  If instead the last copy failed, the next call succeeds and
works with a table that was never filled.  `sdp_pswf_coeff` called once with an error set makes later calls fault. -/
theorem C113_tables_false :
    reads (exT true) [ok (.make .tower true 1)] (.use 0 true false 1, .success, [.memAllocFailure]) = some (.memAllocFailure, []) ∧
    reads (exT true) [ok (.make .tower true 1), (.use 0 true false 1, .success, [.memAllocFailure])] (ok (.use 0 true false 1)) = none ∧
    reads (exT true) [ok (.make .tower true 1),
      (.use 0 true false 1, .success, [.success, .success, .success, .success, .success, .memCopyFailure])]
      (ok (.use 0 true false 1)) = some (.success, [some 101, some 201, none]) ∧
    reads (exT true) [ok (.make .pswf true 1), (.coeff 0 true, .invalidArgument, [])] (ok (.coeff 0 true)) = none ∧
    reads (exT true) [ok (.make .pswf true 1)] (ok (.coeff 0 true)) = some (.success, [some 401]) := by
  refine ⟨by decide +kernel, by decide +kernel, by decide +kernel, by decide +kernel, by decide +kernel⟩

/-- A creation may report an error and still return a handle, which the caller has to free: a w-tower plan made with an error set,
and a transform whose arrays the back end refuses. -/
theorem C113_handle_and_error_false :
    has (exT true) [(.make .tower true 1, .invalidArgument, [])] 0 = some true ∧
    reads (exT true) [] (.make .fft true 1, .success, [.success, .invalidArgument]) = some (.invalidArgument, []) ∧
    has (exT true) [(.make .fft true 1, .success, [.success, .invalidArgument])] 0 = some true ∧
    left (exT true) [(.make .fft true 1, .success, [.success, .invalidArgument])] = some 3 := by
  refine ⟨by decide +kernel, by decide +kernel, by decide +kernel, by decide +kernel⟩

end Sdp.Plans
