import Verif.Plans.CalmRuns

/-! # C113: plan handles over any history of calls -/

namespace Sdp.Plans
variable {P V : Type} (T : Tables P V)

/-- A handle keeps its parameters and its kind whatever is called, on it or on others, and whatever fails: a call leaves a handle
as it was made, unless it is the call that frees it; a freed handle stays freed; and a handle just made has the parameters of
the call.  The number of values changes only with `sdp_pswf_generate` on the handle, and the w-planes of a w-tower plan are counted
exactly once for each call made without an error set, in the count that belongs to the call. -/
theorem C113_parameters (base : Multiset Nat) (n : Nat) (hist : History P) (s : State P V) (h : run T (start base n) hist = some s)
    (op : Op P) (st : Status) (tape : List Status) (r : State P V × Status × List (Option V)) (hr : step T s op st tape = some r) :
    (∀ (i : Nat) (x : Handle P V), s.handles[i]? = some (some x) →
      r.1.handles[i]? = some none ∧ op = .free i ∨
      ∃ y, r.1.handles[i]? = some (some y) ∧ y.par = x.par ∧ y.kind = x.kind ∧
        ((∀ n, op ≠ .generate i n) → y.samples = x.samples) ∧
        (x.kind = .tower → y.planes = x.planes + counted op st i)) ∧
    (∀ i : Nat, s.handles[i]? = some none → r.1.handles[i]? = some none) ∧
    ∀ k good p, op = .make k good p → ∀ x : Handle P V, r.1.handles[s.handles.length]? = some (some x) →
      x.par = p ∧ x.kind = k ∧ x.samples = 0 ∧ x.planes = (0, 0) := by
  obtain ⟨n1, n2⟩ := (step_inv T (run_inv T (inv_start base n) h) hr).2
  refine ⟨fun i x hx => ?_, fun i hx => ?_, ?_⟩
  · obtain ⟨x', h1, h2⟩ := n1 i _ hx
    rcases h2 with ⟨h2, h3⟩ | ⟨y, h2, h3⟩
    · exact Or.inl ⟨by rw [h1, h2], h3⟩
    · exact Or.inr ⟨y, by rw [h1, h2], h3⟩
  · obtain ⟨x', h1, h2⟩ := n1 i _ hx
    rw [h1]
    exact congrArg some h2
  · rintro k good p rfl x hx
    exact n2.2 x hx

/-- Over any further history a handle is either freed or still has its parameters and kind. -/
theorem C113_lifetime (base : Multiset Nat) (n : Nat) (hist more : History P) (s s' : State P V)
    (h : run T (start base n) hist = some s) (h' : run T s more = some s') (i : Nat) (x : Handle P V)
    (hx : s.handles[i]? = some (some x)) :
    s'.handles[i]? = some none ∨ ∃ y, s'.handles[i]? = some (some y) ∧ y.par = x.par ∧ y.kind = x.kind := by
  have hi := run_inv T (inv_start base n) h
  generalize 0 + swiftlies hist = u at hi
  clear h
  have key : ∀ (more : History P) (u : Nat) (s : State P V), Inv base u s → run T s more = some s' →
      (s.handles[i]? = some none → s'.handles[i]? = some none) ∧
      ∀ x, s.handles[i]? = some (some x) →
        s'.handles[i]? = some none ∨ ∃ y, s'.handles[i]? = some (some y) ∧ y.par = x.par ∧ y.kind = x.kind := by
    intro more
    induction more with
    | nil =>
      intro u s hi h
      simp only [run] at h
      rw [← Option.some.inj h]
      exact ⟨id, fun x hx => Or.inr ⟨x, hx, rfl, rfl⟩⟩
    | cons c cs ih =>
      intro u s hi h
      simp only [run, Option.bind_eq_some_iff] at h
      obtain ⟨r, hr, h⟩ := h
      obtain ⟨i1, n1, -⟩ := step_inv T hi hr
      obtain ⟨k1, k2⟩ := ih _ r.1 i1 h
      constructor
      · intro hx
        obtain ⟨z, z1, z2⟩ := n1 i _ hx
        rw [show z = none from z2] at z1
        exact k1 z1
      · intro x hx
        obtain ⟨z, z1, z2⟩ := n1 i _ hx
        rcases z2 with ⟨z2, -⟩ | ⟨y, z2, z3, z4, -⟩
        · rw [z2] at z1
          exact Or.inl (k1 z1)
        · rw [z2] at z1
          rcases k2 y z1 with h | ⟨w, w1, w2, w3⟩
          · exact Or.inl h
          · exact Or.inr ⟨w, w1, by rw [w2, z3], by rw [w3, z4]⟩
  exact (key more u s hi h').2 x hx

/-- Account of the memory: after any history, with any failures, what is allocated is what was allocated before, what the handles
hold, and at most one block for each SwiFTly plan that was to be made. -/
theorem C113_account (base : Multiset Nat) (n : Nat) (hist : History P) (s : State P V) (h : run T (start base n) hist = some s) :
    ∃ lost, s.live = base + total s.handles + lost ∧ lost.card ≤ swiftlies hist := by
  obtain ⟨lost, h1, h2⟩ := (run_inv T (inv_start base n) h).acc
  exact ⟨lost, h1, by omega⟩

/-- Without SwiFTly plans nothing is lost: once all handles are freed, what is allocated is what was allocated before.  Missing:
SwiFTly plans, which lose a block each (`C113_released_false`). -/
theorem C113_released_partial (base : Multiset Nat) (n : Nat) (hist : History P) (s : State P V)
    (h : run T (start base n) hist = some s) (hn : swiftlies hist = 0) (hf : ∀ x ∈ s.handles, x = none) : s.live = base := by
  obtain ⟨lost, h1, h2⟩ := C113_account T base n hist s h
  rw [hn, Nat.le_zero, Multiset.card_eq_zero] at h2
  have : total s.handles = 0 := by
    unfold total
    rw [List.map_congr_left (g := fun _ => 0) (fun x hx => by rw [hf x hx]; rfl)]
    simp
  rw [h1, h2, this]
  simp

/-- A handle can be freed after any history, with an error set or not: the call returns, leaves `*status` and the other handles
alone, and releases exactly the blocks of the handle, but for one of a SwiFTly plan. -/
theorem C113_free (base : Multiset Nat) (n : Nat) (hist : History P) (s : State P V) (h : run T (start base n) hist = some s)
    (i : Nat) (x : Handle P V) (hx : s.handles[i]? = some (some x)) (st : Status) (tape : List Status) :
    ∃ rest lost, s.live = x.owned + rest ∧ lost.card = (if x.kind = .swiftly then 1 else 0) ∧
      step T s (.free i) st tape = some (⟨s.handles.set i none, rest + lost, s.next⟩, st, []) := by
  obtain ⟨r, hr⟩ := (run_inv T (inv_start base n) h).at hx
  obtain ⟨lost, f1, f2⟩ := freeHandle_acc (e := ⟨st, tape, s.live, s.next⟩) hr
  refine ⟨r, lost, hr, ?_, ?_⟩
  · rw [f2]
    cases x <;> rfl
  · unfold step
    simp only [hx]
    rw [f1]
    rfl

/-- In a calm history no call faults, and every call that uses a handle and succeeds reads exactly the tables that belong to the
parameters of the handle, on the CPU and on the GPU, whichever calls came before; a call that fails reads nothing.  Missing:
other histories (`C113_tables_false` and `C113_faults_false`). -/
theorem C113_tables_partial (base : Multiset Nat) (n : Nat) (hist : History P) (hc : CalmRun T (start base n) hist) :
    ∃ s, run T (start base n) hist = some s ∧ ∀ c, Calm s c →
      ∃ s' st' l, step T s c.1 c.2.1 c.2.2 = some (s', st', l) ∧
        l = if st' = .success then (found T s c.1).map some else [] := by
  obtain ⟨s, h1, h2, h3⟩ := calm_run T (inv_start base n) (fun h hh => by simp [start] at hh) hc
  refine ⟨s, h1, fun c hcc => ?_⟩
  obtain ⟨r, r1, -, r3⟩ := calm_step T h2 h3 hcc
  refine ⟨r.1, r.2.1, r.2.2, r1, ?_⟩
  unfold Read at r3
  split at r3
  · next h => rw [if_pos h]; exact r3
  · next h => rw [if_neg h]; exact r3

/-- After `sdp_pswf_generate` with size `m` has succeeded in a calm history there are `m` values. -/
theorem C113_generated (base : Multiset Nat) (n : Nat) (hist : History P) (hc : CalmRun T (start base n) hist) (s : State P V)
    (h : run T (start base n) hist = some s) (i m : Nat) (x : Handle P V) (hx : s.handles[i]? = some (some x)) (hk : x.kind = .pswf)
    (hm : m ≠ 0) (tape : List Status) (ht : Quiet tape) :
    ∃ s' y, step T s (.generate i m) .success tape = some (s', .success, []) ∧ s'.handles[i]? = some (some y) ∧ y.samples = m := by
  obtain ⟨s', h1, h2, h3⟩ := calm_run T (inv_start base n) (fun h hh => by simp [start] at hh) hc
  rw [h] at h1
  obtain rfl := Option.some.inj h1
  cases x with
  | pswf p =>
    obtain ⟨r0, hr0⟩ := h2.at hx
    obtain ⟨a, a0, a1, a2⟩ := pswfGenerate_good (n := m) (e := ⟨.success, tape, s.live, s.next⟩) T hr0
      (h3 _ (List.mem_of_getElem? hx)) ht
    obtain ⟨b1, b2⟩ := a2 rfl hm
    refine ⟨⟨s.handles.set i (some (.pswf a.1)), a.2.live, a.2.next⟩, .pswf a.1, ?_, ?_, b1⟩
    · unfold step
      simp only [hx]
      rw [a0, Option.bind_some, b2]
    · simp [(List.getElem?_eq_some_iff.1 hx).1]
  | _ => cases hk

end Sdp.Plans
