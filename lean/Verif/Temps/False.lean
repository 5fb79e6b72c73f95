import Verif.Temps.Props

/-!
# C114: where it is false
-/

namespace Sdp.Temps

theorem left_over {p : Prog} {l : List Bool} {ok : Bool} (h : outcome p l = some (.ret, ok, false)) :
    ∃ t, Exec p start .ret t ∧ t.ok = ok ∧ t.live ≠ start.live := by
  obtain ⟨t, h1, h2, h3⟩ := outcome_spec h
  exact ⟨t, h1, h2, fun e => by cases h3.1 e⟩

/-- When there is no memory for the data, the descriptor is kept; when a transform cannot be planned, what was made of the plan
is kept. -/
theorem C114_released_false : ∀ f ∈ [Fn.finishInplace, .finishSubgrid, .finishInplace2d, .esGrid, .esDegrid],
    ∃ t, Exec (script f) start .ret t ∧ t.ok = false ∧ t.live ≠ start.live := by
  intro f hf
  simp only [List.mem_cons, List.not_mem_nil, or_false] at hf
  rcases hf with rfl | rfl | rfl | rfl | rfl
  · exact left_over (l := [true, false, false]) (by decide +kernel)
  · exact left_over (l := [true, false]) (by decide +kernel)
  · exact left_over (l := [true, false]) (by decide +kernel)
  · exact left_over (l := [true, true, false]) (by decide +kernel)
  · exact left_over (l := [true, true, false]) (by decide +kernel)

/-- `sdp_count_and_prefix_sum` on the GPU always keeps memory when it comes back. -/
theorem C114_count_tiles_false {s t : St} {e : Exit} (h : Exec (script (.countTiles true)) s e t) (he : Back e) :
    t.live ≠ s.live := by
  have ha : (analysis .tidy (.countTiles true)).any (fun l => l.all fun r => decide (r.2.own = [1, 0] ∧ r.2.here = [1, 0])) =
      true := by decide +kernel
  obtain ⟨l, hl⟩ := Option.isSome_iff_exists.1 (analysed (.countTiles true))
  rw [hl] at ha
  have he' : e ≠ .fault ∧ e ≠ .crash := by rcases he with rfl | rfl <;> decide
  rcases (sound .tidy h hl (rel_start s)).2.2 he'.1 he'.2 with ⟨k, k1, k2⟩ | ⟨h1, _⟩
  · obtain ⟨h2, h3⟩ := of_decide_eq_true (List.all_eq_true.1 (show (l.all fun r => decide (r.2.own = [1, 0] ∧ r.2.here = [1, 0])) =
      true from ha) _ k1)
    have hv := (k2.here 0 (by rw [h3]; simp)).2
    have hl := k2.live
    rw [h2] at hl
    intro hs
    rw [hs] at hl
    have hz : ([1, 0].map fun x => held (t.vars x)).sum = 0 := by
      have := hl.symm
      simpa using this
    simp only [List.map_cons, List.map_nil, List.sum_cons, List.sum_nil, add_zero] at hz
    cases hi : t.vars 0 with
    | none => exact hv hi
    | some i =>
      have hc := congrArg Multiset.card hz
      rw [Multiset.card_add, hi] at hc
      simp [held, Item.blocks] at hc
  · cases h1

/-- It can come back without an error. -/
theorem C114_count_tiles_success_false : ∃ t, Exec (script (.countTiles true)) start .next t ∧ t.ok = true ∧
    t.live ≠ start.live := by
  obtain ⟨t, h1, h2, h3⟩ := outcome_spec (p := script (.countTiles true)) (l := []) (e := .next) (ok := true) (same := false)
    (by decide +kernel)
  exact ⟨t, h1, h2, fun e => by cases h3.1 e⟩

theorem goes_wrong {p : Prog} {l : List Bool} {same : Bool} (h : outcome p l = some (.fault, false, same)) :
    ∃ t, Exec p start .fault t := by
  obtain ⟨t, h1, _⟩ := outcome_spec h
  exact ⟨t, h1⟩

/-- The functions of `careless` go to memory that is not there when an allocation fails (or, those for the GPU, when they have
refused the data types). -/
theorem C114_no_fault_false : ∀ f ∈ careless, ∃ t, Exec (script f) start .fault t := by
  intro f hf
  simp only [careless, List.mem_cons, List.not_mem_nil, or_false] at hf
  rcases hf with rfl | rfl | rfl | rfl | rfl | rfl | rfl | rfl | rfl | rfl | rfl | rfl
  · exact goes_wrong (same := false) (l := [true, false]) (by decide +kernel)
  · exact goes_wrong (same := false) (l := [true, true, false]) (by decide +kernel)
  · exact goes_wrong (same := false) (l := [true, true, true, false, true, false, false]) (by decide +kernel)
  · exact goes_wrong (same := false) (l := [true, true, false]) (by decide +kernel)
  · exact goes_wrong (same := false) (l := [true, false, false]) (by decide +kernel)
  · exact goes_wrong (same := false) (l := [true, true, false]) (by decide +kernel)
  · exact goes_wrong (same := false) (l := List.replicate 24 true ++ [false]) (by decide +kernel)
  · exact goes_wrong (same := false) (l := List.replicate 24 true ++ [false]) (by decide +kernel)
  · exact goes_wrong (same := false) (l := [true, false]) (by decide +kernel)
  · exact goes_wrong (same := false) (l := [true, false]) (by decide +kernel)
  · exact goes_wrong (same := false) (l := [true, true, false]) (by decide +kernel)
  · exact goes_wrong (same := false) (l := [true, true, true, true, false]) (by decide +kernel)

/-- `sdp_count_and_prefix_sum` goes wrong after every earlier error. -/
theorem C114_nothing_after_error_false {s t : St} {e : Exit} (hs : s.ok = false)
    (h : Exec (script (.countTiles true)) s e t) : e = .fault := by
  have key : ∀ {x : Nat} {s t : St} {e : Exit}, s.ok = false →
      Exec (.seq (.make x) (.seq (.call [x]) .nop)) s e t → e = .next ∧ t = s.put x 0 none false := by
    intro x s t e hs h
    cases h with
    | seq h1 h2 =>
      cases h1 with
      | makeErr _ =>
        cases h2 with
        | seq h2 h3 =>
          cases h3
          exact ⟨rfl, (error_call (s := s.put x 0 none false) hs h2).1⟩
        | cut h2 h3 => exact absurd (error_call (s := s.put x 0 none false) hs h3).2 h2
      | make h => rw [hs] at h; cases h
      | makeEmpty h => rw [hs] at h; cases h
      | makeFail h => rw [hs] at h; cases h
    | cut h1 h2 => cases h2 <;> exact absurd rfl h1
  have wrong : ∀ {s t : St} {e : Exit}, Exec (.touch [0]) (s.put 0 0 none false) e t → e = .fault := by
    intro s t e h
    cases h with
    | touch h =>
      obtain ⟨i, i1, i2, _⟩ := h 0 (by simp)
      rw [show (s.put 0 0 none false).vars 0 = some (s.fresh 0 none false) from set_self] at i1
      obtain rfl := Option.some.inj i1
      cases i2
    | touchFault _ => rfl
  have h' : Exec (.seq (.call []) (.seq (.seq (.call []) (.seq (.seq (.make 0) (.seq (.call [0]) .nop)) (.seq (.touch [0])
    (sq [copy 1 [], .touch [1]])))) .nop)) s e t := h
  cases h' with
  | cut h1 h2 => exact absurd (error_call hs h2).2 h1
  | seq h1 h2 =>
    obtain ⟨rfl, _⟩ := error_call hs h1
    have fin : ∀ {s u : St} {e' : Exit}, s.ok = false → Exec (.seq (.call []) (.seq (.seq (.make 0) (.seq (.call [0]) .nop)) (.seq (.touch [0])
        (sq [copy 1 [], .touch [1]])))) s e' u → e' = .fault := by
      intro s u e' hs h
      cases h with
      | cut h1 h2 => exact absurd (error_call hs h2).2 h1
      | seq h1 h2 =>
        obtain ⟨rfl, _⟩ := error_call hs h1
        cases h2 with
        | cut h1 h2 => exact absurd (key hs h2).1 h1
        | seq h1 h2 =>
          obtain ⟨_, rfl⟩ := key hs h1
          cases h2 with
          | cut _ h => exact wrong h
          | seq h _ => cases wrong h
    cases h2 with
    | cut _ h => exact fin hs h
    | seq h _ => cases fin hs h

end Sdp.Temps
