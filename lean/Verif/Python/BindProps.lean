import Verif.Python.BindTable
import Verif.Python.BindSpec
import Mathlib.Algebra.Ring.Int.Defs
import Mathlib.Data.List.Forall2
import Mathlib.Tactic.Common

/-!
C118, calls: every parameter of C gets the Python value of its documented name.
-/

namespace Verif.Python.Bind

theorem low_eq (b : Nat) (hb : 0 < b) (n : Int) (h : -2 ^ (b - 1) ≤ n ∧ n < 2 ^ (b - 1)) : low b n = n := by
  obtain ⟨k, rfl⟩ : ∃ k, b = k + 1 := ⟨b - 1, by omega⟩
  unfold low
  simp only [Nat.add_sub_cancel] at h ⊢
  have e : (2 : Int) ^ (k + 1) = 2 * 2 ^ k := by rw [pow_succ]; omega
  rw [e, Int.emod_eq_of_lt] <;> omega

/-- The argument of a parameter. -/
def argOk (method : String) (p : Ty × String) (a : Arg) : Bool :=
  decide (a = if p.1 = .handle "Mem" then .mem (meant method p.2) else .val (meant method p.2))

/-- The check of a call. -/
def siteOk (s : Site) : Bool :=
  let ps := s.func.params.filter fun p => p.1 ≠ .err
  decide (s.func.argtypes = ps.map Prod.fst) &&
  decide (s.func.params = if s.func.checkErrcode then ps ++ [(.err, "status")] else ps) &&
  decide (s.args.length = ps.length) &&
  (ps.zip s.args).all fun x => argOk s.method x.1 x.2

theorem convert_is {F : Type} (fl : Floats F) (env : Env F) (t : Ty) (v : Val F) (c : CVal F)
    (hm : t ≠ .handle "Mem") (he : t ≠ .err) (hr : ∀ n, v = .int n → inRange t n)
    (h : convert fl t v = some c) : Is fl env t v c := by
  unfold Is
  rw [if_neg hm]
  cases t <;> cases v <;>
    simp only [convert, Option.some.injEq, reduceCtorEq, Option.map_eq_some_iff, ne_eq, not_true_eq_false] at h he ⊢
  · subst h
    exact ⟨by simp, low_eq 32 (by decide) _ (hr _ rfl)⟩
  · subst h
    exact ⟨by simp, low_eq 64 (by decide) _ (hr _ rfl)⟩
  all_goals
    first
    | (obtain ⟨y, hy, rfl⟩ := h; exact ⟨y, hy, by simp⟩)
    | (subst h; simp [Ty.Pointer])
    | (split at h <;> simp only [Option.some.injEq, reduceCtorEq] at h; subst h; simp_all)

theorem is_convert {F : Type} (fl : Floats F) (env : Env F) (t : Ty) (v : Val F) (c : CVal F)
    (hm : t ≠ .handle "Mem") (h : Is fl env t v c) : ∃ d, convert fl t v = some d := by
  unfold Is at h
  rw [if_neg hm] at h
  cases t <;> cases v <;> cases c <;> simp_all [convert, Ty.Pointer]
  all_goals (obtain ⟨y, hy, -⟩ := h; first | exact ⟨_, y, hy, rfl⟩ | exact ⟨_, hy⟩)

/-- The arguments of checked parameters. -/
theorem args_is {F : Type} (fl : Floats F) (env : Env F) (m : String) (ps : List (Ty × String))
    (as : List Arg) (hl : as.length = ps.length) (ho : (ps.zip as).all (fun x => argOk m x.1 x.2) = true)
    (he : ∀ p ∈ ps, p.1 ≠ .err)
    (hr : ∀ p ∈ ps, ∀ n, env.value (meant m p.2) = .int n → inRange p.1 n) :
    (as.mapM (Arg.eval env) = none ∧
      ∃ p ∈ ps, ∀ c, ¬ Is fl env p.1 (env.value (meant m p.2)) c) ∨
    ∃ vs, as.mapM (Arg.eval env) = some vs ∧ vs.length = ps.length ∧
      ((convertAll fl (ps.map Prod.fst) vs = none ∧
          ∃ p ∈ ps, ∀ c, ¬ Is fl env p.1 (env.value (meant m p.2)) c) ∨
        ∃ cs, convertAll fl (ps.map Prod.fst) vs = some cs ∧
          List.Forall₂ (fun p c => Is fl env p.1 (env.value (meant m p.2)) c) ps cs) := by
  induction ps generalizing as with
  | nil =>
    have : as = [] := List.length_eq_zero_iff.1 hl
    subst this
    exact Or.inr ⟨[], rfl, rfl, Or.inr ⟨[], rfl, .nil⟩⟩
  | cons p ps ih =>
    match as, hl with
    | a :: as, hl =>
      simp only [List.zip_cons_cons, List.all_cons, Bool.and_eq_true] at ho
      obtain ⟨ho, hos⟩ := ho
      have ih := ih as (by simpa using hl) hos (fun q hq => he q (List.mem_cons_of_mem _ hq))
        (fun q hq => hr q (List.mem_cons_of_mem _ hq))
      have hp := he p List.mem_cons_self
      have hpr := hr p List.mem_cons_self
      have ha : a = _ := of_decide_eq_true ho
      have key : (Arg.eval env a = none ∧ ∀ c, ¬ Is fl env p.1 (env.value (meant m p.2)) c) ∨
          ∃ v, Arg.eval env a = some v ∧
            ((convert fl p.1 v = none ∧ ∀ c, ¬ Is fl env p.1 (env.value (meant m p.2)) c) ∨
              ∃ c, convert fl p.1 v = some c ∧ Is fl env p.1 (env.value (meant m p.2)) c) := by
        by_cases hm : p.1 = .handle "Mem"
        · rw [if_pos hm] at ha
          subst ha
          rcases hv : env.mem (env.value (meant m p.2)) with _ | q
          · refine Or.inl ⟨by simp only [Arg.eval, hv, Option.map_none], fun c h => ?_⟩
            unfold Is at h
            rw [if_pos hm, hv] at h
            obtain ⟨_, h, -⟩ := h
            cases h
          · refine Or.inr ⟨.object "Mem" q, by simp only [Arg.eval, hv, Option.map_some],
              Or.inr ⟨.ptr (some q), ?_, ?_⟩⟩
            · rw [hm]
              simp only [convert, if_true]
            · unfold Is
              rw [if_pos hm]
              exact ⟨q, hv, rfl⟩
        · rw [if_neg hm] at ha
          subst ha
          refine Or.inr ⟨_, rfl, ?_⟩
          rcases hc : convert fl p.1 (env.value (meant m p.2)) with _ | c
          · refine Or.inl ⟨rfl, fun c h => ?_⟩
            obtain ⟨d, hd⟩ := is_convert fl env _ _ _ hm h
            rw [hc] at hd
            cases hd
          · exact Or.inr ⟨c, rfl, convert_is fl env _ _ _ hm hp hpr hc⟩
      rcases key with ⟨h, hn⟩ | ⟨v, hv, h⟩
      · exact Or.inl ⟨by simp only [List.mapM_cons, h, bind, Option.bind], p, List.mem_cons_self, hn⟩
      · rcases ih with ⟨i1, q, hq, i2⟩ | ⟨vs, hvs, hlen, ih⟩
        · exact Or.inl ⟨by simp only [List.mapM_cons, hv, i1, bind, Option.bind], q, List.mem_cons_of_mem _ hq, i2⟩
        · refine Or.inr ⟨v :: vs, by simp only [List.mapM_cons, hv, hvs, bind, Option.bind, pure],
            by simp [hlen], ?_⟩
          rcases h with ⟨h, hn⟩ | ⟨c, hc, h⟩
          · exact Or.inl ⟨by simp only [List.map_cons, convertAll, h], p, List.mem_cons_self, hn⟩
          · rcases ih with ⟨i1, q, hq, i2⟩ | ⟨cs, i1, i2⟩
            · exact Or.inl ⟨by simp only [List.map_cons, convertAll, hc, i1, Option.map_none], q,
                List.mem_cons_of_mem _ hq, i2⟩
            · exact Or.inr ⟨c :: cs, by simp only [List.map_cons, convertAll, hc, i1, Option.map_some], .cons h i2⟩

theorem convertAll_code {F : Type} (fl : Floats F) (code : Nat) (ts : List Ty) (vs : List (Val F))
    (h : vs.length = ts.length) :
    convertAll fl (ts ++ [.err]) (vs ++ [.ref .i32 code]) =
      (convertAll fl ts vs).map (· ++ [.ptr (some code)]) := by
  induction ts generalizing vs with
  | nil =>
    have : vs = [] := List.length_eq_zero_iff.1 h
    subst this
    rfl
  | cons t ts ih =>
    match vs, h with
    | v :: vs, h =>
      have ih := ih vs (by simpa using h)
      simp only [List.cons_append, convertAll]
      rcases convert fl t v with _ | c
      · rfl
      · simp only [ih, Option.map_map]
        rfl

/-- What a parameter of C must get: the error code if it is the last one, and
otherwise the Python value of its documented name. -/
def Gets {F : Type} (fl : Floats F) (env : Env F) (code : Nat) (m : String) (p : Ty × String)
    (g : String × CVal F) : Prop :=
  g.1 = p.2 ∧ if p.1 = .err then g.2 = .ptr (some code) else Is fl env p.1 (env.value (meant m p.2)) g.2

theorem site_ok {F : Type} (fl : Floats F) (env : Env F) (code : Nat) (s : Site) (h : siteOk s = true)
    (hr : ∀ p ∈ s.func.params, ∀ n, env.value (meant s.method p.2) = .int n → inRange p.1 n) :
    (call fl env code s = .raised ∧ ∃ p ∈ s.func.params, p.1 ≠ .err ∧
      ∀ c, ¬ Is fl env p.1 (env.value (meant s.method p.2)) c) ∨
    ∃ got, call fl env code s = .called got ∧
      List.Forall₂ (Gets fl env code s.method) s.func.params got := by
  unfold siteOk at h
  simp only [Bool.and_eq_true, decide_eq_true_eq] at h
  obtain ⟨⟨⟨h1, h2⟩, h3⟩, h4⟩ := h
  generalize hps : (s.func.params.filter fun p => p.1 ≠ .err) = ps at h1 h2 h3 h4
  have he : ∀ p ∈ ps, p.1 ≠ .err := by
    intro p hp
    rw [← hps, List.mem_filter] at hp
    simpa using hp.2
  have hsub : ∀ p ∈ ps, p ∈ s.func.params := by
    intro p hp
    rw [← hps, List.mem_filter] at hp
    exact hp.1
  have zip : ∀ (ps : List (Ty × String)) (cs : List (CVal F)),
      (∀ p ∈ ps, p.1 ≠ .err) →
      List.Forall₂ (fun p c => Is fl env p.1 (env.value (meant s.method p.2)) c) ps cs →
      List.Forall₂ (Gets fl env code s.method) ps ((ps.map Prod.snd).zip cs) ∧ cs.length = ps.length := by
    intro ps cs hn hf
    induction hf with
    | nil => exact ⟨.nil, rfl⟩
    | cons h _ ih =>
      obtain ⟨i1, i2⟩ := ih fun q hq => hn q (List.mem_cons_of_mem _ hq)
      refine ⟨.cons ⟨rfl, ?_⟩ i1, by simp [i2]⟩
      rw [if_neg (hn _ List.mem_cons_self)]
      exact h
  rcases args_is fl env s.method ps s.args h3 h4 he (fun p hp => hr p (hsub p hp)) with
    ⟨g1, p, hp, g2⟩ | ⟨vs, g1, g2, g3⟩
  · exact Or.inl ⟨by simp only [call, g1], p, hsub p hp, he p hp, g2⟩
  · by_cases hc : s.func.checkErrcode = true
    · rw [if_pos hc] at h2
      have hcode := convertAll_code fl code (ps.map Prod.fst) vs (by simp [g2])
      rcases g3 with ⟨g3, p, hp, g4⟩ | ⟨cs, g3, g4⟩
      · refine Or.inl ⟨?_, p, hsub p hp, he p hp, g4⟩
        simp only [call, g1, hc, if_true, h1, hcode, g3,
          Option.map_none, ite_self]
      · refine Or.inr ⟨(s.func.params.map Prod.snd).zip (cs ++ [.ptr (some code)]), ?_, ?_⟩
        · simp only [call, g1, hc, if_true, h1, hcode, g3,
            Option.map_some]
          rw [if_neg (by simp [g2]), if_pos]
          refine ⟨by simp [g2], ?_⟩
          rw [h2]
          simp
        · obtain ⟨z1, z2⟩ := zip ps cs he g4
          rw [h2]
          simp only [List.map_append, List.map_cons, List.map_nil]
          rw [List.zip_append (by simp [z2])]
          exact List.rel_append z1 (.cons ⟨rfl, by rw [if_pos rfl]⟩ .nil)
    · have hc : s.func.checkErrcode = false := by simpa using hc
      rw [if_neg (by simp [hc])] at h2
      rcases g3 with ⟨g3, p, hp, g4⟩ | ⟨cs, g3, g4⟩
      · refine Or.inl ⟨?_, p, hsub p hp, he p hp, g4⟩
        simp only [call, g1, hc, h1, g3, ite_self, Bool.false_eq_true, if_false]
      · refine Or.inr ⟨(s.func.params.map Prod.snd).zip cs, ?_, ?_⟩
        · simp only [call, g1, hc, h1, g3, Bool.false_eq_true, if_false]
          rw [if_neg (by simp [g2]), if_pos]
          exact ⟨by simp [g2], by rw [h2]⟩
        · obtain ⟨z1, z2⟩ := zip ps cs he g4
          rw [h2]
          exact z1

theorem sites_ok : ∀ s ∈ sites, s.func ≠ sdp_function_example_a_free_plan → siteOk s = true := by
  decide +kernel

/-- **C118.** Whatever Python values are given to a function of the package (all
calls except the one of `C118_free_false`): if every one of them is a value of
the C parameter that it stands for, the C function runs, and each of its
parameters gets exactly the Python value of its documented name; otherwise an
exception is raised and the C function does not run.  Missing: integers
outside the range of the C type, `C118_int_false`. -/
theorem C118_calls_partial {F : Type} (fl : Floats F) (env : Env F) (code : Nat) (s : Site)
    (hs : s ∈ sites) (hf : s.func ≠ sdp_function_example_a_free_plan)
    (hr : ∀ p ∈ s.func.params, ∀ n, env.value (meant s.method p.2) = .int n → inRange p.1 n) :
    (call fl env code s = .raised ∧ ∃ p ∈ s.func.params, p.1 ≠ .err ∧
      ∀ c, ¬ Is fl env p.1 (env.value (meant s.method p.2)) c) ∨
    ∃ got, call fl env code s = .called got ∧
      List.Forall₂ (Gets fl env code s.method) s.func.params got :=
  site_ok fl env code s (sites_ok s hs hf) hr

/-- **C118.** What a C function returns is read with its own type. -/
theorem C118_results : ∀ f ∈ funcs, f.restype = f.ret := by decide +kernel

/-- **C118.** All the calls are to functions of the table. -/
theorem C118_funcs : ∀ s ∈ sites, s.func ∈ funcs := by decide +kernel

/-- **C118.** A pointer to one kind of structure is never taken for another. -/
theorem C118_handles {F : Type} (fl : Floats F) (c d : String) (a : Nat) (h : c ≠ d) :
    convert fl (.handle c) (.object d a : Val F) = none := by
  simp only [convert, if_neg h]

/-- C118 is false of integers outside the range of the C type: they lose their
high bits and the C function runs, e.g. `padded_fft_size(2**32 + 8, 1.0)`
is the padded size of 8. -/
theorem C118_int_false {F : Type} (fl : Floats F) (code : Nat) (x : F) : ∃ (env : Env F) (s : Site),
    s ∈ sites ∧ s.method = "padded_fft_size" ∧ env.value "num" = .int (2 ^ 32 + 8) ∧
    call fl env code s = .called [("n", .int 8), ("padding_factor", .float x)] := by
  refine ⟨⟨fun e => if e = "num" then .int (2 ^ 32 + 8) else .float x, fun _ => none⟩,
    ⟨"padded_fft_size", sdp_fft_padded_size, [.val "num", .val "padding_factor"]⟩, by decide +kernel, rfl, rfl, rfl⟩

/-- C118 is false of the release of the example plan: the C function gets one
argument more than it has parameters. -/
theorem C118_free_false {F : Type} (fl : Floats F) (code a : Nat) : ∃ (env : Env F) (s : Site),
    s ∈ sites ∧ s.func.name = "sdp_function_example_a_free_plan" ∧
    env.value "self" = .object "FunctionExampleA" a ∧ call fl env code s = .undefined := by
  refine ⟨⟨fun _ => .object "FunctionExampleA" a, fun _ => none⟩,
    ⟨"FunctionExampleA.__init__", sdp_function_example_a_free_plan, [.val "self"]⟩, by decide +kernel, rfl, rfl, rfl⟩

/-- The hypotheses hold for a cleaning of three arrays. -/
example : ∃ s ∈ sites, s.method = "hogbom_clean" ∧ s.func ≠ sdp_function_example_a_free_plan ∧
    ∃ env : Env Int, env.value "loop_gain" = .float 7 ∧ env.value "threshold" = .int 3 ∧
      env.value "cycle_limit" = .int 100 ∧
      (∀ p ∈ s.func.params, ∀ n, env.value (meant s.method p.2) = .int n → inRange p.1 n) ∧
      ∃ got, call ⟨some, id⟩ env 99 s = .called got := by
  refine ⟨⟨"hogbom_clean", sdp_hogbom_clean,
    [.mem "dirty_img", .mem "psf", .mem "cbeam_details", .val "loop_gain", .val "threshold",
      .val "cycle_limit", .mem "clean_model", .mem "residual", .mem "skymodel"]⟩,
    by decide +kernel, rfl, by decide +kernel,
    ⟨fun e => if e = "loop_gain" then .float 7 else if e = "threshold" then .int 3
      else if e = "cycle_limit" then .int 100 else .array e.length, fun _ => some 5⟩,
    rfl, rfl, rfl, ?_, _, rfl⟩
  intro p _ n hn
  have : n = 3 ∨ n = 100 := by
    dsimp only at hn
    split at hn
    · cases hn
    split at hn
    · cases hn
      exact Or.inl rfl
    split at hn
    · cases hn
      exact Or.inr rfl
    · cases hn
  rcases this with rfl | rfl <;> cases p.1 <;> simp [inRange]

end Verif.Python.Bind
