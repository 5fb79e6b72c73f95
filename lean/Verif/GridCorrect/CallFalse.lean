import Verif.GridCorrect.CallProps

/-!
# C94: refused calls, counterexamples and cases that meet the hypotheses
-/

namespace Sdp.GridCorrect
noncomputable section
open Sdp.Race Sdp.GridUtil Sdp.Direct

theorem launch_refused {cuda : Bool} {m : Mem} {st : Status} {v : View} {body : Nat × Nat → Prog ℂ}
    (h : (launch cuda m st v body).status ≠ .success) (a : Arr ℂ) :
    Yields (launch cuda m st v body).prog (launch cuda m st v body).threads a a := by
  unfold launch at h ⊢
  by_cases h1 : st = .success ∧ (blocks (m.shapeDim 0).toNat 16 = 0 ∨ blocks (m.shapeDim 1).toNat 16 = 0)
  · rw [if_pos h1]; exact run_none _ _
  · rw [if_neg h1] at h ⊢; exact gpuRun_refused h a

/-- **C94, refused w-corrections.**  A call that returns an error has changed nothing. -/
theorem C94_w_refused (cuda : Bool) (g : Place) (m : Mem) (w : Int) (inverse : Bool) (st : Status) (a : Arr ℂ)
    (hf : (wStackCall cuda g m w inverse st).status ≠ .success) :
    Yields (wStackCall cuda g m w inverse st).prog (wStackCall cuda g m w inverse st).threads a a := by
  unfold wStackCall at hf ⊢
  by_cases h0 : st ≠ .success ∨ w = 0
  · rw [if_pos h0]; exact run_none _ _
  · rw [if_neg h0] at hf ⊢
    cases hl : m.location with
    | other => exact run_none _ _
    | cpu =>
      rw [hl] at hf
      dsimp only at hf ⊢
      by_cases ht : m.type = .complexDouble ∨ m.type = .complexFloat
      · rw [if_pos ht] at hf ⊢
        generalize checkAndView m m.type 2 .cpu st = v at hf ⊢
        by_cases hv : v.2 ≠ .success
        · rw [if_pos hv]; exact run_none _ _
        · rw [if_neg hv] at hf
          exact absurd hf hv
      · rw [if_neg ht]; exact run_none _ _
    | gpu =>
      rw [hl] at hf
      dsimp only at hf ⊢
      by_cases ht : m.type = .complexDouble ∨ m.type = .complexFloat
      · rw [if_pos ht] at hf ⊢
        exact launch_refused hf a
      · rw [if_neg ht]; exact run_none _ _

/-- **C94, plane zero.**  It changes nothing, whatever the facet. -/
theorem C94_w_zero (cuda : Bool) (g : Place) (m : Mem) (inverse : Bool) (st : Status) (a : Arr ℂ) :
    (wStackCall cuda g m 0 inverse st).status = st ∧
      Yields (wStackCall cuda g m 0 inverse st).prog (wStackCall cuda g m 0 inverse st).threads a a := by
  unfold wStackCall
  rw [if_pos (.inr rfl)]
  exact ⟨rfl, run_none _ _⟩

/-- **C94, refused window corrections.**  A call that returns an error has changed nothing. -/
theorem C94_pswf_refused (cuda allocOk : Bool) (lm pn : Pswf.Params) (g : Place) (m : Mem) (st : Status) (a : Arr ℂ)
    (run : Run ℂ) (hr : pswfCall cuda allocOk lm pn g m st = some run) (hf : run.status ≠ .success) :
    Yields run.prog run.threads a a := by
  unfold pswfCall at hr
  by_cases h0 : st ≠ .success
  · rw [if_pos h0] at hr
    cases hr
    exact run_none _ _
  · rw [if_neg h0] at hr
    obtain ⟨s, -, hr⟩ := Option.bind_eq_some_iff.1 hr
    cases hl : m.location with
    | other =>
      rw [hl] at hr
      cases hr
      exact run_none _ _
    | cpu =>
      rw [hl] at hr
      dsimp only at hr
      by_cases ht : facetType m.type = true
      · rw [if_pos ht] at hr
        by_cases h1 : s.2 ≠ .success
        · rw [if_pos h1] at hr
          cases hr
          exact run_none _ _
        · rw [if_neg h1] at hr
          obtain ⟨q, -, hr⟩ := Option.bind_eq_some_iff.1 hr
          by_cases h2 : q.2.2 ≠ .success
          · rw [if_pos h2] at hr
            cases hr
            exact run_none _ _
          · rw [if_neg h2] at hr
            cases hr
            exact absurd hf h2
      · rw [if_neg ht] at hr
        cases hr
        exact run_none _ _
    | gpu =>
      rw [hl] at hr
      dsimp only at hr
      obtain ⟨q, -, hr⟩ := Option.bind_eq_some_iff.1 hr
      by_cases ht : facetType m.type = true
      · rw [if_pos ht] at hr
        cases hr
        exact launch_refused hf a
      · rw [if_neg ht] at hr
        cases hr
        exact run_none _ _

theorem launch_checked {cuda : Bool} {m : Mem} {st : Status} {v : View} {body : Nat × Nat → Prog ℂ}
    (h : (launch cuda m st v body).status = .success) : st = .success ∧ cuda = true := by
  unfold launch gpuRun at h
  by_cases h1 : st = .success ∧ (blocks (m.shapeDim 0).toNat 16 = 0 ∨ blocks (m.shapeDim 1).toNat 16 = 0)
  · rw [if_pos h1] at h; exact absurd h (by simp [Run.none])
  · rw [if_neg h1] at h
    by_cases h2 : st ≠ .success
    · rw [if_pos h2] at h; exact absurd h h2
    · rw [if_neg h2] at h
      cases cuda
      · rw [if_pos rfl] at h; exact absurd h (by simp [Run.none])
      · exact ⟨not_not.1 h2, rfl⟩

/-- **C94, checked w-corrections.**  A call that succeeds and is not for plane zero was given a complex facet with two
dimensions and data that may be written, and the CUDA library if the facet is on the GPU. -/
theorem C94_w_checked (cuda : Bool) (g : Place) (m : Mem) (w : Int) (hw : w ≠ 0) (inverse : Bool) (st : Status)
    (hloc : m.location ≠ .other) (hf : (wStackCall cuda g m w inverse st).status = .success) :
    st = .success ∧ (m.type = .complexDouble ∨ m.type = .complexFloat) ∧ m.numDims = 2 ∧ m.data ≠ none ∧
      m.isReadOnly = false ∧ (m.location = .gpu → cuda = true) := by
  unfold wStackCall at hf
  by_cases h0 : st ≠ .success ∨ w = 0
  · rw [if_pos h0] at hf; exact absurd hf (h0.resolve_right hw)
  · rw [if_neg h0] at hf
    by_cases ht : m.type = .complexDouble ∨ m.type = .complexFloat
    · cases hl : m.location with
      | other => exact absurd hl hloc
      | cpu =>
        rw [hl] at hf
        dsimp only at hf
        rw [if_pos ht] at hf
        have hv := view_status m m.type 2 .cpu st
        generalize checkAndView m m.type 2 .cpu st = v at hf hv
        by_cases h1 : v.2 ≠ .success
        · rw [if_pos h1] at hf; exact absurd hf h1
        · obtain ⟨a1, -, a2, -, a3, a4⟩ := hv.1 (not_not.1 h1)
          exact ⟨a1, ht, a2, a3, a4, fun h => by cases h⟩
      | gpu =>
        rw [hl] at hf
        dsimp only at hf
        rw [if_pos ht] at hf
        obtain ⟨h1, h2⟩ := launch_checked hf
        obtain ⟨a1, -, a2, -, a3, a4⟩ := (view_status m m.type 2 .gpu st).1 h1
        exact ⟨a1, ht, a2, a3, a4, fun _ => h2⟩
    · cases hl : m.location with
      | other => exact absurd hl hloc
      | cpu => rw [hl] at hf; dsimp only at hf; rw [if_neg ht] at hf; exact absurd hf (by simp [Run.none])
      | gpu => rw [hl] at hf; dsimp only at hf; rw [if_neg ht] at hf; exact absurd hf (by simp [Run.none])

/-- **C94, checked window corrections.**  The same for a call that corrects the window; a real facet is accepted. -/
theorem C94_pswf_checked (cuda allocOk : Bool) (lm pn : Pswf.Params) (g : Place) (m : Mem) (st : Status)
    (hloc : m.location ≠ .other) (run : Run ℂ) (hr : pswfCall cuda allocOk lm pn g m st = some run)
    (hf : run.status = .success) :
    st = .success ∧ (m.type = .double ∨ m.type = .complexDouble ∨ m.type = .float ∨ m.type = .complexFloat) ∧
      m.numDims = 2 ∧ m.data ≠ none ∧ m.isReadOnly = false ∧ (m.location = .gpu → cuda = true) := by
  unfold pswfCall at hr
  by_cases h0 : st ≠ .success
  · rw [if_pos h0] at hr; cases hr; exact absurd hf h0
  · rw [if_neg h0] at hr
    obtain ⟨s, -, hr⟩ := Option.bind_eq_some_iff.1 hr
    by_cases ht : facetType m.type = true
    · have ht' := ht
      rw [facetType, decide_eq_true_iff] at ht'
      cases hl : m.location with
      | other => exact absurd hl hloc
      | cpu =>
        rw [hl] at hr
        dsimp only at hr
        rw [if_pos ht] at hr
        by_cases h1 : s.2 ≠ .success
        · rw [if_pos h1] at hr; cases hr; exact absurd hf h1
        · rw [if_neg h1] at hr
          have hv := view_status m m.type 2 .cpu s.2
          generalize checkAndView m m.type 2 .cpu s.2 = v at hr hv
          obtain ⟨q, hq, hr⟩ := Option.bind_eq_some_iff.1 hr
          by_cases h2 : q.2.2 ≠ .success
          · rw [if_pos h2] at hr; cases hr; exact absurd hf h2
          · have hq' : q.2.2 = v.2 := by
              unfold Pswf.queryValues at hq
              rw [if_neg (by simp)] at hq
              cases hq; rfl
            obtain ⟨-, -, a2, -, a3, a4⟩ := hv.1 (by rw [← hq']; exact not_not.1 h2)
            exact ⟨not_not.1 h0, ht', a2, a3, a4, fun h => by cases h⟩
      | gpu =>
        rw [hl] at hr
        dsimp only at hr
        obtain ⟨q, -, hr⟩ := Option.bind_eq_some_iff.1 hr
        rw [if_pos ht] at hr
        cases hr
        obtain ⟨h1, h2⟩ := launch_checked hf
        obtain ⟨-, -, a2, -, a3, a4⟩ := (view_status m m.type 2 .gpu _).1 h1
        exact ⟨not_not.1 h0, ht', a2, a3, a4, fun _ => h2⟩
    · cases hl : m.location with
      | other => exact absurd hl hloc
      | cpu => rw [hl] at hr; dsimp only at hr; rw [if_neg ht] at hr; cases hr; exact absurd hf (by simp [Run.none])
      | gpu =>
        rw [hl] at hr; dsimp only at hr
        obtain ⟨q, -, hr⟩ := Option.bind_eq_some_iff.1 hr
        rw [if_neg ht] at hr; cases hr; exact absurd hf (by simp [Run.none])

/-- **C94 fails** for an image size that is not positive: it is refused for a facet in the memory of the CPU, and a
null pointer is used for one on the GPU. -/
theorem C94_size_false (cuda allocOk : Bool) (lm pn : Pswf.Params) (g : Place) (m : Mem) (h : g.imageSize ≤ 0) :
    (m.location = .gpu → pswfCall cuda allocOk lm pn g m .success = none) ∧
      (m.location = .cpu → ∃ run, pswfCall cuda allocOk lm pn g m .success = some run ∧ run.status ≠ .success) := by
  have e : Pswf.generateCached lm allocOk g.imageSize.toNat true (Pswf.fresh lm) .success =
      some (Pswf.fresh lm, .invalidArgument) := by
    unfold Pswf.generateCached
    rw [if_neg (by simp), if_pos (by omega)]
  constructor
  · intro hl
    unfold pswfCall
    rw [if_neg (by simp), e, Option.bind_some]
    simp only [hl]
    simp [Pswf.queryValues, Pswf.fresh]
  · intro hl
    unfold pswfCall
    rw [if_neg (by simp), e, Option.bind_some]
    simp only [hl]
    by_cases ht : facetType m.type = true
    · rw [if_pos ht, if_pos (by simp)]
      exact ⟨_, rfl, by simp [Run.none]⟩
    · rw [if_neg ht]
      exact ⟨_, rfl, by simp [Run.none]⟩

theorem cpu_start {lm pn : Pswf.Params} {g : Place} {m : Mem} {a : Arr ℂ} {nl nm size : Nat} {pos : Nat → Nat → Nat}
    (h : Facet false m a.size nl nm pos) (hloc : m.location = .cpu) (htt : facetType m.type = true) (l : List ℝ)
    (s : Pswf.Cache) (s1 : Pswf.generateCached lm true size true (Pswf.fresh lm) .success = some (s, .success))
    (s3 : s.values = some (some l)) (hs : g.imageSize = size) :
    pswfCall false true lm pn g m .success = some (cpuRun .success (mkView m 2 .success)
        (pswfBody ⟨size, g.theta, g.wStep, g.hu, g.hv, nl, nm, g.offL, g.offM⟩ (asArr (some (some l))) pn
          (mkView m 2 .success))) := by
  have hf := fac_eq h g
  rw [hs, Int.toNat_natCast] at hf
  unfold pswfCall
  rw [if_neg (by simp), hs, Int.toNat_natCast, s1, Option.bind_some]
  simp only [hloc]
  rw [if_pos htt, if_neg (by simp), facet_view h hloc]
  simp only [Pswf.queryValues, Bool.false_eq_true, if_false, Option.bind_some, s3, ne_eq, not_true_eq_false]
  rw [hf]

theorem square_facet (t : MemType) (n : Nat) (h0 : 0 < n) (ht : t = .double ∨ t = .complexDouble)
    (hn : (wrap t [n, n]).numDims = 2 ∧ (wrap t [n, n]).shapeDim 0 = n ∧ (wrap t [n, n]).shapeDim 1 = n ∧
      (wrap t [n, n]).strideElementsDim 0 = n ∧ (wrap t [n, n]).strideElementsDim 1 = 1 ∧
      (wrap t [n, n]).location = .cpu ∧ (wrap t [n, n]).data ≠ none ∧ (wrap t [n, n]).isReadOnly = false) :
    Facet false (wrap t [n, n]) (n * n) n n (fun i j => n * i + j) := by
  obtain ⟨a1, a2, a3, a4, a5, a6, a7, a8⟩ := hn
  refine ⟨.inl a6, a7, a8, ⟨a1, a2, a3, ?_, ?_⟩, ?_⟩
  · intro i j _ _
    rw [a4, a5]
    push_cast
    ring
  · intro i j hi hj
    have := flat_lt hi hj
    first | exact this | (rw [Nat.mul_comm n i]; exact this) | nlinarith
  · intro i j i' j' _ hj _ hj' e
    simp only at e
    have h1 : (n * i + j) / n = i := by rw [Nat.mul_add_div h0, Nat.div_eq_of_lt hj]; rfl
    have h2 : (n * i' + j') / n = i' := by rw [Nat.mul_add_div h0, Nat.div_eq_of_lt hj']; rfl
    have : i = i' := by rw [← h1, ← h2, e]
    subst this
    omega

/-- **C94 fails** for an odd image size: the first window value is zero, and the first pixel of the image becomes
infinite or not a number although the call reports success. -/
theorem C94_odd_false {lm pn : Pswf.Params} (hp : Made lm) (hn : Made pn) (g : Place) (hs : g.imageSize = 3)
    (h1 : g.offL = 0) (h2 : g.offM = 0) (a : Arr ℂ) (ha : a.size = 9) :
    ∃ run, pswfCall false true lm pn g (wrap .double [3, 3]) .success = some run ∧ run.status = .success ∧
      (0, 0) ∈ run.threads ∧ (run.prog (0, 0)).exec a = none := by
  obtain ⟨r, r1, -, r3⟩ := Pswf.C84_samples_false lm hp.coeff hp.small 1 (by omega) 1 id ⟨3, fun _ => 0⟩
    ⟨fun i _ => by simp, fun i hi => hi, fun i j _ _ e => e⟩ true
  have hF : Facet false (wrap .double [3, 3]) a.size 3 3 (fun i j => 3 * i + j) := by
    rw [ha]
    exact square_facet .double 3 (by omega) (.inl rfl) (by decide)
  have st := cpu_start (lm := lm) (pn := pn) (g := g) (size := 3) hF (by decide) (by decide)
    ((List.range 3).map r.get) _ (by
      unfold Pswf.generateCached
      rw [if_neg (by simp), if_neg (by omega), if_pos rfl, r1]
      rfl) rfl (by rw [hs]; rfl)
  refine ⟨_, st, rfl, ?_, ?_⟩
  · show (0, 0) ∈ nest2 (rows (mkView (wrap .double [3, 3]) 2 .success)) (cols (mkView (wrap .double [3, 3]) 2 .success))
    rw [(plane_rows hF.plane).1, (plane_rows hF.plane).2]
    exact mem_nest2.2 ⟨by omega, by omega⟩
  · show (pswfBody _ _ _ _ (0, 0)).exec a = none
    unfold pswfBody
    have hr : (asArr (some (some ((List.range 3).map r.get)))).read ((0 : Nat) : Int) = some 0 := by
      rw [asArr_list _ _ (by simp)]
      congr 1
    have e : pixPos 3 0 0 + ((3 / 2 : Nat) : Int) = ((0 : Nat) : Int) := by decide
    simp only [h1, h2]
    rw [e, hr, nValue_eq hn]
    simp only [Prog.need]
    rw [if_pos (by ring)]
    rfl

/-- **C94 fails** for a facet that is not inside the image: window values outside the array are read although the call
reports success. -/
theorem C94_outside_false {lm pn : Pswf.Params} (hp : Made lm) (g : Place) (hs : g.imageSize = 2)
    (h1 : g.offL = 1) (a : Arr ℂ) (ha : a.size = 4) :
    ∃ run, pswfCall false true lm pn g (wrap .double [2, 2]) .success = some run ∧ run.status = .success ∧
      (1, 0) ∈ run.threads ∧ (run.prog (1, 0)).exec a = none := by
  obtain ⟨r, r1, -⟩ := Pswf.C84_samples_partial lm hp.coeff hp.small 2 (by omega) (by omega) 1 id ⟨2, fun _ => 0⟩
    ⟨fun i _ => by simp, fun i hi => hi, fun i j _ _ e => e⟩ true
  have hF : Facet false (wrap .double [2, 2]) a.size 2 2 (fun i j => 2 * i + j) := by
    rw [ha]
    exact square_facet .double 2 (by omega) (.inl rfl) (by decide)
  have st := cpu_start (lm := lm) (pn := pn) (g := g) (size := 2) hF (by decide) (by decide)
    ((List.range 2).map r.get) _ (by
      unfold Pswf.generateCached
      rw [if_neg (by simp), if_neg (by omega), if_pos rfl, r1]
      rfl) rfl (by rw [hs]; rfl)
  refine ⟨_, st, rfl, ?_, ?_⟩
  · show (1, 0) ∈ nest2 (rows (mkView (wrap .double [2, 2]) 2 .success)) (cols (mkView (wrap .double [2, 2]) 2 .success))
    rw [(plane_rows hF.plane).1, (plane_rows hF.plane).2]
    exact mem_nest2.2 ⟨by omega, by omega⟩
  · show (pswfBody _ _ _ _ (1, 0)).exec a = none
    unfold pswfBody
    have e : pixPos 2 1 1 + ((2 / 2 : Nat) : Int) = ((2 : Nat) : Int) := by decide
    have hr : (asArr (some (some ((List.range 2).map r.get)))).read ((2 : Nat) : Int) = none := by
      rw [Arr.read_nat]
      exact if_neg (by show ¬ 2 < ((List.range 2).map r.get).length; simp)
    simp only [h1]
    rw [e, hr]
    rfl

/-- A plan whose function is constant. -/
def flat : Pswf.Params := ⟨0, 1, ⟨200, fun i => if i = 0 then 1 else 0⟩⟩

theorem flat_made : Made flat := ⟨rfl, rfl, by norm_num [flat]⟩

theorem flat_loop (x1 : ℝ) : ∀ (fuel k : Nat) (x1p su1 : ℝ), 0 < k → k + fuel ≤ 200 →
    Pswf.aswfaLoop flat.coeff x1 k x1p su1 fuel = some su1
  | 0, _, _, _, _, _ => rfl
  | fuel + 1, k, x1p, su1, h0, h1 => by
    unfold Pswf.aswfaLoop
    rw [Arr.read_nat, if_pos (by show k < 200; omega), Option.bind_some]
    have e : flat.coeff.get k = 0 := if_neg (by omega)
    have hx : su1 + flat.coeff.get k * x1p = su1 := by rw [e]; ring
    by_cases hc : 10 ≤ k ∧ su1 + flat.coeff.get k * x1p ≠ 0 ∧
        |flat.coeff.get k * x1p / (su1 + flat.coeff.get k * x1p)| < 1 / 10 ^ 14
    · rw [if_pos hc, hx]
    · rw [if_neg hc, flat_loop x1 fuel (k + 1) _ _ (by omega) (by omega), hx]

theorem flat_value (x : ℝ) (h : |x| < 1) : value flat x = 1 := by
  unfold value Pswf.evaluate Pswf.aswfa
  rw [if_pos h]
  simp only
  rw [show (0 : Int) = ((0 : Nat) : Int) from rfl, Arr.read_nat, if_pos (by show 0 < 200; omega), Option.bind_some]
  have e : ((Pswf.trunc flat.c + 40).tdiv 2 - 2).toNat = 18 := by
    have : Pswf.trunc flat.c = 1 := by simp [Pswf.trunc, flat]
    rw [this]
    decide
  rw [e, flat_loop _ 18 1 _ _ (by omega) (by omega)]
  have h1 : (0 : ℝ) < 1 - |x| * |x| := by nlinarith [abs_nonneg x]
  simp [flat]

theorem flat_sample (k : Nat) (h : k < 4) : sample flat 4 k ≠ 0 := by
  unfold sample
  by_cases e : k = 0
  · rw [if_pos e]; norm_num
  · rw [if_neg e, flat_value]
    · norm_num
    · have : k = 1 ∨ k = 2 ∨ k = 3 := by omega
      rcases this with rfl | rfl | rfl <;> norm_num [abs_lt]

/-- Non-vacuity of C94: a 2 x 2 facet on the GPU in an image of 4 x 4. -/
example : let g : Place := ⟨4, 1, 1, 0, 0, 1, 0⟩
    Facet true { wrap .complexDouble [2, 2] with location := .gpu } 4 2 2 (fun i j => 2 * i + j) ∧ Made flat ∧
      Inside 4 2 g.offL ∧ Inside 4 2 g.offM ∧
      ∀ i j i' j' : Nat, i < 2 → j < 2 → (i' : Int) = inImage 4 2 g.offL i → (j' : Int) = inImage 4 2 g.offM j →
        divisor flat flat g 4 2 2 i j i' j' ≠ 0 := by
  intro g
  have hI : Inside 4 2 g.offL := by intro i hi; unfold inImage; show _ ∧ _; simp only [g]; omega
  have hJ : Inside 4 2 g.offM := by intro i hi; unfold inImage; show _ ∧ _; simp only [g]; omega
  have hF : Facet false (wrap .complexDouble [2, 2]) 4 2 2 (fun i j => 2 * i + j) :=
    square_facet .complexDouble 2 (by omega) (.inr rfl) (by decide)
  refine ⟨⟨.inr ⟨rfl, rfl, by omega, by omega⟩, by decide, by decide,
    ⟨hF.plane.dims, hF.plane.rows, hF.plane.cols, hF.plane.strides, hF.plane.fits⟩, hF.distinct⟩, flat_made, hI, hJ, ?_⟩
  intro i j i' j' hi hj e1 e2
  have a1 := hI i hi
  have a2 := hJ j hj
  unfold divisor
  refine mul_ne_zero (mul_ne_zero (flat_sample _ (by omega)) (flat_sample _ (by omega))) ?_
  unfold windowAt
  split_ifs with hc
  · exact one_ne_zero
  · push Not at hc
    simp only
    rw [flat_value]
    · exact one_ne_zero
    · rw [abs_of_nonneg (by positivity)]
      exact hc.2

end
end Sdp.GridCorrect
