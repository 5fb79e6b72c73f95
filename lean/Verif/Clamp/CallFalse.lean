import Verif.Clamp.CallProps

/-!
# C93: refused calls, counterexamples and a case that meets the hypotheses
-/

namespace Sdp.Clamp
open Sdp.Race

theorem job_none (st : Status) (a : Arr Int) : Yields (Job.none st).prog (Job.none st).threads a a :=
  yields_each _ (fun _ _ => False) _ (by simp [Job.none])
    (by simp [Job.none]) a a rfl (by simp [Job.none]) (fun _ _ => rfl)

/-- **C93, refused calls.**  A call that reports an error leaves the memory alone, unless the coordinates are double or
float numbers in CPU memory. -/
theorem C93_refused_partial (cuda : Bool) (row : View → Cells → Int → Prog Int) (mU : Mem) (si ei so eo : Slot)
    (startRow endRow : Int) (st : Status) (a : Arr Int)
    (hf : (clampCall cuda row mU si ei so eo startRow endRow st).status ≠ .success)
    (h : st ≠ .success ∨ mU.location ≠ .cpu ∨ ¬ (mU.type = .double ∨ mU.type = .float)) :
    Yields (clampCall cuda row mU si ei so eo startRow endRow st).prog
      (clampCall cuda row mU si ei so eo startRow endRow st).threads a a := by
  unfold clampCall at hf ⊢
  by_cases h0 : st ≠ .success
  · rw [if_pos h0]
    exact job_none _ _
  · rw [if_neg h0] at hf ⊢
    dsimp only at hf ⊢
    cases hl : mU.location with
    | other => exact job_none _ _
    | cpu =>
      have : ¬ (mU.type = .double ∨ mU.type = .float) := by
        rcases h with h | h | h
        · exact absurd h h0
        · exact absurd hl h
        · exact h
      dsimp only
      rw [if_neg this]
      exact job_none _ _
    | gpu =>
      rw [hl] at hf
      dsimp only at hf ⊢
      unfold gpuJob at hf ⊢
      dsimp only at hf ⊢
      by_cases h1 : ¬ (mU.type = .double ∨ mU.type = .float)
      · rw [if_pos h1]
        exact job_none _ _
      · rw [if_neg h1] at hf ⊢
        generalize (checkAndViewConst mU mU.type 2 .gpu _) = u at hf ⊢
        by_cases h2 : u.2 ≠ .success
        · rw [if_pos h2]
          exact job_none _ _
        · rw [if_neg h2] at hf ⊢
          by_cases h3 : cuda = false ∨ blocks (mU.shapeDim 0).toNat 256 = 0
          · rw [if_pos h3]
            exact job_none _ _
          · rw [if_neg h3] at hf
            exact absurd rfl hf

/-- One thread alone. -/
theorem yields_one (prog : Int → Prog Int) (t : Int) (a r : Arr Int) (h : (prog t).exec a = some r) :
    Yields prog [t] a r := by
  have hw : ∀ p : Prog Int, p.Within fun _ => True := by
    intro p
    induction p with
    | done => trivial
    | fault => trivial
    | read i k ih => exact ⟨trivial, ih⟩
    | write i v k ih => exact ⟨trivial, ih⟩
  refine yields_seq prog (fun _ _ => True) [t] (by simp) (fun t _ => hw _) ?_ a r (by simp [loop, h])
  intro t1 h1 t2 h2 hne
  rw [List.mem_singleton] at h1 h2
  exact absurd (h1.trans h2.symm) hne

/-- **C93 fails** on the CPU: an input found to have the wrong number of dimensions is reported, and the outputs are
overwritten all the same. -/
theorem C93_error_false : ∃ (uvw : Arr ℚ) (a : Arr Int),
    let job := clampCall false (singleRow 1 uvw 0 1 1 0 4) (wrap .double [1, 3]) ⟨wrap .int [1, 1], 0⟩
      ⟨wrap .int [1], 1⟩ ⟨wrap .int [1], 2⟩ ⟨wrap .int [1], 3⟩ (-1) (-1) .success
    job.status = .invalidArgument ∧ ∃ r, Yields job.prog job.threads a r ∧ r.get 3 ≠ a.get 3 := by
  refine ⟨⟨3, fun _ => 1⟩, ⟨4, fun j => if j = 1 then 10 else 0⟩, ?_⟩
  intro job
  have h1 : job.status = .invalidArgument := by decide +kernel
  have h2 : job.threads = [0] := by decide +kernel
  have h3 : ((job.prog 0).exec ⟨4, fun j => if j = 1 then 10 else 0⟩).map (fun r => r.get 3) = some 3 := by
    decide +kernel
  obtain ⟨r, r1, r2⟩ := Option.map_eq_some_iff.1 h3
  refine ⟨h1, r, ?_, ?_⟩
  · rw [h2]
    exact yields_one _ _ _ _ r1
  · rw [r2]
    decide

/-- **C93 fails** for a row range that is too long: on the CPU the call leaves its arrays, although the same call on
the GPU succeeds. -/
theorem C93_rows_false : ∃ (uvw : Arr ℚ) (a : Arr Int),
    let job := clampCall false (singleRow 1 uvw 0 1 1 0 4) (wrap .double [1, 3]) ⟨wrap .int [1], 0⟩
      ⟨wrap .int [1], 1⟩ ⟨wrap .int [1], 2⟩ ⟨wrap .int [1], 3⟩ 0 2 .success
    job.status = .success ∧ 1 ∈ job.threads ∧ (job.prog 1).exec a = none := by
  refine ⟨⟨3, fun _ => 1⟩, ⟨4, fun j => if j = 1 then 10 else 0⟩, ?_⟩
  intro job
  have h1 : job.status = .success := by decide +kernel
  have h2 : 1 ∈ job.threads := by decide +kernel
  have h3 : ((job.prog 1).exec ⟨4, fun j => if j = 1 then 10 else 0⟩).isNone = true := by decide +kernel
  exact ⟨h1, h2, Option.isNone_iff_eq_none.1 h3⟩

/-- **C93 fails** for a coordinate number other than 0, 1 and 2: it is not refused, and row 0 is clamped by a
coordinate of row 1. -/
theorem C93_dim_false : ∃ (uvw : Arr ℚ) (a : Arr Int),
    let job := clampCall false (singleRow 1 uvw 3 1 1 0 4) (wrap .double [2, 3]) ⟨wrap .int [2], 0⟩
      ⟨wrap .int [2], 2⟩ ⟨wrap .int [2], 4⟩ ⟨wrap .int [2], 6⟩ 0 1 .success
    job.status = .success ∧ (∀ j < 3, uvw.get j = 100) ∧ a.get 2 = 10 ∧
      ∃ r, Yields job.prog job.threads a r ∧ r.get 4 = 0 ∧ r.get 6 = 3 := by
  refine ⟨⟨6, fun j => if j < 3 then 100 else 1⟩, ⟨8, fun j => if j = 2 ∨ j = 3 then 10 else 0⟩, ?_⟩
  intro job
  have h1 : job.status = .success := by decide +kernel
  have h2 : job.threads = [0] := by decide +kernel
  have h3 : ((job.prog 0).exec ⟨8, fun j => if j = 2 ∨ j = 3 then 10 else 0⟩).map (fun r => (r.get 4, r.get 6)) =
    some (0, 3) := by decide +kernel
  obtain ⟨r, r1, r2⟩ := Option.map_eq_some_iff.1 h3
  refine ⟨h1, by decide, by decide, r, ?_, by simpa using congrArg Prod.fst r2, by simpa using congrArg Prod.snd r2⟩
  rw [h2]
  exact yields_one _ _ _ _ r1

/-- Two rows clamped in place on the GPU. -/
def exPos : Pos := ⟨fun i => i, fun i => 2 + i, fun i => i, fun i => 2 + i⟩

def gpuDesc (t : MemType) (shape : List Int) : Mem := (createWrapper (some ⟨0, 0⟩) t .gpu shape none .success).1

/-- Non-vacuity of C93: two rows clamped in place on the GPU. -/
example : Args true (gpuDesc .double [2, 3]) ⟨gpuDesc .int [2], 0⟩ ⟨gpuDesc .int [2], 2⟩ ⟨gpuDesc .int [2], 0⟩
    ⟨gpuDesc .int [2], 2⟩ 4 2 exPos ∧ GridUtil.Plane (gpuDesc .double [2, 3]) 6 2 3 fun i j => 3 * i + j := by
  have chan : ∀ b : Nat, b ≤ 2 → Chan ⟨gpuDesc .int [2], b⟩ (gpuDesc .double [2, 3]).location 4 2 (fun i => b + i) := by
    intro b hb
    have d : (gpuDesc .int [2]).type = .int ∧ (gpuDesc .int [2]).numDims = 1 ∧
        (gpuDesc .int [2]).location = (gpuDesc .double [2, 3]).location ∧ (gpuDesc .int [2]).data ≠ none := by decide
    refine ⟨d.1, d.2.1, d.2.2.1, d.2.2.2, fun i hi => ?_, fun i hi => by omega⟩
    have : (gpuDesc .int [2]).strideElementsDim 0 = 1 := by decide
    rw [this]
    push_cast
    ring
  refine ⟨⟨.inr ⟨by decide, rfl, by omega⟩, by decide, by decide, by decide, ?_, chan 2 (by omega), ?_,
    chan 2 (by omega), by decide, by decide, ⟨?_, ?_, ?_⟩⟩, ⟨by decide, by decide, by decide, ?_, ?_⟩⟩
  · have := chan 0 (by omega)
    simpa [exPos] using this
  · have := chan 0 (by omega)
    simpa [exPos] using this
  · intro i j hi hj hne x hx hy
    simp only [Pos.Row, exPos] at hx hy
    push_cast at hx hy
    omega
  · intro i hi
    simp only [exPos]
    omega
  · intro i hi
    simp only [exPos]
    omega
  · intro i j hi hj
    have h0 : (gpuDesc .double [2, 3]).strideElementsDim 0 = 3 := by decide
    have h1 : (gpuDesc .double [2, 3]).strideElementsDim 1 = 1 := by decide
    rw [h0, h1]
    push_cast
    ring
  · intro i j hi hj
    omega

end Sdp.Clamp
