import Verif.Common.Team
import Verif.GridUtil.Residual
import Verif.GridUtil.Bounds

/-!
# `reduction(+:x)` (grid_data/sdp_gridder_utils.cpp:473 and 672)

Every thread adds up its own iterations, starting from zero; the sums of the threads are added to the variable
in an order that is not specified.
-/

namespace Sdp.Omp
open Race

section
variable {M : Type} [AddCommMonoid M]

/-- The private variable of a thread at the end of its iterations, sdp_gridder_utils.cpp:473-480 and 672-676. -/
def threadSum (term : Nat → Option M) (its : List Nat) : Option M :=
  loop (fun sum i => (term i).map fun x => sum + x) 0 its

/-- The variable after the loop; `order` are the threads (each with its iterations) in the order in which their
sums are added, sdp_gridder_utils.cpp:473 and 672. -/
def reduction (term : Nat → Option M) (order : List (List Nat)) (start : M) : Option M :=
  loop (fun sum its => (threadSum term its).map fun x => sum + x) start order

theorem loop_sum {β : Type} (term : β → Option M) (l : List β) (a r : M)
    (h : loop (fun sum i => (term i).map fun x => sum + x) a l = some r) :
    (∀ i ∈ l, ∃ x, term i = some x) ∧ r = a + (l.map fun i => (term i).getD 0).sum := by
  induction l generalizing a with
  | nil =>
    simp only [loop, Option.some.injEq] at h
    subst h
    exact ⟨by simp, by simp⟩
  | cons i l ih =>
    simp only [loop] at h
    cases hx : term i with
    | none => rw [hx] at h; simp at h
    | some x =>
      rw [hx] at h
      simp only [Option.map_some, Option.bind_some] at h
      obtain ⟨h1, h2⟩ := ih (a + x) h
      refine ⟨fun j hj => ?_, ?_⟩
      · rcases List.mem_cons.1 hj with rfl | hj
        · exact ⟨x, hx⟩
        · exact h1 j hj
      · rw [h2, List.map_cons, List.sum_cons, hx, Option.getD_some, add_assoc]

theorem loop_sum_ok {β : Type} (term : β → Option M) (l : List β) (a : M) (h : ∀ i ∈ l, ∃ x, term i = some x) :
    loop (fun sum i => (term i).map fun x => sum + x) a l = some (a + (l.map fun i => (term i).getD 0).sum) := by
  induction l generalizing a with
  | nil => simp [loop]
  | cons i l ih =>
    obtain ⟨x, hx⟩ := h i (by simp)
    simp only [loop]
    rw [hx]
    simp only [Option.map_some, Option.bind_some]
    rw [ih _ fun j hj => h j (by simp [hj]), List.map_cons, List.sum_cons, hx, Option.getD_some, add_assoc]

/-- **C125, reductions.**  If the serial loop ends with `r`, so does the parallel one: whatever the team, the
order of the iterations of a thread and the order in which the sums of the threads are added. -/
theorem C125_reduction (term : Nat → Option M) (n : Nat) (start r : M)
    (hr : loop (fun sum i => (term i).map fun x => sum + x) start (List.range n) = some r)
    (chunks order : List (List Nat)) (hc : Team n chunks) (ho : order.Perm chunks) :
    reduction term order start = some r := by
  obtain ⟨h1, rfl⟩ := loop_sum term _ _ _ hr
  have hp : order.flatten.Perm (List.range n) := (ho.flatten).trans hc
  have hall : ∀ its ∈ order, ∀ i ∈ its, ∃ x, term i = some x := fun its hi i h =>
    h1 i (hp.mem_iff.1 (List.mem_flatten.2 ⟨its, hi, h⟩))
  have ht : ∀ its ∈ order, threadSum term its = some (its.map fun i => (term i).getD 0).sum := by
    intro its hi
    unfold threadSum
    rw [loop_sum_ok term its 0 (hall its hi), zero_add]
  unfold reduction
  rw [loop_sum_ok (threadSum term) order start fun its hi => ⟨_, ht its hi⟩]
  congr 2
  rw [← (hp.map fun i => (term i).getD 0).sum_eq, List.map_flatten, List.sum_flatten, List.map_map]
  refine congrArg List.sum (List.map_congr_left fun its hi => ?_)
  rw [ht its hi]
  rfl
end

/-- Term `k` of the loop of `sum_diff`, sdp_gridder_utils.cpp:672-676; the loop starts at row `first`. -/
def diffTerm (a b : Arr Int) (first : Int) (k : Nat) : Option Int :=
  (a.read (first + k)).bind fun x => (b.read (first + k)).map fun y => x - y

/-- **C125, the number of visibilities in a range of rows.** -/
theorem C125_sum_diff (a b : Arr Int) (startRow endRow v : Int) (h0 : 0 ≤ startRow) (h1 : 0 ≤ endRow)
    (hr : GridUtil.sumDiff a b startRow endRow = some v) (chunks order : List (List Nat))
    (hc : Team (endRow - startRow).toNat chunks) (ho : order.Perm chunks) :
    reduction (diffTerm a b startRow) order 0 = some v := by
  refine C125_reduction _ _ 0 v ?_ chunks order hc ho
  unfold GridUtil.sumDiff at hr
  rw [if_neg (by omega)] at hr
  rw [← hr]
  refine loop_congr _ _ _ _ fun k _ s => ?_
  unfold diffTerm
  cases a.read (startRow + k) with
  | none => rfl
  | some x => cases b.read (startRow + k) <;> rfl

noncomputable section

/-- Term `k` of the two loops of `rms_diff`, which `collapse(2)` makes one, sdp_gridder_utils.cpp:473-480. -/
def rmsTerm (va vb : View) (a b : Arr ℂ) (k : Nat) : Option ℝ :=
  let p := (k / GridUtil.cols va, k % GridUtil.cols va)
  (a.read (GridUtil.addr va p)).bind fun x => (b.read (GridUtil.addr vb p)).map fun y => Complex.normSq (x - y)

theorem nest2_collapse (m n : Nat) : nest2 m n = (List.range (m * n)).map fun k => (k / n, k % n) := by
  induction m with
  | zero => simp [nest2]
  | succ m ih =>
    rw [show nest2 (m + 1) n = nest2 m n ++ (List.range n).map fun j => (m, j) by
      unfold nest2
      rw [List.range_succ, List.flatMap_append]
      simp, ih, Nat.succ_mul, List.range_add, List.map_append, List.map_map]
    congr 1
    refine List.map_congr_left fun j hj => ?_
    have hj := List.mem_range.1 hj
    have hn : 0 < n := by omega
    show (m, j) = ((m * n + j) / n, (m * n + j) % n)
    rw [Nat.add_comm, Nat.add_mul_div_right _ _ hn, Nat.div_eq_of_lt hj, Nat.add_mul_mod_self_right,
      Nat.mod_eq_of_lt hj, Nat.zero_add]

/-- **C125, the root mean square of a difference.**  What is done with the sum afterwards does not depend on the
threads. -/
theorem C125_rms (va vb : View) (a b : Arr ℂ) (v : GridUtil.Rms)
    (hr : GridUtil.rmsDiff va vb a b (nest2 (GridUtil.rows va) (GridUtil.cols va)) = some v) :
    ∃ sum : ℝ, v = (if GridUtil.rows va * GridUtil.cols va = 0 then .nan
        else .value (Real.sqrt (sum / (GridUtil.rows va * GridUtil.cols va : Nat)))) ∧
      ∀ chunks order, Team (GridUtil.rows va * GridUtil.cols va) chunks → order.Perm chunks →
        reduction (rmsTerm va vb a b) order 0 = some sum := by
  unfold GridUtil.rmsDiff at hr
  split at hr
  · cases hr
  · obtain ⟨sum, hs, hr⟩ := Option.bind_eq_some_iff.1 hr
    injection hr with hr
    refine ⟨sum, hr.symm, fun chunks order hc ho => C125_reduction _ _ 0 sum ?_ chunks order hc ho⟩
    rw [nest2_collapse, loop_map] at hs
    rw [← hs]
    refine loop_congr _ _ _ _ fun k _ s => ?_
    unfold rmsTerm
    dsimp only
    cases a.read (GridUtil.addr va (k / GridUtil.cols va, k % GridUtil.cols va)) with
    | none => rfl
    | some x => cases b.read (GridUtil.addr vb (k / GridUtil.cols va, k % GridUtil.cols va)) <;> rfl

end

/-- Non-vacuity: four rows on two threads, the second thread first. -/
example : reduction (diffTerm ⟨4, fun i => 10 * i + 3⟩ ⟨4, fun i => i⟩ 0) [[3, 1], [2, 0]] 0 = some 66 :=
  C125_sum_diff ⟨4, fun i => 10 * i + 3⟩ ⟨4, fun i => i⟩ 0 4 66 (by decide) (by decide) (by decide +kernel)
    [[2, 0], [3, 1]] _ (by unfold Team; decide) (List.Perm.swap _ _ _)

end Sdp.Omp
