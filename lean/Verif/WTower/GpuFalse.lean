import Verif.WTower.GpuProps
import Verif.WTower.Whole

/-!
# C92: a case that meets the hypotheses, and one that shows why they are needed
-/

namespace Sdp.WTower
open Sdp.Clamp Sdp.Race

/-- A tower that is non-zero in its first column only. -/
def exColumn : Arr ℚ := ⟨128, fun j => if j % 8 = 0 then 1 else 0⟩

/-- **C92 fails near the edge.**  A visibility passes the coordinate test (v = 9/4 of 4 pixels in the last channel) but
its footprint leaves the rows of the tower.  On the GPU the thread ends normally: it has read the first pixels of the
next rows, and an image outside the footprint changes the visibility. -/
theorem C92_edge_false :
    rowSel exPlan (exObs 0 (3 / 4) 0) 1 0 = some (0, 3) ∧
    (∀ k < 2, ∀ x < 8, ∀ y < 8, tower exPlan exColumn k x y ≠ 0 → wt exPlan (exObs 0 (3 / 4) 0) 1 0 2 k x y = 0) ∧
    ∃ r, (degridThread exPlan (exObs 0 (3 / 4) 0) 1 exColumn 1 0 1 0).exec exVis = some r ∧
      degridSum exPlan (exObs 0 (3 / 4) 0) 1 (tower exPlan exColumn) 0 2 = 0 ∧ r.get 2 ≠ exVis.get 2 := by
  have hw : ∀ k < 2, ∀ x < 8, ∀ y < 8, tower exPlan exColumn k x y ≠ 0 →
      wt exPlan (exObs 0 (3 / 4) 0) 1 0 2 k x y = 0 := by decide +kernel
  have h : ((degridThread exPlan (exObs 0 (3 / 4) 0) 1 exColumn 1 0 1 0).exec exVis).map (fun r => decide (r.get 2 ≠ exVis.get 2)) =
    some true := by decide +kernel
  refine ⟨by decide +kernel, hw, ?_⟩
  obtain ⟨r, h1, h2⟩ := Option.map_eq_some_iff.1 h
  refine ⟨r, h1, ?_, by simpa using h2⟩
  unfold degridSum
  split_ifs
  · refine Finset.sum_eq_zero fun k hk => Finset.sum_eq_zero fun x hx => Finset.sum_eq_zero fun y hy => ?_
    by_cases hz : tower exPlan exColumn k x y = 0
    · rw [hz, mul_zero]
    · have := hw k (Finset.mem_range.1 hk) x (Finset.mem_range.1 hx) y (Finset.mem_range.1 hy) hz
      rw [show ((2 : Nat) : Int) = 2 from rfl, this, zero_mul]
  · rfl

/-- Non-vacuity of C92: a plan, an observation with used visibilities and a tower, with 256 threads for one row. -/
example : exPlanC.Made ∧ exOb.Made 1 ∧ (∀ i, 0 ≤ i → i < 1 → i < 1 → ∀ c, Used exPlanC exOb 1 i c → Fits exPlanC exOb 1 i c) ∧
    Used exPlanC exOb 1 0 2 ∧ Parts ⟨256, fun j => j⟩ ⟨128, fun j => ⟨(2 * j : Nat), (2 * j + 1 : Nat)⟩⟩ ∧
    (rowThreads 1).length = 256 := by
  have hc := exCall 1 (by simp)
  refine ⟨exPlanC_made, exObs_made _ _ _, ?_, ?_, ?_, by simp [rowThreads, blocks]⟩
  · intro i _ h1 _
    exact hc.fits i (by simp; omega)
  · obtain ⟨r, h1, h2⟩ := rowSel_ok exPlanC exOb 1 1 (exObs_made _ _ _) 0 (by omega)
    rw [exSel 1 (by simp)] at h1
    obtain rfl := Option.some.inj h1
    exact (h2 2).1 (by simp)
  · refine ⟨rfl, fun j _ => ⟨rfl, rfl⟩⟩

end Sdp.WTower
