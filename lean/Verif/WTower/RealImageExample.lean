import Verif.WTower.RealImage

/-!
# C126, gridding into a real image: an example
-/

namespace Sdp.WTower
open Sdp.Fft Sdp.GridUtil Sdp.Clamp
open Finset hiding univ

noncomputable section

theorem ex_wt (c : Int) (k x y : Nat) :
    wt exPlanC exOb 1 0 c k x y = ((wt exPlan exOb 1 0 c k x y : ℚ) : ℂ) := by
  have hw : ∀ w, wTapAt exPlanC w k = ((wTapAt exPlan w k : ℚ) : ℂ) := by
    intro w
    have e : wTapAt exPlanC w k = ((exPlan.wSupport * (rnd (w / exPlan.wStep * exPlan.wOv) % exPlan.wOv) + k).toNat : ℂ)
      + 1 := rfl
    have e2 : wTapAt exPlan w k = ((exPlan.wSupport * (rnd (w / exPlan.wStep * exPlan.wOv) % exPlan.wOv) + k).toNat : ℚ)
      + 1 := rfl
    rw [e, e2]
    push_cast
    rfl
  have ht : ∀ u x, tapAt exPlanC u x = ((tapAt exPlan u x : ℚ) : ℂ) := by
    intro u x
    have e : tapAt exPlanC u x = if pos exPlan u / exPlan.ov ≤ x ∧ (x : Int) < pos exPlan u / exPlan.ov + exPlan.support
        then ((exPlan.support * (pos exPlan u % exPlan.ov) + (x - pos exPlan u / exPlan.ov)).toNat : ℂ) else 0 := rfl
    have e2 : tapAt exPlan u x = if pos exPlan u / exPlan.ov ≤ x ∧ (x : Int) < pos exPlan u / exPlan.ov + exPlan.support
        then ((exPlan.support * (pos exPlan u % exPlan.ov) + (x - pos exPlan u / exPlan.ov)).toNat : ℚ) else 0 := rfl
    rw [e, e2]
    split_ifs
    · push_cast
      rfl
    · simp
  have e : wt exPlanC exOb 1 0 c k x y = wTapAt exPlanC (wAt exPlan exOb 1 0 c) k *
      tapAt exPlanC (uAt exPlan exOb 0 c) x * tapAt exPlanC (vAt exPlan exOb 0 c) y := rfl
  rw [e, hw, ht, ht]
  unfold wt
  push_cast
  rfl

theorem ex_used (p : Int) (hp : p = 0 ∨ p = 1 ∨ p = 2) (c : Nat) : Used exPlanC exOb p 0 c ↔ p = 1 ∧ c < 3 := by
  obtain ⟨r, h1, h2⟩ := rowSel_ok exPlanC exOb p 1 (exObs_made _ _ _) 0 (by omega)
  rw [exSel p hp] at h1
  obtain rfl := Option.some.inj h1
  rw [← h2]
  by_cases h : p = 1
  · rw [if_pos h]
    simp only
    omega
  · rw [if_neg h]
    simp only
    omega

/-- Sum of the weights of one layer. -/
def exSum (k : Nat) : ℚ :=
  ∑ a ∈ range 8, ∑ b ∈ range 8, ∑ c ∈ range 3, wt exPlan exOb 1 0 c k a b

theorem exSum_pos : exSum 0 ≠ 0 := by
  unfold exSum
  decide +kernel

theorem ex_centre (p : Int) (hp : p = 0 ∨ p = 1 ∨ p = 2) (k : Nat) :
    centred true 8 8 (gridSum exPlanC exOb p [0] (visAt exOb ⟨3, fun _ => 1⟩) k) 4 4 =
      if p = 1 then (exSum k : ℂ) else 0 := by
  have hc : ∀ f : Nat → Nat → ℂ, centred true 8 8 f 4 4 = ∑ a ∈ range 8, ∑ b ∈ range 8, f a b := by
    intro f
    unfold centred
    refine sum_congr rfl fun a _ => sum_congr rfl fun b _ => ?_
    simp
  rw [hc]
  have hg : ∀ a b, gridSum exPlanC exOb p [0] (visAt exOb ⟨3, fun _ => 1⟩) k a b =
      if p = 1 then ((∑ c ∈ range 3, wt exPlan exOb 1 0 c k a b : ℚ) : ℂ) else 0 := by
    intro a b
    unfold gridSum
    rw [List.map_singleton, List.sum_singleton]
    by_cases h : p = 1
    · subst h
      rw [if_pos rfl]
      push_cast
      refine sum_congr rfl fun c hc => ?_
      rw [if_pos ((ex_used 1 hp c).2 ⟨rfl, mem_range.1 hc⟩), ex_wt]
      simp [visAt]
    · rw [if_neg h]
      refine sum_eq_zero fun c _ => ?_
      rw [if_neg fun hu => h ((ex_used p hp c).1 hu).1]
  simp only [hg]
  by_cases h : p = 1
  · simp only [if_pos h]
    unfold exSum
    push_cast
    rfl
  · simp only [if_neg h, sum_const_zero]

/-- Arrays of the example: one row, three channels, a real image of 8 x 8. -/
def exRealArgs : CallArgs :=
  ⟨cpuMem .complexDouble [1, 3], cpuMem .double [8, 8], cpuMem .double [1, 3], cpuMem .int [1], cpuMem .int [1]⟩

theorem exReal_args : exRealArgs.RealGridArgs := by
  refine ⟨⟨by decide, by decide, by decide, by decide, by decide, by decide, by decide, by decide, by decide, by decide,
    by decide, by decide⟩, by decide, by decide, by decide, by decide⟩

/-- The hypotheses of `C126_real_image_false` are met: one row of three visibilities of 1 on the middle one of three
planes, and a pattern of `i`.  The centre of the image is due the sum of the weights of layer 0 and gets the opposite. -/
theorem C126_real_image_witness :
    exRealArgs.RealGridArgs ∧ exRealArgs.img.shapeDim 0 = exPlanC.n ∧ exRealArgs.img.shapeDim 1 = exPlanC.n ∧
    (exRealArgs.uvw.shapeDim 0).toNat = 1 ∧ Env exPlanC ⟨64, fun _ => Complex.I⟩ ∧
    (∃ b, Planes exPlanC (fixFreq exOb) 1 b (0, 2)) ∧
    (∀ p : Int, 0 ≤ p → p ≤ 2 → Call exPlanC (fixFreq exOb) p 1 (rowList 1 (-1) (-1))) ∧
    (due exPlanC exOb 1 ⟨64, fun _ => Complex.I⟩ ⟨3, fun _ => 1⟩ (-1) (-1) (0, 2) 4 4 /
      im exPlanC.n ⟨64, fun _ => Complex.I⟩ 4 4 ^ ((2 : Int) + ((exPlanC.wSupport / 2 : Nat) : Int) - 1)).re ≠
        (due exPlanC exOb 1 ⟨64, fun _ => Complex.I⟩ ⟨3, fun _ => 1⟩ (-1) (-1) (0, 2) 4 4).re := by
  refine ⟨exReal_args, by decide, by decide, by decide, exWhole.2.2.1, exWhole.1, exWhole.2.1, ?_⟩
  have hf : fixFreq exOb = exOb := by
    unfold fixFreq exOb exObs
    rw [if_neg (by norm_num)]
  have hr : rowList 1 (-1) (-1) = [0] := by decide
  have hd : due exPlanC exOb 1 ⟨64, fun _ => Complex.I⟩ ⟨3, fun _ => 1⟩ (-1) (-1) (0, 2) 4 4 =
      (exSum 0 : ℂ) + Complex.I * exSum 1 := by
    unfold due
    rw [hf, hr]
    have hI : Finset.Icc (0 : Int) 2 = {0, 1, 2} := by decide
    have hn : exPlanC.n = 8 := rfl
    have hws : exPlanC.wSupport = 2 := rfl
    simp only [hI, hn, hws]
    rw [sum_insert (by decide), sum_insert (by decide), sum_singleton]
    simp only [ex_centre 0 (by omega), ex_centre 1 (by omega), ex_centre 2 (by omega)]
    simp [sum_range_succ, im]
  have hp : im exPlanC.n ⟨64, fun _ => Complex.I⟩ 4 4 ^ ((2 : Int) + ((exPlanC.wSupport / 2 : Nat) : Int) - 1) = -1 := by
    have : ((2 : Int) + ((exPlanC.wSupport / 2 : Nat) : Int) - 1) = ((2 : Nat) : Int) := by decide
    rw [this, zpow_natCast]
    exact Complex.I_sq
  rw [hd, hp]
  have hs := exSum_pos
  intro h
  have h1 : (exSum 0 : ℝ) = 0 := by
    have hz : ((exSum 0 : ℂ) + Complex.I * exSum 1).re = (exSum 0 : ℝ) := by simp
    rw [div_neg, div_one, Complex.neg_re, hz] at h
    linarith
  exact hs (by exact_mod_cast h1)

end
end Sdp.WTower
