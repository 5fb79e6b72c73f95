import Verif.Clamp.Rows
import Verif.Wstack.Model

/-!
# One coordinate: every channel is in exactly one box
-/

namespace Sdp.Wstack

open Sdp.Clamp Sdp.GridUtil

variable {K : Type} [Field K] [LinearOrder K] [IsStrictOrderedRing K] [FloorRing K]

/-- When the numerical guard of the clamping cannot misjudge a row: the coordinate is
constant; or its channel step is not tiny compared with the box size; or all its
channels are inside one box. -/
def GuardOk (u0 du d : K) (numChan : Nat) : Prop :=
  du = 0 ∨ d < (2147483645 - numChan) * |du| ∨
    ∃ i : Int, ∀ ch : Int, 0 ≤ ch → ch < numChan →
      boxLo d i < coord u0 du ch ∧ coord u0 du ch < boxHi d i

omit [IsStrictOrderedRing K] in
theorem boxHi_eq (d : K) (i : Int) : boxHi d i = boxLo d i + d := by
  unfold boxHi boxLo; push_cast; ring

theorem box_floor {d : K} (hd : 0 < d) (i : Int) (c : K) :
    (boxLo d i ≤ c ∧ c < boxHi d i) ↔ i = ⌊c / d + 1 / 2⌋ := by
  rw [eq_comm, Int.floor_eq_iff]
  unfold boxLo boxHi
  have e : c / d * d = c := div_mul_cancel₀ c hd.ne'
  constructor
  · rintro ⟨h1, h2⟩
    push_cast at h2
    have h1' : (i : K) - 1 / 2 ≤ c / d := by rw [le_div_iff₀ hd]; linarith
    have h2' : c / d < (i : K) + 1 - 1 / 2 := by rw [div_lt_iff₀ hd]; linarith
    exact ⟨by linarith, by linarith⟩
  · rintro ⟨h1, h2⟩
    have h1' : (i : K) - 1 / 2 ≤ c / d := by linarith
    have h2' : c / d < (i : K) + 1 - 1 / 2 := by linarith
    rw [le_div_iff₀ hd] at h1'
    rw [div_lt_iff₀ hd] at h2'
    push_cast
    exact ⟨by linarith, by linarith⟩

theorem box_ceil {d : K} (hd : 0 < d) (i : Int) (c : K) :
    (boxLo d i < c ∧ c ≤ boxHi d i) ↔ i = ⌈c / d + 1 / 2⌉ - 1 := by
  have : i = ⌈c / d + 1 / 2⌉ - 1 ↔ ⌈c / d + 1 / 2⌉ = i + 1 := by omega
  rw [this, Int.ceil_eq_iff]
  unfold boxLo boxHi
  constructor
  · rintro ⟨h1, h2⟩
    push_cast at h2 ⊢
    have h1' : (i : K) - 1 / 2 < c / d := by rw [lt_div_iff₀ hd]; linarith
    have h2' : c / d ≤ (i : K) + 1 - 1 / 2 := by rw [div_le_iff₀ hd]; linarith
    exact ⟨by linarith, by linarith⟩
  · rintro ⟨h1, h2⟩
    push_cast at h1 h2 ⊢
    have h1' : (i : K) - 1 / 2 < c / d := by linarith
    have h2' : c / d ≤ (i : K) + 1 - 1 / 2 := by linarith
    rw [lt_div_iff₀ hd] at h1'
    rw [div_le_iff₀ hd] at h2'
    exact ⟨by linarith, by linarith⟩

/-- A box near channel 0 or near the channel is resolved when the step is not tiny. -/
theorem near_resolved {u0 du d : K} {N : Nat}
    (h : d < (2147483645 - N) * |du|) (i : Int) (ch : Int) (h0 : 0 ≤ ch) (h1 : ch < N)
    (hlo : boxLo d i ≤ coord u0 du ch) (hhi : coord u0 du ch ≤ boxHi d i) :
    resolved u0 du (boxLo d i) (boxHi d i) := by
  have e := boxHi_eq d i
  have hc : |coord u0 du ch - u0| ≤ N * |du| := by
    have : coord u0 du ch - u0 = du * ch := by unfold coord; ring
    rw [this, abs_mul, mul_comm]
    apply mul_le_mul_of_nonneg_right _ (abs_nonneg _)
    have h0' : (0 : K) ≤ ch := by exact_mod_cast h0
    rw [abs_of_nonneg h0']
    have : ch ≤ (N : Int) := by omega
    exact_mod_cast this
  have hb := abs_le.1 hc
  have expand : (2147483645 - (N : K)) * |du| = 2147483645 * |du| - N * |du| := by ring
  rw [expand] at h
  unfold resolved
  constructor
  · rw [abs_lt]; constructor <;> linarith
  · rw [abs_lt]; constructor <;> linarith

/-- Every channel of a row is selected by exactly one box, which is the one its
coordinate lies in. -/
theorem axis_unique {u0 du d : K} (hd : 0 < d) {N : Nat} (hg : GuardOk u0 du d N)
    (ch : Int) (h0 : 0 ≤ ch) (h1 : ch < N) :
    ∃ i : Int, Sel u0 du (boxLo d i) (boxHi d i) ch ∧
      (∀ j : Int, Sel u0 du (boxLo d j) (boxHi d j) ch → j = i) ∧
      (i = ⌊coord u0 du ch / d + 1 / 2⌋ ∨ i = ⌈coord u0 du ch / d + 1 / 2⌉ - 1) := by
  rcases hg with rfl | hg | ⟨i, hi⟩
  · refine ⟨⌊coord u0 0 ch / d + 1 / 2⌋, ?_, ?_, Or.inl rfl⟩
    · rw [sel_zero]
      exact (box_floor hd _ _).2 rfl
    · intro j hj
      rw [sel_zero] at hj
      exact (box_floor hd _ _).1 hj
  · -- step not tiny: every relevant box is resolved
    have hN : (0 : Int) < N := by omega
    have hu0 : coord u0 du 0 = u0 := by simp [coord]
    have hdu : du ≠ 0 := by
      rintro rfl
      rw [abs_zero, mul_zero] at hg
      exact absurd hg (not_lt.2 hd.le)
    have other : ∀ j : Int, ¬ resolved u0 du (boxLo d j) (boxHi d j) →
        ¬ (boxLo d j ≤ u0 ∧ u0 < boxHi d j) := by
      intro j hr ⟨ha, hb⟩
      apply hr
      refine near_resolved hg j 0 (le_refl _) hN ?_ ?_
      · rw [hu0]; exact ha
      · rw [hu0]; exact hb.le
    rcases lt_or_gt_of_ne hdu with hneg | hpos
    · have hm := (box_ceil hd (⌈coord u0 du ch / d + 1 / 2⌉ - 1) (coord u0 du ch)).2 rfl
      refine ⟨_, ?_, ?_, Or.inr rfl⟩
      · rw [sel_falling (near_resolved hg _ ch h0 h1 hm.1.le hm.2) hneg]
        exact hm
      · intro j hj
        by_cases hr : resolved u0 du (boxLo d j) (boxHi d j)
        · rw [sel_falling hr hneg] at hj
          exact (box_ceil hd j _).1 hj
        · rw [sel_guarded hr] at hj
          exact absurd hj (other j hr)
    · have hm := (box_floor hd (⌊coord u0 du ch / d + 1 / 2⌋) (coord u0 du ch)).2 rfl
      refine ⟨_, ?_, ?_, Or.inl rfl⟩
      · rw [sel_rising (near_resolved hg _ ch h0 h1 hm.1 hm.2.le) hpos]
        exact hm
      · intro j hj
        by_cases hr : resolved u0 du (boxLo d j) (boxHi d j)
        · rw [sel_rising hr hpos] at hj
          exact (box_floor hd j _).1 hj
        · rw [sel_guarded hr] at hj
          exact absurd hj (other j hr)
  · -- all channels in one box
    have hN : (0 : Int) < N := by omega
    have hu0 : coord u0 du 0 = u0 := by simp [coord]
    have h00 := hi 0 (le_refl _) hN
    rw [hu0] at h00
    have hch := hi ch h0 h1
    have hif := (box_floor hd i (coord u0 du ch)).1 ⟨hch.1.le, hch.2⟩
    refine ⟨i, ?_, ?_, Or.inl hif⟩
    · by_cases hr : resolved u0 du (boxLo d i) (boxHi d i)
      · rcases lt_or_gt_of_ne (resolved_ne hr) with hneg | hpos
        · rw [sel_falling hr hneg]; exact ⟨hch.1, hch.2.le⟩
        · rw [sel_rising hr hpos]; exact ⟨hch.1.le, hch.2⟩
      · rw [sel_guarded hr]; exact ⟨h00.1.le, h00.2⟩
    · intro j hj
      by_cases hr : resolved u0 du (boxLo d j) (boxHi d j)
      · rcases lt_or_gt_of_ne (resolved_ne hr) with hneg | hpos
        · rw [sel_falling hr hneg] at hj
          rw [(box_ceil hd j _).1 hj, (box_ceil hd i _).1 ⟨hch.1, hch.2.le⟩]
        · rw [sel_rising hr hpos] at hj
          rw [(box_floor hd j _).1 hj, ← hif]
      · rw [sel_guarded hr] at hj
        rw [(box_floor hd j _).1 hj, (box_floor hd i _).1 ⟨h00.1.le, h00.2⟩]

/-- The box of every coordinate inside the bounds is between the computed minimum and
maximum index. -/
theorem idx_covers {d c lo hi : K} (hd : 0 < d) (h1 : lo ≤ c) (h2 : c ≤ hi) {i : Int}
    (hi' : i = ⌊c / d + 1 / 2⌋ ∨ i = ⌈c / d + 1 / 2⌉ - 1) :
    ⌊lo / d + 1 / 2 - 1 / 100000⌋ ≤ i ∧ i ≤ ⌊hi / d + 1 / 2 + 1 / 100000⌋ := by
  have a1 : lo / d ≤ c / d := by gcongr
  have a2 : c / d ≤ hi / d := by gcongr
  have e5 : (0 : K) < 1 / 100000 := by norm_num
  rcases hi' with rfl | rfl
  · exact ⟨Int.floor_le_floor (by linarith), Int.floor_le_floor (by linarith)⟩
  · constructor
    · have b1 := Int.floor_le (lo / d + 1 / 2 - 1 / 100000)
      have b2 := Int.le_ceil (c / d + 1 / 2)
      have : ((⌊lo / d + 1 / 2 - 1 / 100000⌋ : Int) : K) < ((⌈c / d + 1 / 2⌉ : Int) : K) := by
        linarith
      have := Int.cast_lt.1 this
      omega
    · rw [Int.le_floor]
      have b3 := Int.ceil_lt_add_one (c / d + 1 / 2)
      push_cast
      linarith

end Sdp.Wstack
