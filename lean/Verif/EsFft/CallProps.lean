import Mathlib.Algebra.BigOperators.Fin
import Mathlib.Algebra.BigOperators.Ring.Finset
import Mathlib.Analysis.SpecialFunctions.Complex.Circle
import Mathlib.Tactic.LinearCombination
import Verif.EsFft.CallSpec
import Verif.EsFft.KernelProps
import Verif.EsFft.ImageProps

/-!
# C101: whole calls of the ES gridder
-/

set_option linter.unusedSectionVars false

namespace Sdp.EsFft
open Finset Race
noncomputable section

/-! ## Complex numbers and pairs -/

theorem toC_ofC (z : ℂ) : toC (ofC z) = z := rfl

theorem toC_smul (a : ℝ) (z : ℝ × ℝ) : toC (a • z) = (a : ℂ) * toC z := by
  apply Complex.ext <;> simp [toC]

theorem toC_add (z w : ℝ × ℝ) : toC (z + w) = toC z + toC w := rfl

theorem toC_zero : toC 0 = 0 := rfl

theorem toC_sum {ι : Type} (s : Finset ι) (f : ι → ℝ × ℝ) : toC (∑ i ∈ s, f i) = ∑ i ∈ s, toC (f i) := by
  classical
  induction s using Finset.induction_on with
  | empty => rfl
  | insert i s hi ih => rw [sum_insert hi, sum_insert hi, toC_add, ih]

theorem toC_inj {z w : ℝ × ℝ} (h : toC z = toC w) : z = w := by
  have h1 := congrArg Complex.re h
  have h2 := congrArg Complex.im h
  exact Prod.ext h1 h2

theorem reMul_toC (z w : ℝ × ℝ) : reMul z w = (toC z * toC w).re := by
  simp [reMul, toC]

/-! ## Phases -/

theorem sign_exp (n : Int) : (((if Even n then 1 else -1 : ℝ)) : ℂ) = Complex.exp (Real.pi * n * Complex.I) := by
  by_cases h : Even n
  · rw [if_pos h]
    obtain ⟨k, rfl⟩ := h
    have := Complex.exp_int_mul_two_pi_mul_I k
    rw [show (Real.pi * ((k + k : Int) : ℂ) * Complex.I : ℂ) = k * (2 * Real.pi * Complex.I) by push_cast; ring, this]
    simp
  · rw [if_neg h]
    obtain ⟨k, rfl⟩ := Int.not_even_iff_odd.1 h
    have := Complex.exp_int_mul_two_pi_mul_I k
    rw [show (Real.pi * ((2 * k + 1 : Int) : ℂ) * Complex.I : ℂ) = k * (2 * Real.pi * Complex.I) + Real.pi * Complex.I by
      push_cast; ring, Complex.exp_add, this, Complex.exp_pi_mul_I]
    simp

theorem phase_eq (h x y X Y : Nat) (hh : 0 < h) :
    ((if Even (((x : Int) - h) + ((y : Int) - h)) then 1 else -1 : ℝ) : ℂ) *
      ((if Even (((X : Int) - h) + ((Y : Int) - h)) then 1 else -1 : ℝ) : ℂ) *
      Complex.exp (((1 : ℝ) : ℂ) * ((2 * Real.pi * ((x : ℝ) * X + y * Y) / ((2 * h : Nat) : ℝ) : ℝ) : ℂ) * Complex.I) =
    Complex.exp (2 * Real.pi * ((((x : ℝ) - h : ℝ) : ℂ) * (((X : ℝ) - h : ℝ) : ℂ) + (((y : ℝ) - h : ℝ) : ℂ) *
      (((Y : ℝ) - h : ℝ) : ℂ)) / ((2 * h : Nat) : ℂ) * Complex.I) := by
  rw [sign_exp, sign_exp, ← Complex.exp_add, ← Complex.exp_add]
  have hc : (h : ℂ) ≠ 0 := by exact_mod_cast hh.ne'
  have e : (Real.pi * ((((x : Int) - h + ((y : Int) - h) : Int)) : ℂ) * Complex.I + Real.pi * ((((X : Int) - h + ((Y : Int) - h) : Int)) : ℂ) * Complex.I +
      ((1 : ℝ) : ℂ) * ((2 * Real.pi * ((x : ℝ) * X + y * Y) / ((2 * h : Nat) : ℝ) : ℝ) : ℂ) * Complex.I : ℂ) =
      2 * Real.pi * ((((x : ℝ) - h : ℝ) : ℂ) * (((X : ℝ) - h : ℝ) : ℂ) + (((y : ℝ) - h : ℝ) : ℂ) *
      (((Y : ℝ) - h : ℝ) : ℂ)) / ((2 * h : Nat) : ℂ) * Complex.I +
      (((x : Int) + y + X + Y - 3 * h : Int) : ℂ) * (2 * Real.pi * Complex.I) := by
    push_cast
    field_simp
    ring
  rw [e, Complex.exp_add, Complex.exp_int_mul_two_pi_mul_I, mul_one]

/-- The same with the sign of the exponent changed. -/
theorem phase_conj (h x y X Y : Nat) (hh : 0 < h) :
    ((if Even (((x : Int) - h) + ((y : Int) - h)) then 1 else -1 : ℝ) : ℂ) *
      ((if Even (((X : Int) - h) + ((Y : Int) - h)) then 1 else -1 : ℝ) : ℂ) *
      Complex.exp (((-1 : ℝ) : ℂ) * ((2 * Real.pi * ((x : ℝ) * X + y * Y) / ((2 * h : Nat) : ℝ) : ℝ) : ℂ) * Complex.I) =
    (starRingEnd ℂ) (Complex.exp (2 * Real.pi * ((((x : ℝ) - h : ℝ) : ℂ) * (((X : ℝ) - h : ℝ) : ℂ) + (((y : ℝ) - h : ℝ) : ℂ) *
      (((Y : ℝ) - h : ℝ) : ℂ)) / ((2 * h : Nat) : ℂ) * Complex.I)) := by
  rw [← phase_eq h x y X Y hh, map_mul, map_mul, Complex.conj_ofReal, Complex.conj_ofReal, ← Complex.exp_conj, map_mul,
    map_mul, Complex.conj_ofReal, Complex.conj_ofReal, Complex.conj_I]
  congr 2
  push_cast
  ring

/-! ## Screens -/

theorem off_sq (P : Plan) (k : Nat) : (P.pixel * ((((k : Int) - (P.image / 2 : Nat)).natAbs : Nat) : ℝ)) ^ 2 = (P.pixel * P.off k) ^ 2 := by
  rw [mul_pow, mul_pow]
  congr 1
  have : ((((k : Int) - (P.image / 2 : Nat)).natAbs : Nat) : ℝ) = |(((k : Int) - (P.image / 2 : Nat) : Int) : ℝ)| := by
    rw [Nat.cast_natAbs, Int.cast_abs]
  rw [this, sq_abs]
  unfold Plan.off
  push_cast
  rfl

theorem screen_eq (P : Plan) (b row col : Nat) (hs : P.wstack = true → 0 < P.n row col) :
    toC (P.screen (-1) b ((col : Int) - (P.image / 2 : Nat)).natAbs ((row : Int) - (P.image / 2 : Nat)).natAbs) =
      P.layer b row col := by
  unfold Plan.screen Plan.layer
  by_cases hw : P.wstack = true
  · rw [if_pos hw, if_pos hw]
    have hn := hs hw
    unfold phaseShift
    simp only
    have e1 := off_sq P row
    have e2 := off_sq P col
    generalize P.pixel * ((((row : Int) - (P.image / 2 : Nat)).natAbs : Nat) : ℝ) = m at *
    generalize P.pixel * ((((col : Int) - (P.image / 2 : Nat)).natAbs : Nat) : ℝ) = l at *
    have hr : Real.sqrt (1 - (l * l + m * m)) = P.n row col := by
      unfold Plan.n
      rw [← e1, ← e2]
      congr 1
      ring
    have hp : 0 ≤ 1 - (l * l + m * m) := by
      by_contra h
      rw [Real.sqrt_eq_zero_of_nonpos (le_of_lt (not_le.1 h))] at hr
      exact absurd hr.symm (ne_of_gt hn)
    have hsq : P.n row col ^ 2 = 1 - (l * l + m * m) := by rw [← hr, Real.sq_sqrt hp]
    have hnm : -(l * l + m * m) / (Real.sqrt (1 - (l * l + m * m)) + 1) = P.n row col - 1 := by
      rw [hr, div_eq_iff (by positivity)]
      linear_combination -hsq
    rw [hnm]
    generalize P.n row col = n at *
    have hn' : (n : ℂ) ≠ 0 := by exact_mod_cast hn.ne'
    have hx : (-2 * Real.pi * P.planeAt b * (n - 1) * Complex.I : ℂ) =
        ((-1 * (2 * Real.pi * (b * (1 / P.wScale) + P.minPlane) * (n - 1)) : ℝ) : ℂ) * Complex.I := by
      unfold Plan.planeAt
      push_cast
      ring
    rw [hx]
    generalize (-1 * (2 * Real.pi * (b * (1 / P.wScale) + P.minPlane) * (n - 1)) : ℝ) = t
    rw [Complex.exp_mul_I, ← Complex.ofReal_cos, ← Complex.ofReal_sin, sub_add_cancel, one_div, div_eq_mul_inv (_ : ℂ),
      ← Complex.ofReal_inv]
    generalize Real.cos t = p
    generalize Real.sin t = q
    apply Complex.ext <;> simp [toC]
  · rw [if_neg hw, if_neg hw]
    rfl

theorem screen_conj (P : Plan) (b i j : Nat) : toC (P.screen 1 b i j) = (starRingEnd ℂ) (toC (P.screen (-1) b i j)) := by
  unfold Plan.screen
  split
  · unfold phaseShift
    apply Complex.ext <;> simp [toC]
  · apply Complex.ext <;> simp [toC]

theorem n_pos (P : Plan) (d : Data) (h : P.Ready d) {row col : Nat} (hr : row < P.even) (hc : col < P.even)
    (hw : P.wstack = true) : 0 < P.n row col := by
  unfold Plan.n
  rw [Real.sqrt_pos]
  have hs := h.sky hw
  have bound : ∀ k, k < P.even → (P.pixel * P.off k) ^ 2 ≤ (P.pixel * (P.image / 2 : Nat)) ^ 2 := by
    intro k hk
    rw [mul_pow, mul_pow]
    refine mul_le_mul_of_nonneg_left ?_ (sq_nonneg _)
    unfold Plan.off
    unfold Plan.even at hk
    generalize P.image / 2 = m at *
    have h1 : (k : ℝ) ≤ 2 * m := by exact_mod_cast hk.le
    have h2 : (0 : ℝ) ≤ k := Nat.cast_nonneg k
    nlinarith
  have := bound row hr
  have := bound col hc
  linarith

/-! ## Kernels and positions -/

theorem tap_eq (P : Plan) (b : Nat) (t : ℝ) : kernel1 (P.kargs b) t = P.tap t := by
  unfold kernel1 Plan.tap Plan.kargs
  simp only
  rw [sq]

theorem pos_eq (P : Plan) (b : Nat) (d : Data) (r c : Nat) :
    (posOf (P.kargs b) d.uvw d.freq r c).u = P.coord d r c 0 * P.uvScale ∧
    (posOf (P.kargs b) d.uvw d.freq r c).v = P.coord d r c 1 * P.uvScale ∧
    (posOf (P.kargs b) d.uvw d.freq r c).w = P.height d r c := by
  unfold posOf Plan.coord Plan.height Plan.coord Plan.mirrored Plan.kargs
  simp only
  refine ⟨?_, ?_, ?_⟩
  · split <;> ring
  · split <;> ring
  · by_cases hw : P.wstack = true
    · rw [if_pos hw, if_pos hw]
      split <;> ring
    · rw [if_neg hw, if_neg hw]

theorem flip_eq (P : Plan) (b : Nat) (d : Data) (r c : Nat) (z : ℝ × ℝ) :
    toC (flipped (posOf (P.kargs b) d.uvw d.freq r c).flip z) = P.mirror d r (toC z) := by
  have e : (posOf (P.kargs b) d.uvw d.freq r c).flip = decide (P.wstack = true ∧ d.uvw.get (3 * r + 2) < 0) := rfl
  unfold flipped Plan.mirror
  rw [e]
  by_cases h : P.mirrored d r
  · rw [if_pos h, if_pos (by unfold Plan.mirrored at h; simpa using h)]
    apply Complex.ext <;> simp [toC, cj]
  · rw [if_neg h, if_neg (by unfold Plan.mirrored at h; simpa using h)]

theorem mirror_sum (P : Plan) (d : Data) (r : Nat) {ι : Type} (s : Finset ι) (f : ι → ℂ) :
    P.mirror d r (∑ i ∈ s, f i) = ∑ i ∈ s, P.mirror d r (f i) := by
  unfold Plan.mirror
  split
  · exact map_sum _ _ _
  · rfl

theorem mirror_real (P : Plan) (d : Data) (r : Nat) (a : ℝ) (z : ℂ) : P.mirror d r (a * z) = a * P.mirror d r z := by
  unfold Plan.mirror
  split
  · rw [map_mul, Complex.conj_ofReal]
  · rfl

theorem mirror_add (P : Plan) (d : Data) (r : Nat) (z w : ℂ) : P.mirror d r (z + w) = P.mirror d r z + P.mirror d r w := by
  unfold Plan.mirror
  split
  · exact map_add _ _ _
  · rfl

/-- Kernel value of a grid point of plane `b`. -/
def Plan.three (P : Plan) (d : Data) (r c b x y : Nat) : ℝ :=
  P.tap (P.gridOff x - P.coord d r c 0 * P.uvScale) * P.tap (P.gridOff y - P.coord d r c 1 * P.uvScale) *
    P.tap (b - P.height d r c)

theorem weight_eq (P : Plan) (d : Data) (r c b x y : Nat) :
    weightAt (P.kargs b) (posOf (P.kargs b) d.uvw d.freq r c) (signed (P.kargs b) 0 x y).1 (signed (P.kargs b) 0 x y).2.1
      (signed (P.kargs b) 0 x y).2.2 =
    (if Even (((x : Int) - (P.grid / 2 : Nat)) + ((y : Int) - (P.grid / 2 : Nat))) then 1 else -1) * P.three d r c b x y := by
  obtain ⟨h1, h2, h3⟩ := pos_eq P b d r c
  unfold weightAt signed Plan.three Plan.gridOff
  simp only [tap_eq, h1, h2, h3]
  have e1 : ∀ k : Nat, (((k : Int) - ((P.kargs b).gridSize / 2 : Nat) : Int) : ℝ) = (k : ℝ) - (P.grid / 2 : Nat) := by
    intro k
    show (((k : Int) - (P.grid / 2 : Nat) : Int) : ℝ) = _
    push_cast
    rfl
  have e2 : (((P.kargs b).startW + (0 : Nat) : Int) : ℝ) = b := by
    show (((b : Int) + (0 : Nat) : Int) : ℝ) = _
    push_cast
    rw [add_zero]
  rw [e1, e1, e2]
  rfl

theorem fits_one (P : Plan) (b : Nat) (hg : 0 < P.grid) (X : ℝ)
    (h : ((range P.grid).filter fun x => |P.gridOff x - X| ≤ P.support / 2).card ≤ 16) :
    (reach (P.kargs b) X).card ≤ 16 := by
  refine le_trans ?_ h
  refine le_trans (card_le_card (t := ((range P.grid).filter fun x => |P.gridOff x - X| ≤ P.support / 2).image
    fun x : Nat => (x : Int) - (P.grid / 2 : Nat)) ?_) card_image_le
  intro g hgm
  have hgm' : g ∈ (Icc (-((P.grid / 2 : Nat) : Int)) (((P.grid - 1) / 2 : Nat) : Int)).filter
    fun g : Int => |(g : ℝ) - X| ≤ (P.support : ℝ) / 2 := hgm
  rw [mem_filter, mem_Icc] at hgm'
  obtain ⟨⟨h1, h2⟩, h3⟩ := hgm'
  rw [mem_image]
  refine ⟨(g + (P.grid / 2 : Nat)).toNat, ?_, by omega⟩
  rw [mem_filter, mem_range]
  refine ⟨by omega, ?_⟩
  have e : P.gridOff (g + (P.grid / 2 : Nat)).toNat = (g : ℝ) := by
    unfold Plan.gridOff
    have h5 : (((g + (P.grid / 2 : Nat)).toNat : Nat) : Int) = g + (P.grid / 2 : Nat) := by omega
    have : (((g + (P.grid / 2 : Nat)).toNat : Nat) : ℝ) = (g : ℝ) + ((P.grid / 2 : Nat) : ℝ) := by
      have h4 := congrArg (Int.cast (R := ℝ)) h5
      rw [Int.cast_natCast, Int.cast_add, Int.cast_natCast] at h4
      exact h4
    rw [this]
    ring
  rw [e]
  exact h3

theorem grid_pos (P : Plan) (d : Data) (h : P.Ready d) : 0 < P.grid := by have := h.larger; omega

theorem launch_ok (P : Plan) (d : Data) (h : P.Ready d) (b : Nat) (vis g : Arr (ℝ × ℝ)) (hv : vis.size = P.rows * P.chans)
    (hg : g.size = P.grid * P.grid) : Launch (P.kargs b) d.uvw d.freq vis g where
  n := grid_pos P d h
  s := h.support
  uvwSize := h.uvw
  freqSize := h.freq
  visSize := hv
  gridSize := by
    show g.size = 1 * P.grid * P.grid
    rw [one_mul]
    exact hg
  fits r c hr hc := by
    obtain ⟨h1, h2, -⟩ := pos_eq P b d r c
    refine ⟨?_, ?_⟩
    · rw [h1]
      exact fits_one P b (grid_pos P d h) _ (h.fits r c hr hc 0 (by omega))
    · rw [h2]
      exact fits_one P b (grid_pos P d h) _ (h.fits r c hr hc 1 (by omega))

theorem flat0 (P : Plan) (b x y : Nat) : flatCell (P.kargs b) 0 x y = P.grid * x + y := by
  show P.grid * (P.grid * 0 + x) + y = _
  rw [Nat.mul_zero, Nat.zero_add]

/-- What gridding leaves in the plane. -/
def Plan.onGrid (P : Plan) (d : Data) (b x y : Nat) : ℂ :=
  ((if Even (((x : Int) - (P.grid / 2 : Nat)) + ((y : Int) - (P.grid / 2 : Nat))) then 1 else -1 : ℝ) : ℂ) *
    ∑ r ∈ range P.rows, ∑ c ∈ range P.chans, (P.three d r c b x y * d.weight.get (P.chans * r + c) : ℝ) *
      P.mirror d r (P.visAt d.vis r c)

theorem gridRun_ok (P : Plan) (d : Data) (h : P.Ready d) (b : Nat) :
    (∀ o, GridRun (P.kargs b) d P.clear o → ∃ g, o = some g ∧ g.size = P.grid * P.grid ∧
      ∀ x y, x < P.grid → y < P.grid → toC (g.get (P.grid * x + y)) = P.onGrid d b x y) ∧
    ∃ o, GridRun (P.kargs b) d P.clear o := by
  obtain ⟨all, ha, hall⟩ := C72_grid_partial (P.kargs b) d.uvw d.freq d.weight d.vis P.clear
    (launch_ok P d h b d.vis P.clear h.vis rfl) h.weight
  refine ⟨?_, ⟨_, Or.inr ⟨all, all, ha, List.Perm.refl _, rfl⟩⟩⟩
  rintro o (⟨h1, -⟩ | ⟨all', ops, h1, h2, rfl⟩)
  · rw [ha] at h1; cases h1
  · rw [ha] at h1
    cases h1
    obtain ⟨g, g1, g2, g3⟩ := hall ops h2
    refine ⟨g, g1, g2, fun x y hx hy => ?_⟩
    have e := g3 0 x y Nat.one_pos hx hy
    rw [flat0] at e
    rw [e, toC_add, toC_sum]
    have : P.clear.get (P.grid * x + y) = 0 := rfl
    rw [this, toC_zero, zero_add]
    unfold Plan.onGrid
    rw [mul_sum]
    refine sum_congr rfl fun r _ => ?_
    rw [toC_sum, mul_sum]
    refine sum_congr rfl fun c _ => ?_
    rw [toC_smul, weight_eq, flip_eq]
    have e2 : toC (d.weight.get ((P.kargs b).chans * r + c) • d.vis.get ((P.kargs b).chans * r + c)) =
      (d.weight.get (P.chans * r + c) : ℂ) * P.visAt d.vis r c := toC_smul _ _
    rw [e2, mirror_real]
    push_cast
    ring

/-! ## Planes -/

theorem cell_off (P : Plan) (d : Data) (h : P.Ready d) {row col : Nat} (hr : row < P.even) (hc : col < P.even) :
    gridCell P.grid (offset P.image row col) =
      P.grid * (P.grid / 2 - P.image / 2 + row) + (P.grid / 2 - P.image / 2 + col) := by
  have h1 := h.larger
  unfold Plan.even at hr hc h1
  unfold gridCell offset
  simp only
  congr 1
  · congr 1
    omega
  · omega

/-- The part of the wave that belongs to plane `b`. -/
def Plan.part (P : Plan) (d : Data) (r c row col b : Nat) : ℂ :=
  ∑ x ∈ range P.grid, ∑ y ∈ range P.grid, (P.three d r c b x y : ℂ) *
    Complex.exp (2 * Real.pi * (P.gridOff x * P.off row + P.gridOff y * P.off col) / P.grid * Complex.I) * P.layer b row col

theorem wave_parts (P : Plan) (d : Data) (r c row col : Nat) :
    P.wave d r c row col = ∑ b ∈ range P.planes, P.part d r c row col b := rfl

theorem sgn_real (d : Int × Int) : (sgn d : ℝ) = if Even (d.1 + d.2) then 1 else -1 := rfl

/-- Signs and Fourier phase between a grid point and the grid point of a pixel. -/
theorem sign_phase (P : Plan) (d : Data) (h : P.Ready d) {row col : Nat} (hr : row < P.even) (hc : col < P.even) (x y : Nat) :
    ((if Even (((x : Int) - (P.grid / 2 : Nat)) + ((y : Int) - (P.grid / 2 : Nat))) then 1 else -1 : ℝ) : ℂ) *
      ((sgn (offset P.image row col) : ℝ) : ℂ) *
      Complex.exp (((1 : ℝ) : ℂ) * ((2 * Real.pi * ((x : ℝ) * (P.grid / 2 - P.image / 2 + row : Nat) +
        y * (P.grid / 2 - P.image / 2 + col : Nat)) / (P.grid : ℝ) : ℝ) : ℂ) * Complex.I) =
    Complex.exp (2 * Real.pi * (P.gridOff x * P.off row + P.gridOff y * P.off col) / P.grid * Complex.I) := by
  have h1 := h.larger
  have h2 := h.grid
  unfold Plan.even at hr hc h1
  have hg : P.grid = 2 * (P.grid / 2) := by omega
  have key := phase_eq (P.grid / 2) x y (P.grid / 2 - P.image / 2 + row) (P.grid / 2 - P.image / 2 + col) (by omega)
  rw [← hg] at key
  have es : (if Even ((((P.grid / 2 - P.image / 2 + row : Nat) : Int) - (P.grid / 2 : Nat)) +
      (((P.grid / 2 - P.image / 2 + col : Nat) : Int) - (P.grid / 2 : Nat))) then 1 else -1 : ℝ) =
      (sgn (offset P.image row col) : ℝ) := by
    rw [sgn_real]
    unfold offset
    simp only
    congr 2
    congr 1
    · omega
    · omega
  have eo : ∀ k : Nat, k < 2 * (P.image / 2) →
      (((P.grid / 2 - P.image / 2 + k : Nat) : ℝ) - ((P.grid / 2 : Nat) : ℝ)) = P.off k := by
    intro k hk
    unfold Plan.off
    have : ((P.grid / 2 - P.image / 2 + k : Nat) : ℝ) + ((P.image / 2 : Nat) : ℝ) = (k : ℝ) + ((P.grid / 2 : Nat) : ℝ) := by
      exact_mod_cast (by omega : P.grid / 2 - P.image / 2 + k + P.image / 2 = k + P.grid / 2)
    linarith
  rw [es, eo row hr, eo col hc] at key
  exact key

end
end Sdp.EsFft
