import Mathlib.Algebra.Star.BigOperators
import Mathlib.Tactic.FieldSimp
import Mathlib.Data.Rat.Floor
import Verif.WTower.Edges
import Verif.Custom.Model

/-!
# C44: degridding with custom kernels
-/

set_option linter.unusedSectionVars false

namespace Sdp.Custom
open Finset
open Sdp.WTower (rnd rnd_close loop_sum read_at)

variable {K : Type} [Field K] [LinearOrder K] [IsStrictOrderedRing K] [FloorRing K]
variable {R : Type} [CommRing R] [StarRing R]

/-! ## Specification -/

/-- Rounded position of coordinate `u`, in units of `1 / ov` pixels from the grid centre. -/
def sub (ρ : K → Int) (ov : Nat) (theta u : K) : Int := ρ (theta * u * ov)

/-- The pixel at or above the position: `n/2 + ceil (sub / ov)`. -/
def cellOf (ρ : K → Int) (n ov : Nat) (theta u : K) : Int :=
  ((n / 2 : Nat) : Int) + ⌈((sub ρ ov theta u : Int) : ℚ) / ov⌉

/-- How far the position lies below that pixel, in units of `1 / ov`. -/
def rowOf (ρ : K → Int) (n ov : Nat) (theta u : K) : Int :=
  (cellOf ρ n ov theta u - ((n / 2 : Nat) : Int)) * ov - sub ρ ov theta u

/-- Row of the w kernel: distance of the rounded `ov (1 + w/step)` to the next multiple of
`ov`. -/
def wRowOf (ρ : K → Int) (ov : Nat) (wstep w : K) : Int :=
  ⌈((ρ ((1 + w / wstep) * ov) : Int) : ℚ) / ov⌉ * ov - ρ ((1 + w / wstep) * ov)

/-- Coordinate `j` (0 u, 1 v, 2 w) in wavelengths of visibility `(t, b, c)`. -/
def coordOf (g : Cfg K R) (t b c j : Nat) : K :=
  (g.f0 + c * g.df) / g.c0 * g.uvw.get ((t * g.numBaselines + b) * 3 + j)

/-- The footprint is inside the grid with a margin of one pixel at the lower end. -/
def Inside (g : Cfg K R) (t b c : Nat) : Prop :=
  ((g.uvSize / 2 : Nat) : Int) < cellOf g.round g.xSize g.uvOv g.theta (coordOf g t b c 0) ∧
  cellOf g.round g.xSize g.uvOv g.theta (coordOf g t b c 0) < g.xSize - ((g.uvSize / 2 : Nat) : Int) ∧
  ((g.uvSize / 2 : Nat) : Int) < cellOf g.round g.xSize g.uvOv g.theta (coordOf g t b c 1) ∧
  cellOf g.round g.xSize g.uvOv g.theta (coordOf g t b c 1) < g.ySize - ((g.uvSize / 2 : Nat) : Int)

/-- Grid value `(c, z, y, x, p)`. -/
def gridAt (g : Cfg K R) (c z y x p : Nat) : R :=
  g.grid.get ((((c * g.zSize + z) * g.ySize + y) * g.xSize + x) * g.numPols + p)

/-- The separable interpolation sum for visibility `(t, b, c)`, polarisation `p`. -/
def interp (g : Cfg K R) (t b c p : Nat) : R :=
  ∑ z ∈ range g.wSize, ∑ y ∈ range g.uvSize, ∑ x ∈ range g.uvSize,
    g.wKernel.get ((wRowOf g.round g.wOv g.wstep (coordOf g t b c 2)).toNat * g.wSize + z) *
    (g.uvKernel.get ((rowOf g.round g.xSize g.uvOv g.theta (coordOf g t b c 1)).toNat * g.uvSize + y) *
    (g.uvKernel.get ((rowOf g.round g.xSize g.uvOv g.theta (coordOf g t b c 0)).toNat * g.uvSize + x) *
    gridAt g c z
      (cellOf g.round g.xSize g.uvOv g.theta (coordOf g t b c 1) + y - ((g.uvSize / 2 : Nat) : Int)).toNat
      (cellOf g.round g.xSize g.uvOv g.theta (coordOf g t b c 0) + x - ((g.uvSize / 2 : Nat) : Int)).toNat
      p))

/-- Visibility `(t, b, c, p)`. -/
def visAt (g : Cfg K R) (v : Arr R) (t b c p : Nat) : R :=
  v.get (((t * g.numBaselines + b) * g.numChannels + c) * g.numPols + p)

/-- Array sizes match the shapes; kernels and step are not degenerate. -/
structure Cfg.Made (g : Cfg K R) : Prop where
  uvOv : 0 < g.uvOv
  wOv : 0 < g.wOv
  step : g.wstep ≠ 0
  grid : g.grid.size = g.numChannels * (g.zSize * (g.ySize * (g.xSize * g.numPols)))
  uvw : g.uvw.size = g.numTimes * g.numBaselines * 3
  uv : g.uvKernel.size = g.uvOv * g.uvSize
  w : g.wKernel.size = g.wOv * g.wSize

/-! ## Coordinates -/

/-- Division rounding down, on rationals. -/
theorem ceil_neg_div (r : Int) (ov : Nat) (h : 0 < ov) : ⌈(r : ℚ) / ov⌉ = -((-r) / (ov : Int)) := by
  have h1 : ⌊((-r : Int) : ℚ) / ((ov : Int) : ℚ)⌋ = (-r) / (ov : Int) := by
    have : (((-r : Int) : ℚ) / ((ov : Int) : ℚ)) = ((-r : Int) : ℚ) / ((ov : Nat) : ℚ) := by push_cast; ring
    rw [this, Rat.floor_intCast_div_natCast]
  rw [← h1, ← Int.ceil_neg]
  congr 1
  push_cast
  ring

/-- The C arithmetic: with `i = r + m ov + ov - 1` (not negative) the truncated quotient and
remainder are the ceiling and the distance to it. -/
theorem split (r m : Int) (ov : Nat) (h : 0 < ov) (hi : 0 ≤ r + (m + 1) * ov - 1) :
    Int.tdiv (r + (m + 1) * ov - 1) ov = m + ⌈(r : ℚ) / ov⌉ ∧
    (ov : Int) - 1 - Int.tmod (r + (m + 1) * ov - 1) ov = ⌈(r : ℚ) / ov⌉ * ov - r := by
  have hov : (0 : Int) < ov := by omega
  rw [ceil_neg_div r ov h, Int.tdiv_eq_ediv_of_nonneg hi, Int.tmod_eq_emod_of_nonneg hi]
  have e1 := Int.mul_ediv_add_emod (-r) ov
  have e2 := Int.emod_nonneg (-r) hov.ne'
  have e3 := Int.emod_lt_of_pos (-r) hov
  generalize (-r) / (ov : Int) = a at *
  generalize (-r) % (ov : Int) = f at *
  have e : r + (m + 1) * ov - 1 = ((ov : Int) - 1 - f) + ov * (m - a) := by linarith
  rw [e]
  constructor
  · rw [Int.add_mul_ediv_left _ _ hov.ne', Int.ediv_eq_zero_of_lt (by omega) (by omega)]
    ring
  · rw [Int.add_mul_emod_self_left, Int.emod_eq_of_lt (by omega) (by omega)]
    linarith

/-- Cell and row recombine to the rounded position and the row is inside the table, whatever the
rounding. -/
theorem split_row (ρ : K → Int) (n ov : Nat) (hov : 0 < ov) (theta u : K) :
    (cellOf ρ n ov theta u - ((n / 2 : Nat) : Int)) * ov - rowOf ρ n ov theta u =
      ρ (theta * u * ov) ∧
    0 ≤ rowOf ρ n ov theta u ∧ rowOf ρ n ov theta u < ov := by
  have h1 : (cellOf ρ n ov theta u - ((n / 2 : Nat) : Int)) * ov - rowOf ρ n ov theta u =
      ρ (theta * u * ov) := by unfold rowOf sub; ring
  refine ⟨h1, ?_, ?_⟩
  · unfold rowOf cellOf
    have := ceil_neg_div (sub ρ ov theta u) ov hov
    rw [this]
    have e1 := Int.mul_ediv_add_emod (-(sub ρ ov theta u)) ov
    have e2 := Int.emod_nonneg (-(sub ρ ov theta u)) (show (ov : Int) ≠ 0 by omega)
    linarith
  · unfold rowOf cellOf
    have := ceil_neg_div (sub ρ ov theta u) ov hov
    rw [this]
    have e1 := Int.mul_ediv_add_emod (-(sub ρ ov theta u)) ov
    have e3 := Int.emod_lt_of_pos (-(sub ρ ov theta u)) (show (0 : Int) < ov by omega)
    linarith

/-- **C44, splitting.**  Cell and row recombine to the rounded position, the row is inside the
kernel table, and, with any rounding to a nearest integer, the position represented is within half
a sub-sample of the coordinate. -/
theorem C44_split (ρ : K → Int) (hρ : ∀ x : K, |((ρ x : Int) : K) - x| ≤ 1 / 2) (n ov : Nat)
    (hov : 0 < ov) (theta u : K) :
    (cellOf ρ n ov theta u - ((n / 2 : Nat) : Int)) * ov - rowOf ρ n ov theta u =
      ρ (theta * u * ov) ∧
    0 ≤ rowOf ρ n ov theta u ∧ rowOf ρ n ov theta u < ov ∧
    |((cellOf ρ n ov theta u : Int) : K) - ((n / 2 : Nat) : K) -
      ((rowOf ρ n ov theta u : Int) : K) / ov - theta * u| ≤ 1 / (2 * ov) := by
  have hK : (0 : K) < ov := by exact_mod_cast hov
  obtain ⟨h1, h3, h4⟩ := split_row ρ n ov hov theta u
  refine ⟨h1, h3, h4, ?_⟩
  have h2 := hρ (theta * u * ov)
  rw [← h1] at h2
  generalize cellOf ρ n ov theta u = cell at *
  generalize rowOf ρ n ov theta u = row at *
  generalize n / 2 = half at *
  push_cast at h2
  have e : ((cell : Int) : K) - ((half : Nat) : K) -
      ((row : Int) : K) / ov - theta * u =
      ((((cell : Int) : K) - ((half : Nat) : K)) * ov -
        ((row : Int) : K) - theta * u * ov) / ov := by
    field_simp
  rw [e, abs_div, abs_of_pos hK, div_le_div_iff₀ hK (by positivity)]
  nlinarith

/-- The coordinates computed by the code. -/
theorem axis_ok (ρ : K → Int) (n ov : Nat) (hov : 0 < ov) (theta u : K) :
    ∃ a, axis ρ n ov theta u = some a ∧
      ((0 < a.1 ∨ 0 < cellOf ρ n ov theta u) →
        a.1 = cellOf ρ n ov theta u ∧ a.2 = rowOf ρ n ov theta u) := by
  unfold axis
  rw [if_neg (by omega)]
  refine ⟨_, rfl, fun h => ?_⟩
  simp only at h ⊢
  have hov' : (0 : Int) < ov := by omega
  have hi : 0 ≤ ρ (theta * u * ov) + (((n / 2 : Nat) : Int) + 1) * ov - 1 := by
    by_contra hh
    have hh := not_le.1 hh
    rcases h with h | h
    · have : Int.tdiv (ρ (theta * u * ov) + (((n / 2 : Nat) : Int) + 1) * ov - 1) ov ≤ 0 := by
        rw [← neg_nonneg, ← Int.neg_tdiv]
        exact Int.tdiv_nonneg (by omega) hov'.le
      omega
    · unfold cellOf sub at h
      rw [ceil_neg_div _ _ hov] at h
      have e1 := Int.mul_ediv_add_emod (-(ρ (theta * u * ov))) ov
      have e3 := Int.emod_lt_of_pos (-(ρ (theta * u * ov))) hov'
      generalize (-(ρ (theta * u * ov))) / (ov : Int) = a at *
      generalize ((n / 2 : Nat) : Int) = m at *
      have e4 : (ov : Int) * 1 ≤ ov * (m + -a) := mul_le_mul_of_nonneg_left (by omega) hov'.le
      have e5 : (ov : Int) * (m + -a) = m * ov - ov * a := by ring
      have e6 : (m + 1) * (ov : Int) = m * ov + ov := by ring
      linarith
  obtain ⟨s1, s2⟩ := split (ρ (theta * u * ov)) ((n / 2 : Nat) : Int) ov hov hi
  refine ⟨s1, ?_⟩
  rw [s2]
  unfold rowOf cellOf sub
  ring

theorem wRow_ok (ρ : K → Int) (ov : Nat) (hov : 0 < ov) (wstep w : K) (hs : wstep ≠ 0)
    (hi : 0 ≤ ρ ((1 + w / wstep) * ov) + ov - 1) :
    wRow ρ ov wstep w = some (wRowOf ρ ov wstep w) ∧ 0 ≤ wRowOf ρ ov wstep w ∧ wRowOf ρ ov wstep w < ov := by
  unfold wRow wRowOf
  rw [if_neg (by push Not; exact ⟨by omega, hs⟩)]
  have e : ρ ((1 + w / wstep) * ov) + ov - 1 =
    ρ ((1 + w / wstep) * ov) + (0 + 1) * ov - 1 := by ring
  obtain ⟨_, s2⟩ := split (ρ ((1 + w / wstep) * ov)) 0 ov hov (by rw [← e]; exact hi)
  rw [← e] at s2
  simp only
  rw [s2]
  refine ⟨rfl, ?_, ?_⟩
  · rw [← s2]
    have := Int.tmod_lt_of_pos (ρ ((1 + w / wstep) * ov) + ov - 1) (show (0 : Int) < ov by omega)
    omega
  · rw [← s2]
    have := Int.tmod_nonneg (ov : Int) hi
    omega

/-! ## The sum -/

theorem visX_ok (g : Cfg K R) (hm : g.Made) (q : Pos) (hq : inside g q = true) (fx : Nat)
    (hf : fx < g.uvOv) (hs : q.subX = g.uvSize * fx) (c p z y : Nat) (hc : c < g.numChannels)
    (hp : p < g.numPols) (hz : z < g.zSize) (hy : y < g.uvSize) :
    visX g q c p z y = some (∑ x ∈ range g.uvSize, g.uvKernel.get (fx * g.uvSize + x) *
      gridAt g c z (q.y + y - ((g.uvSize / 2 : Nat) : Int)).toNat
        (q.x + x - ((g.uvSize / 2 : Nat) : Int)).toNat p) := by
  unfold inside at hq
  rw [decide_eq_true_iff] at hq
  obtain ⟨q1, q2, q3, q4⟩ := hq
  have hh : g.uvSize ≤ 2 * (g.uvSize / 2) + 1 := by omega
  unfold visX
  rw [loop_sum (R := R) _ _ (fun x => g.uvKernel.get (fx * g.uvSize + x) *
      gridAt g c z (q.y + y - ((g.uvSize / 2 : Nat) : Int)).toNat
        (q.x + x - ((g.uvSize / 2 : Nat) : Int)).toNat p), list_sum_range, zero_add]
  intro x hx acc
  rw [List.mem_range] at hx
  generalize g.uvSize / 2 = half at *
  obtain ⟨Y, hY⟩ := Int.eq_ofNat_of_zero_le (show 0 ≤ q.y + y - (half : Int) by omega)
  obtain ⟨X, hX⟩ := Int.eq_ofNat_of_zero_le (show 0 ≤ q.x + x - (half : Int) by omega)
  have hY' : Y < g.ySize := by omega
  have hX' : X < g.xSize := by omega
  rw [hY, hX]
  have e1 : gridIdx g c z (Y : Int) (X : Int) p =
      (((((c * g.zSize + z) * g.ySize + Y) * g.xSize + X) * g.numPols + p : Nat) : Int) := by
    unfold gridIdx
    push_cast
    ring
  have lt : (((c * g.zSize + z) * g.ySize + Y) * g.xSize + X) * g.numPols + p < g.grid.size := by
    rw [hm.grid]
    have a1 := flat_lt hc hz
    have a2 := flat_lt a1 hY'
    have a3 := flat_lt a2 hX'
    have a4 := flat_lt a3 hp
    calc _ = g.numPols * (g.xSize * (g.ySize * (g.zSize * c + z) + Y) + X) + p := by ring
      _ < _ := a4
      _ = _ := by ring
  rw [e1, WTower.read_lt _ _ lt]
  have e2 : q.subX + (x : Int) = ((fx * g.uvSize + x : Nat) : Int) := by
    rw [hs]; push_cast; ring
  have lt2 : fx * g.uvSize + x < g.uvKernel.size := by
    rw [hm.uv]
    have := flat_lt hf hx
    rw [Nat.mul_comm fx]; exact this
  rw [e2]
  simp only [Option.bind_some]
  rw [WTower.read_lt _ _ lt2]
  simp only [Option.map_some, Int.toNat_natCast]
  rfl

theorem visZ_ok (g : Cfg K R) (hm : g.Made) (hz : g.wSize ≤ g.zSize) (q : Pos)
    (hq : inside g q = true) (fx fy fz : Nat)
    (hfx : fx < g.uvOv) (hfy : fy < g.uvOv) (hfz : fz < g.wOv)
    (hx : q.subX = g.uvSize * fx) (hy : q.subY = g.uvSize * fy) (hzz : q.subZ = g.wSize * fz)
    (c p : Nat) (hc : c < g.numChannels) (hp : p < g.numPols) :
    visZ g q c p = some ((fun v : R => if g.conjugate then star v else v)
      (∑ z ∈ range g.wSize, ∑ y ∈ range g.uvSize, ∑ x ∈ range g.uvSize,
        g.wKernel.get (fz * g.wSize + z) * (g.uvKernel.get (fy * g.uvSize + y) *
          (g.uvKernel.get (fx * g.uvSize + x) *
            gridAt g c z (q.y + y - ((g.uvSize / 2 : Nat) : Int)).toNat
              (q.x + x - ((g.uvSize / 2 : Nat) : Int)).toNat p)))) := by
  have hY : ∀ z, z < g.zSize → visY g q c p z = some (∑ y ∈ range g.uvSize,
      g.uvKernel.get (fy * g.uvSize + y) * ∑ x ∈ range g.uvSize,
        (g.uvKernel.get (fx * g.uvSize + x) *
            gridAt g c z (q.y + y - ((g.uvSize / 2 : Nat) : Int)).toNat
              (q.x + x - ((g.uvSize / 2 : Nat) : Int)).toNat p)) := by
    intro z hz'
    unfold visY
    rw [loop_sum (R := R) _ _ (fun y => g.uvKernel.get (fy * g.uvSize + y) * ∑ x ∈ range g.uvSize,
        (g.uvKernel.get (fx * g.uvSize + x) *
            gridAt g c z (q.y + y - ((g.uvSize / 2 : Nat) : Int)).toNat
              (q.x + x - ((g.uvSize / 2 : Nat) : Int)).toNat p)), list_sum_range, zero_add]
    intro y hy' acc
    rw [List.mem_range] at hy'
    rw [visX_ok g hm q hq fx hfx hx c p z y hc hp hz' hy']
    have e2 : q.subY + (y : Int) = ((fy * g.uvSize + y : Nat) : Int) := by
      rw [hy]; push_cast; ring
    have lt2 : fy * g.uvSize + y < g.uvKernel.size := by
      rw [hm.uv]
      have := flat_lt hfy hy'
      rw [Nat.mul_comm fy]; exact this
    rw [e2]
    simp only [Option.bind_some]
    rw [WTower.read_lt _ _ lt2]
    rfl
  unfold visZ
  rw [loop_sum (R := R) _ _ (fun z => g.wKernel.get (fz * g.wSize + z) * ∑ y ∈ range g.uvSize,
      g.uvKernel.get (fy * g.uvSize + y) * ∑ x ∈ range g.uvSize,
        (g.uvKernel.get (fx * g.uvSize + x) *
            gridAt g c z (q.y + y - ((g.uvSize / 2 : Nat) : Int)).toNat
              (q.x + x - ((g.uvSize / 2 : Nat) : Int)).toNat p)), list_sum_range, zero_add]
  · simp only [Option.map_some, mul_sum]
  · intro z hz' acc
    rw [List.mem_range] at hz'
    rw [hY z (by omega)]
    have e2 : q.subZ + (z : Int) = ((fz * g.wSize + z : Nat) : Int) := by
      rw [hzz]; push_cast; ring
    have lt2 : fz * g.wSize + z < g.wKernel.size := by
      rw [hm.w]
      have := flat_lt hfz hz'
      rw [Nat.mul_comm fz]; exact this
    rw [e2]
    simp only [Option.bind_some]
    rw [WTower.read_lt _ _ lt2]
    rfl

open Classical in
/-- One visibility of the code against the specification. -/
theorem body_ok (g : Cfg K R) (hm : g.Made) (hz : g.wSize ≤ g.zSize) (t b c : Nat)
    (ht : t < g.numTimes) (hb : b < g.numBaselines) (hc : c < g.numChannels)
    (hw : Inside g t b c → 0 ≤ g.round ((1 + coordOf g t b c 2 / g.wstep) * g.wOv) + g.wOv - 1)
    (vis : Arr R) :
    body g vis (t, b, c) = if Inside g t b c then
      loop (fun vis (p : Nat) => vis.write (index4 g.numBaselines g.numChannels g.numPols t b c p)
        (if g.conjugate then star (interp g t b c p) else interp g t b c p)) vis
        (List.range g.numPols) else some vis := by
  have rd : ∀ j, j < 3 → g.uvw.read (index3 g.numBaselines 3 t b 0 + (j : Nat)) =
      some (g.uvw.get ((t * g.numBaselines + b) * 3 + j)) := by
    intro j hj
    have lt : (t * g.numBaselines + b) * 3 + j < g.uvw.size := by
      rw [hm.uvw]
      have a1 := flat_lt ht hb
      have a2 := flat_lt a1 hj
      calc _ = 3 * (g.numBaselines * t + b) + j := by ring
        _ < _ := a2
    rw [← WTower.read_lt _ _ lt]
    congr 1
    unfold index3
    push_cast
    ring
  have r0 := rd 0 (by omega)
  have r1 := rd 1 (by omega)
  have r2 := rd 2 (by omega)
  simp only [Nat.cast_zero, Int.add_zero, Nat.cast_one, Nat.cast_ofNat] at r0 r1 r2
  unfold body
  simp only
  rw [r0]
  simp only [Option.bind_some]
  rw [r1]
  simp only [Option.bind_some]
  rw [r2]
  simp only [Option.bind_some]
  change (place g (coordOf g t b c 0) (coordOf g t b c 1) (coordOf g t b c 2)).bind _ = _
  obtain ⟨ax, x1, x2⟩ := axis_ok g.round g.xSize g.uvOv hm.uvOv g.theta (coordOf g t b c 0)
  obtain ⟨ay, y1, y2⟩ := axis_ok g.round g.xSize g.uvOv hm.uvOv g.theta (coordOf g t b c 1)
  unfold place
  rw [x1, y1]
  simp only [Option.bind_some]
  by_cases hin : Inside g t b c
  · rw [if_pos hin]
    obtain ⟨i1, i2, i3, i4⟩ := hin
    obtain ⟨x3, x4⟩ := x2 (Or.inr (by omega))
    obtain ⟨y3, y4⟩ := y2 (Or.inr (by omega))
    obtain ⟨w1, w2, w3⟩ := wRow_ok g.round g.wOv hm.wOv g.wstep (coordOf g t b c 2) hm.step
      (hw ⟨i1, i2, i3, i4⟩)
    rw [w1]
    simp only [Option.map_some, Option.bind_some]
    rw [x3, x4, y3, y4]
    have hins : inside g ⟨g.uvSize * rowOf g.round g.xSize g.uvOv g.theta (coordOf g t b c 0),
        g.uvSize * rowOf g.round g.xSize g.uvOv g.theta (coordOf g t b c 1),
        g.wSize * wRowOf g.round g.wOv g.wstep (coordOf g t b c 2),
        cellOf g.round g.xSize g.uvOv g.theta (coordOf g t b c 0),
        cellOf g.round g.xSize g.uvOv g.theta (coordOf g t b c 1)⟩ = true := by
      unfold inside
      rw [decide_eq_true_iff]
      exact ⟨i1, i2, i3, i4⟩
    rw [if_pos hins]
    apply loop_congr
    intro p hp s
    rw [List.mem_range] at hp
    obtain ⟨_, a1, a2⟩ := split_row g.round g.xSize g.uvOv hm.uvOv g.theta (coordOf g t b c 0)
    obtain ⟨_, b1, b2⟩ := split_row g.round g.xSize g.uvOv hm.uvOv g.theta (coordOf g t b c 1)
    rw [visZ_ok g hm hz _ hins (rowOf g.round g.xSize g.uvOv g.theta (coordOf g t b c 0)).toNat
      (rowOf g.round g.xSize g.uvOv g.theta (coordOf g t b c 1)).toNat
      (wRowOf g.round g.wOv g.wstep (coordOf g t b c 2)).toNat (by omega) (by omega) (by omega)
      (by rw [Int.toNat_of_nonneg a1]) (by rw [Int.toNat_of_nonneg b1])
      (by rw [Int.toNat_of_nonneg w2]) c p hc hp]
    rfl
  · rw [if_neg hin]
    have hnot : ∀ s : Int, inside g ⟨g.uvSize * ax.2, g.uvSize * ay.2, s, ax.1, ay.1⟩ ≠ true := by
      intro s h
      unfold inside at h
      rw [decide_eq_true_iff] at h
      obtain ⟨h1, h2, h3, h4⟩ := h
      simp only at h1 h2 h3 h4
      obtain ⟨x3, _⟩ := x2 (Or.inl (by omega))
      obtain ⟨y3, _⟩ := y2 (Or.inl (by omega))
      rw [x3] at h1 h2
      rw [y3] at h3 h4
      exact hin ⟨h1, h2, h3, h4⟩
    obtain ⟨s, hs⟩ : ∃ s, wRow g.round g.wOv g.wstep (coordOf g t b c 2) = some s := by
      unfold wRow
      rw [if_neg (by push Not; exact ⟨by have := hm.wOv; omega, hm.step⟩)]
      exact ⟨_, rfl⟩
    rw [hs]
    simp only [Option.map_some, Option.bind_some]
    rw [if_neg (hnot _)]

open Classical in
/-- **C44 (partial).**  For every grid, kernel, oversampling and coordinates: no access leaves
the arrays, each visibility whose footprint is inside the grid becomes the separable
interpolation of the grid around it (conjugated on request), and all others keep their value.
Required, and not checked by the code: at least `w_kernel_size` planes in the grid, and w not
below about -2 steps. -/
theorem C44_degrid_partial (g : Cfg K R) (hm : g.Made) (hz : g.wSize ≤ g.zSize) (vis : Arr R)
    (hv : vis.size = g.numTimes * (g.numBaselines * (g.numChannels * g.numPols)))
    (hw : ∀ t b c, t < g.numTimes → b < g.numBaselines → c < g.numChannels → Inside g t b c →
      0 ≤ g.round ((1 + coordOf g t b c 2 / g.wstep) * g.wOv) + g.wOv - 1) :
    ∃ r, degrid g vis = some r ∧ r.size = vis.size ∧
      ∀ t b c p, t < g.numTimes → b < g.numBaselines → c < g.numChannels → p < g.numPols →
        visAt g r t b c p = if Inside g t b c then
          (if g.conjugate then star (interp g t b c p) else interp g t b c p)
        else visAt g vis t b c p := by
  let inn : Nat × Nat × Nat × Nat → Bool := fun q => decide (Inside g q.1 q.2.1 q.2.2.1)
  let idx : Nat × Nat × Nat × Nat → Int := fun q =>
    index4 g.numBaselines g.numChannels g.numPols q.1 q.2.1 q.2.2.1 q.2.2.2
  let val : Nat × Nat × Nat × Nat → R := fun q =>
    if g.conjugate then star (interp g q.1 q.2.1 q.2.2.1 q.2.2.2)
    else interp g q.1 q.2.1 q.2.2.1 q.2.2.2
  have e1 : degrid g vis = loop (fun s q => s.write (idx q) (val q)) vis
      ((nest4 g.numTimes g.numBaselines g.numChannels g.numPols).filter inn) := by
    rw [← loop_filter]
    unfold degrid nest4
    rw [loop_flatMap]
    apply loop_congr
    intro q hq s
    obtain ⟨t, b, c⟩ := q
    obtain ⟨ht, hb, hc⟩ := mem_nest3.1 hq
    simp only at ht hb hc
    rw [body_ok g hm hz t b c ht hb hc (hw t b c ht hb hc), loop_map]
    by_cases hin : Inside g t b c
    · rw [if_pos hin]
      apply loop_congr
      intro p _ s'
      simp only [inn]
      rw [if_pos (decide_eq_true hin)]
    · rw [if_neg hin]
      symm
      have : ∀ (l : List Nat) (s' : Arr R), loop (fun s (x : Nat) =>
          if inn (t, b, c, x) = true then s.write (idx (t, b, c, x)) (val (t, b, c, x)) else some s)
          s' l = some s' := by
        intro l
        induction l with
        | nil => intro s'; rfl
        | cons x l ih =>
          intro s'
          simp only [loop]
          rw [if_neg (by simpa [inn] using hin)]
          exact ih s'
      exact this _ _
  have idxNat : ∀ q : Nat × Nat × Nat × Nat, idx q =
      ((((q.1 * g.numBaselines + q.2.1) * g.numChannels + q.2.2.1) * g.numPols + q.2.2.2 : Nat) :
        Int) := by
    intro q
    simp only [idx, index4]
    push_cast
    ring
  have inj : ∀ q ∈ nest4 g.numTimes g.numBaselines g.numChannels g.numPols,
      ∀ q' ∈ nest4 g.numTimes g.numBaselines g.numChannels g.numPols, idx q = idx q' → q = q' := by
    rintro ⟨t, b, c, p⟩ hq ⟨t', b', c', p'⟩ hq' h
    rw [idxNat, idxNat] at h
    have h := Int.ofNat_inj.1 h
    simp only at h
    obtain ⟨_, h2, h3, h4⟩ := mem_nest4.1 hq
    obtain ⟨_, h2', h3', h4'⟩ := mem_nest4.1 hq'
    simp only at h2 h3 h4 h2' h3' h4'
    obtain ⟨k1, rfl⟩ := flat_inj (b := g.numPols)
      (i := (t * g.numBaselines + b) * g.numChannels + c)
      (i' := (t' * g.numBaselines + b') * g.numChannels + c') h4 h4' (by linarith)
    obtain ⟨k2, rfl⟩ := flat_inj (b := g.numChannels) (i := t * g.numBaselines + b)
      (i' := t' * g.numBaselines + b') h3 h3' (by linarith)
    obtain ⟨rfl, rfl⟩ := flat_inj (b := g.numBaselines) (i := t) (i' := t') h2 h2' (by linarith)
    rfl
  obtain ⟨r, r1, r2, r3, r4⟩ := Arr.store_spec
    ((nest4 g.numTimes g.numBaselines g.numChannels g.numPols).filter inn) idx val
    (by
      apply List.Nodup.map_on
      · intro x hx y hy h
        exact inj x (List.mem_filter.1 hx).1 y (List.mem_filter.1 hy).1 h
      · exact (nest4_nodup _ _ _ _).filter _)
    vis
    (by
      intro q hq
      obtain ⟨h1, h2, h3, h4⟩ := mem_nest4.1 (List.mem_filter.1 hq).1
      rw [idxNat]
      constructor
      · exact Int.natCast_nonneg _
      · have a1 := flat_lt h1 h2
        have a2 := flat_lt a1 h3
        have a3 := flat_lt a2 h4
        have : ((q.1 * g.numBaselines + q.2.1) * g.numChannels + q.2.2.1) * g.numPols + q.2.2.2 <
            vis.size := by
          rw [hv]
          calc _ = g.numPols * (g.numChannels * (g.numBaselines * q.1 + q.2.1) + q.2.2.1) + q.2.2.2 := by
                ring
            _ < _ := a3
            _ = _ := by ring
        exact_mod_cast this)
  refine ⟨r, by rw [e1]; exact r1, r2, fun t b c p ht hb hc hp => ?_⟩
  have hmem : (t, b, c, p) ∈ nest4 g.numTimes g.numBaselines g.numChannels g.numPols :=
    mem_nest4.2 ⟨ht, hb, hc, hp⟩
  by_cases hin : Inside g t b c
  · rw [if_pos hin]
    have h := r3 (t, b, c, p) (List.mem_filter.2 ⟨hmem, by simpa [inn] using hin⟩)
    rw [idxNat, Int.toNat_natCast] at h
    exact h
  · rw [if_neg hin]
    apply r4
    intro q hq hqe
    have hq' := List.mem_filter.1 hq
    have : q = (t, b, c, p) := inj q hq'.1 _ hmem (by rw [hqe, idxNat])
    subst this
    exact hin (by simpa [inn] using hq'.2)

/-! ## Witnesses -/

/-- 8 x 8 grid, two planes, kernel of size 3 with 2 sub-samples, one visibility at `(u, v, w)`. -/
def exCfg (ySize zSize : Nat) (u v w : ℚ) : Cfg ℚ ℚ where
  uvSize := 3
  uvOv := 2
  wSize := 2
  wOv := 2
  xSize := 8
  ySize := ySize
  zSize := zSize
  numTimes := 1
  numBaselines := 1
  numChannels := 1
  numPols := 1
  theta := 1
  wstep := 1
  f0 := 1
  df := 0
  c0 := 1
  conjugate := false
  round := rnd
  grid := ⟨zSize * (ySize * 8), fun j => j⟩
  uvw := ⟨3, fun j => if j = 0 then u else if j = 1 then v else w⟩
  uvKernel := ⟨6, fun j => j + 1⟩
  wKernel := ⟨4, fun j => j + 1⟩

theorem exCfg_made (y z : Nat) (u v w : ℚ) : (exCfg y z u v w).Made := by
  constructor <;> simp [exCfg]

/-- **C44 fails for too few planes**: the plane count of the grid is not compared with the w
kernel; with one plane the second one is read past the end of the grid. -/
theorem C44_planes_false :
    Inside (exCfg 8 1 1 0 0) 0 0 0 ∧ degrid (exCfg 8 1 1 0 0) ⟨1, fun _ => 0⟩ = none := by
  unfold Inside
  decide +kernel

/-- **C44 fails for w at or below -2 steps**: the remainder of a negative number is negative, and
the row of the w kernel is outside the table. -/
theorem C44_w_false :
    Inside (exCfg 8 2 1 0 (-3)) 0 0 0 ∧ wRow rnd 2 (1 : ℚ) (-3) = some 2 ∧
      degrid (exCfg 8 2 1 0 (-3)) ⟨1, fun _ => 0⟩ = none := by
  unfold Inside
  decide +kernel

/-- **The v coordinate of a rectangular grid is centred with the u size.**  In a grid of 8 x 16
pixels a visibility at v = 0 is interpolated around row 4, not row 8. -/
theorem C44_rectangular_false :
    cellOf rnd (exCfg 16 2 1 0 0).ySize 2 1 (coordOf (exCfg 16 2 1 0 0) 0 0 0 1) = 8 ∧
    (place (exCfg 16 2 1 0 0) 1 0 0).map (fun q => q.y) = some 4 := by
  decide +kernel

/-- **The w coordinate only counts modulo one step.**  Visibilities one step apart in w get the
same kernel row and the same grid planes, at and above -1 step. -/
theorem C44_w_periodic (ov : Nat) (wstep w : K) (hs : wstep ≠ 0) (h1 : 0 ≤ (1 + w / wstep) * ov) :
    wRowOf rnd ov wstep (w + wstep) = wRowOf rnd ov wstep w := by
  rcases Nat.eq_zero_or_pos ov with rfl | hov
  · unfold wRowOf; simp
  have hK : (0 : K) < ov := by exact_mod_cast hov
  have e : (1 + (w + wstep) / wstep) * ov = (1 + w / wstep) * ov + ov := by
    rw [add_div, div_self hs]; ring
  have e2 : rnd ((1 + w / wstep) * ov + ov) = rnd ((1 + w / wstep) * ov) + ov := by
    unfold rnd
    rw [if_pos h1, if_pos (by linarith)]
    rw [show (1 + w / wstep) * (ov : K) + ov + 1 / 2 = (1 + w / wstep) * (ov : K) + 1 / 2 + (ov : Nat)
      by ring, Int.floor_add_natCast]
  unfold wRowOf
  rw [e, e2]
  have hq : (ov : ℚ) ≠ 0 := by exact_mod_cast hov.ne'
  have e3 : (((rnd ((1 + w / wstep) * ov) + ov : Int) : ℚ)) / ov =
      ((rnd ((1 + w / wstep) * ov) : Int) : ℚ) / ov + (1 : Int) := by
    push_cast
    field_simp
  rw [e3, Int.ceil_add_intCast]
  ring

/-- Non-vacuity of C44: an in-grid visibility meeting all hypotheses, with a non-zero result. -/
example : (exCfg 8 2 (1 / 2) 1 (1 / 3)).Made ∧ Inside (exCfg 8 2 (1 / 2) 1 (1 / 3)) 0 0 0 ∧
    0 ≤ rnd ((1 + coordOf (exCfg 8 2 (1 / 2) 1 (1 / 3)) 0 0 0 2 / 1) * (2 : ℚ)) + 2 - 1 ∧
    ((degrid (exCfg 8 2 (1 / 2) 1 (1 / 3)) ⟨1, fun _ => 0⟩).map fun r => decide (0 < r.get 0)) =
      some true := by
  refine ⟨exCfg_made _ _ _ _ _, ?_, ?_, ?_⟩
  · unfold Inside; decide +kernel
  · decide +kernel
  · decide +kernel

end Sdp.Custom
