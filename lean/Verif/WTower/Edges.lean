import Verif.WTower.Props

/-!
# C41 (exact memory condition, counterexamples), C66 (kernel choice), C67 (planes)
-/

set_option linter.unusedSectionVars false

namespace Sdp.WTower
open Sdp.Clamp Finset

variable {K : Type} [Field K] [LinearOrder K] [IsStrictOrderedRing K] [FloorRing K]
variable {R : Type} [CommRing R]

theorem loop_fail {S α : Type} (f : S → α → Option S) (x : α) (hx : ∀ s, f s x = none)
    (l : List α) (s : S) (h : x ∈ l) : loop f s l = none :=
  loop_none (fun _ => True) f (fun _ _ _ _ _ => trivial) x (fun s _ => hx s) l s trivial h

theorem read_neg {α : Type} (a : Arr α) (i : Int) (h : i < 0) : a.read i = none := by
  unfold Arr.read
  rw [if_neg (by omega)]

theorem pix_out (pl : Plan K R) (k : Nat) (x y : Int) (h : x < 0 ∨ pl.n ≤ x ∨ y < 0 ∨ pl.n ≤ y) :
    pix pl k x y = none := by
  unfold pix
  rw [if_neg (by omega)]

/-- A footprint outside the subgrid: some pixel is outside, or the kernel table is read before
its start. -/
theorem out_cases (pl : Plan K R) (hov : 0 < pl.ov) (hs : 0 < pl.support) (P : Int)
    (h : ¬ (0 ≤ P ∧ P < ((pl.n : Int) - pl.support + 1) * pl.ov)) :
    ∃ a : Nat, a < pl.support ∧ (Int.tmod P pl.ov * pl.support + a < 0 ∨
      Int.tdiv P pl.ov + a < 0 ∨ (pl.n : Int) ≤ Int.tdiv P pl.ov + a) := by
  have hov' : (0 : Int) < pl.ov := by omega
  by_cases h0 : 0 ≤ P
  · have h1 : ((pl.n : Int) - pl.support + 1) * pl.ov ≤ P := by
      by_contra hh
      exact h ⟨h0, by omega⟩
    refine ⟨pl.support - 1, by omega, Or.inr (Or.inr ?_)⟩
    have := Int.le_ediv_of_mul_le hov' h1
    rw [Int.tdiv_eq_ediv_of_nonneg h0]
    omega
  · refine ⟨0, hs, ?_⟩
    by_cases hm : Int.tmod P pl.ov = 0
    · right; left
      have e := Int.mul_tdiv_add_tmod P pl.ov
      rw [hm] at e
      by_contra hh
      push Not at hh
      have := Int.mul_nonneg hov'.le (by simpa using hh : 0 ≤ P.tdiv pl.ov)
      omega
    · left
      have : Int.tmod P pl.ov ≤ 0 := by
        have := Int.tmod_nonneg (pl.ov : Int) (show 0 ≤ -P by omega)
        rw [Int.neg_tmod] at this
        omega
      have : Int.tmod P pl.ov * pl.support < 0 :=
        Int.mul_neg_of_neg_of_pos (by omega) (by omega)
      simpa using this

theorem degridV_fail (pl : Plan K R) (cl : Cell) (T : Arr R) (k iu a : Nat) (ha : a < pl.support)
    (h : cl.vOff + a < 0 ∨ cl.iv0 + a < 0 ∨ (pl.n : Int) ≤ cl.iv0 + a) :
    degridV pl cl T k iu = none := by
  unfold degridV
  apply loop_fail _ a _ _ _ (by simpa using ha)
  intro s
  rcases h with h | h | h
  · rw [read_neg _ _ h]; rfl
  · rw [pix_out _ _ _ _ (by omega)]; cases pl.uvKernel.read (cl.vOff + a) <;> rfl
  · rw [pix_out _ _ _ _ (by omega)]; cases pl.uvKernel.read (cl.vOff + a) <;> rfl

theorem degridVis_fail (pl : Plan K R) (hs : 0 < pl.support) (hw : 0 < pl.wSupport) (cl : Cell)
    (T : Arr R)
    (h : (∃ a : Nat, a < pl.support ∧ (cl.uOff + a < 0 ∨ cl.iu0 + a < 0 ∨ (pl.n : Int) ≤ cl.iu0 + a)) ∨
      ∃ a : Nat, a < pl.support ∧ (cl.vOff + a < 0 ∨ cl.iv0 + a < 0 ∨ (pl.n : Int) ≤ cl.iv0 + a)) :
    degridVis pl cl T = none := by
  unfold degridVis
  apply loop_fail _ 0 _ _ _ (by simpa using hw)
  intro s
  have : degridU pl cl T 0 = none := by
    unfold degridU
    rcases h with ⟨a, ha, h⟩ | ⟨a, ha, h⟩
    · apply loop_fail _ a _ _ _ (by simpa using ha)
      intro s
      rcases h with h | h | h
      · rw [read_neg _ _ h]; cases degridV pl cl T 0 a <;> rfl
      all_goals
        have : degridV pl cl T 0 a = none := by
          unfold degridV
          apply loop_fail _ 0 _ _ _ (by simpa using hs)
          intro s
          rw [pix_out _ _ _ _ (by omega)]; cases pl.uvKernel.read (cl.vOff + (0 : Nat)) <;> rfl
        rw [this]; rfl
    · apply loop_fail _ 0 _ _ _ (by simpa using hs)
      intro s
      rw [degridV_fail pl cl T 0 0 a ha h]; rfl
  rw [this]; rfl

theorem gridLoop_fail (pl : Plan K R) (hs : 0 < pl.support) (hw : 0 < pl.wSupport) (cl : Cell)
    (v : R) (T : Arr R)
    (h : (∃ a : Nat, a < pl.support ∧ (cl.uOff + a < 0 ∨ cl.iu0 + a < 0 ∨ (pl.n : Int) ≤ cl.iu0 + a)) ∨
      ∃ a : Nat, a < pl.support ∧ (cl.vOff + a < 0 ∨ cl.iv0 + a < 0 ∨ (pl.n : Int) ≤ cl.iv0 + a)) :
    loop (gridPix pl cl v) T (nest3 pl.wSupport pl.support pl.support) = none := by
  rcases h with ⟨a, ha, h⟩ | ⟨a, ha, h⟩
  · apply loop_fail _ (0, a, 0) _ _ _ (mem_nest3.2 ⟨hw, ha, hs⟩)
    intro s
    unfold gridPix
    simp only
    cases pl.wKernel.read (cl.wOff + (0 : Nat)) with
    | none => rfl
    | some kw =>
      simp only [Option.bind_some]
      rcases h with h | h | h
      · rw [read_neg _ _ h]; rfl
      all_goals
        rw [pix_out _ _ _ _ (by omega)]
        cases pl.uvKernel.read (cl.uOff + a) with
        | none => rfl
        | some ku => cases pl.uvKernel.read (cl.vOff + (0 : Nat)) <;> rfl
  · apply loop_fail _ (0, 0, a) _ _ _ (mem_nest3.2 ⟨hw, hs, ha⟩)
    intro s
    unfold gridPix
    simp only
    cases pl.wKernel.read (cl.wOff + (0 : Nat)) with
    | none => rfl
    | some kw =>
      simp only [Option.bind_some]
      cases pl.uvKernel.read (cl.uOff + (0 : Nat)) with
      | none => rfl
      | some ku =>
        simp only [Option.bind_some]
        rcases h with h | h | h
        · rw [read_neg _ _ h]; rfl
        all_goals
          rw [pix_out _ _ _ _ (by omega)]
          cases pl.uvKernel.read (cl.vOff + a) <;> rfl

/-- **C41 (partial), exact condition.**  With kernels of non-zero size and a valid w row,
(de)gridding one visibility is free of invalid accesses if and only if its footprint is inside
the subgrid in both directions; the coordinate test of the code is not involved. -/
theorem C41_exact_partial (pl : Plan K R) (hm : pl.Made) (hs : 0 < pl.support)
    (hws : 0 < pl.wSupport) (ob : Obs K) (p : Int) (m : Nat) (ho : ob.Made m) (T vis : Arr R)
    (hT : T.size = pl.wSupport * (pl.n * pl.n)) (hv : vis.size = m * ob.numChan) (i : Nat)
    (hi : i < m) (c : Int) (hc : 0 ≤ c ∧ c < ob.numChan)
    (hw : 0 ≤ rnd (wAt pl ob p i c / pl.wStep * pl.wOv)) :
    (degridOne pl ob p T i vis c ≠ none ↔
      InGrid pl (uAt pl ob i c) ∧ InGrid pl (vAt pl ob i c)) ∧
    (gridOne pl ob p vis i T c ≠ none ↔
      InGrid pl (uAt pl ob i c) ∧ InGrid pl (vAt pl ob i c)) := by
  have hlt := flat_lt hi (j := c.toNat) (b := ob.numChan) (by omega)
  by_cases hf : InGrid pl (uAt pl ob i c) ∧ InGrid pl (vAt pl ob i c)
  · obtain ⟨q, cl, h1, h2, h3, h4⟩ := cell_ok pl hm ob p m ho i hi c ⟨hf.1, hf.2, hw⟩
    constructor
    · refine ⟨fun _ => hf, fun _ => ?_⟩
      unfold degridOne
      rw [h1]
      simp only [Option.bind_some]
      rw [h2]
      simp only [Option.bind_some]
      rw [degridVis_ok pl cl h3 T hT]
      simp only [Option.bind_some]
      rw [visIdx_ok _ _ _ hc]
      simp only [Option.bind_some]
      rw [Arr.addAt_nat _ _ _ (by rw [hv]; exact hlt)]
      simp
    · refine ⟨fun _ => hf, fun _ => ?_⟩
      unfold gridOne
      rw [h1]
      simp only [Option.bind_some]
      rw [h2]
      simp only [Option.bind_some]
      rw [visIdx_ok _ _ _ hc]
      simp only [Option.bind_some]
      rw [read_lt _ _ (by rw [hv]; exact hlt)]
      simp only [Option.bind_some]
      obtain ⟨r, h5, _⟩ := gridLoop_ok pl cl h3 (vis.get (ob.numChan * i + c.toNat)) T hT
      rw [h5]
      simp
  · have h1 : coords pl ob p i c = some (uAt pl ob i c, vAt pl ob i c, wAt pl ob p i c) := by
      have h1 := ho.uvw
      unfold coords
      rw [read_lt _ _ (by omega), read_lt _ _ (by omega), read_lt _ _ (by omega)]
      simp only [Option.bind_some]
      rw [lin_eq, lin_eq, lin_eq]
      unfold uAt vAt wAt
      push_cast
      rfl
    have hov := hm.ov
    have hwov := hm.wOv
    obtain ⟨cl, h2, h3⟩ : ∃ cl, cell pl (uAt pl ob i c, vAt pl ob i c, wAt pl ob p i c) = some cl ∧
        ((∃ a : Nat, a < pl.support ∧
            (cl.uOff + a < 0 ∨ cl.iu0 + a < 0 ∨ (pl.n : Int) ≤ cl.iu0 + a)) ∨
          ∃ a : Nat, a < pl.support ∧
            (cl.vOff + a < 0 ∨ cl.iv0 + a < 0 ∨ (pl.n : Int) ≤ cl.iv0 + a)) := by
      unfold cell
      rw [if_neg (by omega)]
      refine ⟨_, rfl, ?_⟩
      simp only [posOv_eq]
      by_cases hu : InGrid pl (uAt pl ob i c)
      · right
        exact out_cases pl hov hs _ fun h => hf ⟨hu, h⟩
      · left
        exact out_cases pl hov hs _ hu
    constructor
    · refine ⟨fun h => ?_, fun h => absurd h hf⟩
      exfalso
      apply h
      unfold degridOne
      rw [h1]
      simp only [Option.bind_some]
      rw [h2]
      simp only [Option.bind_some]
      rw [degridVis_fail pl hs hws cl T h3]
      rfl
    · refine ⟨fun h => ?_, fun h => absurd h hf⟩
      exfalso
      apply h
      unfold gridOne
      rw [h1]
      simp only [Option.bind_some]
      rw [h2]
      simp only [Option.bind_some]
      rw [visIdx_ok _ _ _ hc]
      simp only [Option.bind_some]
      rw [read_lt _ _ (by rw [hv]; exact hlt)]
      simp only [Option.bind_some]
      exact gridLoop_fail pl hs hws cl _ T h3

/-! ### Counterexamples -/

/-- 8 x 8 subgrid, support 4, oversampling 2, two w layers. -/
def exPlan : Plan ℚ ℚ where
  n := 8
  theta := 1
  wStep := 1
  support := 4
  ov := 2
  wSupport := 2
  wOv := 2
  uvKernel := ⟨12, fun j => j⟩
  wKernel := ⟨6, fun j => j + 1⟩

theorem exPlan_made : exPlan.Made := by
  constructor <;> decide

/-- One row, three channels with frequencies 1, 2, 3 (speed of light 1). -/
def exObs (u v w : ℚ) : Obs ℚ where
  c0 := 1
  f0 := 1
  df := 1
  uvw := ⟨3, fun j => if j = 0 then u else if j = 1 then v else w⟩
  startChs := ⟨1, fun _ => 0⟩
  endChs := ⟨1, fun _ => 3⟩
  numChan := 3
  offU := 0
  offV := 0
  offW := 0

theorem exObs_made (u v w : ℚ) : (exObs u v w).Made 1 := by
  constructor <;> simp [exObs]

def exTower : Arr ℚ := ⟨128, fun j => j⟩
def exVis : Arr ℚ := ⟨3, fun j => j⟩

/-- **C41 fails near the edge.**  A visibility that passes the coordinate test (u = 3/4, 3/2,
9/4 of 4 pixels) makes degridding read and gridding write outside the subgrid. -/
theorem C41_edge_false :
    rowSel exPlan (exObs (3 / 4) 0 0) 1 0 = some (0, 3) ∧
    degridPlane exPlan (exObs (3 / 4) 0 0) 1 exTower [0] exVis = none ∧
    gridPlane exPlan (exObs (3 / 4) 0 0) 1 exVis [0] exTower = none := by
  decide +kernel

/-- **C41 fails for falling coordinates.**  The test compares the lowest channel with the
lower limit and the highest channel with the upper limit; for a row running from u = +10 to
u = -10 pixels on a subgrid of +-4 pixels it passes, and all accesses are outside. -/
theorem C41_falling_false :
    ∃ ob : Obs ℚ, ob.Made 1 ∧ rowSel exPlan ob 1 0 = some (0, 3) ∧
      uAt exPlan ob 0 0 = 10 ∧ uAt exPlan ob 0 2 = -10 ∧
      degridPlane exPlan ob 1 exTower [0] exVis = none ∧
      gridPlane exPlan ob 1 exVis [0] exTower = none := by
  refine ⟨{ exObs (-10) 0 0 with offU := -20 }, ?_, ?_⟩
  · constructor <;> simp [exObs]
  · decide +kernel

/-- Non-vacuity of C40 and C41: a call with used visibilities inside the limits. -/
example : Call exPlan (exObs (1 / 2) (-1 / 2) (1 / 5)) 1 1 [0] ∧
    rowSel exPlan (exObs (1 / 2) (-1 / 2) (1 / 5)) 1 0 = some (0, 3) ∧
    (gridPlane exPlan (exObs (1 / 2) (-1 / 2) (1 / 5)) 1 exVis [0] exTower).isSome = true := by
  have hsel : rowSel exPlan (exObs (1 / 2) (-1 / 2) (1 / 5)) 1 0 = some (0, 3) := by decide +kernel
  refine ⟨⟨exPlan_made, exObs_made _ _ _, by simp, by simp, ?_⟩, hsel, by decide +kernel⟩
  intro i hi c hu
  have hi' : i = 0 := by simpa using hi
  subst hi'
  obtain ⟨r, h1, h2⟩ := rowSel_ok exPlan (exObs (1 / 2) (-1 / 2) (1 / 5)) 1 1 (exObs_made _ _ _) 0
    (by omega)
  rw [hsel] at h1
  obtain rfl := Option.some.inj h1
  have hc := (h2 c).2 hu
  simp only at hc
  have : c = 0 ∨ c = 1 ∨ c = 2 := by omega
  unfold Fits InGrid
  rcases this with rfl | rfl | rfl <;> decide +kernel

/-! ## C66: which kernel row is used -/

/-- **C66, uv.**  On a pixel `x` of the footprint the kernel value used is table entry `(j, a)`
(sub-sample `j`, tap `a`) whose nominal position `a + 1 - support/2 - j/ov` differs from the
distance of the pixel from the visibility by at most half a sub-sample. -/
theorem C66_uv (pl : Plan K R) (hov : 0 < pl.ov) (u : K) (x : Nat)
    (hx : pos pl u / pl.ov ≤ x ∧ (x : Int) < pos pl u / pl.ov + pl.support) :
    ∃ j a : Nat, j < pl.ov ∧ a < pl.support ∧ tapAt pl u x = pl.uvKernel.get (j * pl.support + a) ∧
      |((a : K) + 1 - ((pl.support / 2 : Nat) : K) - (j : K) / pl.ov) -
        ((x : K) - ((pl.n / 2 : Nat) : K) - pl.theta * u)| ≤ 1 / (2 * pl.ov) := by
  have hov' : (0 : Int) < pl.ov := by omega
  have hK : (0 : K) < pl.ov := by exact_mod_cast hov
  have m0 := Int.emod_nonneg (pos pl u) hov'.ne'
  have m1 := Int.emod_lt_of_pos (pos pl u) hov'
  have md := Int.mul_ediv_add_emod (pos pl u) pl.ov
  obtain ⟨j, hj⟩ := Int.eq_ofNat_of_zero_le m0
  obtain ⟨a, ha⟩ := Int.eq_ofNat_of_zero_le (show 0 ≤ (x : Int) - pos pl u / pl.ov by omega)
  refine ⟨j, a, by omega, by omega, ?_, ?_⟩
  · unfold tapAt
    rw [if_pos hx, hj, ha]
    congr 1
    have : (pl.support : Int) * (j : Int) + (a : Int) = ((j * pl.support + a : Nat) : Int) := by
      push_cast; ring
    rw [this, Int.toNat_natCast]
  · rw [hj] at md
    have hx0 : pos pl u / pl.ov = (x : Int) - a := by omega
    rw [hx0] at md
    have hp : pos pl u = rnd (pl.theta * pl.ov * u) +
      (((pl.n / 2 : Nat) : Int) - ((pl.support / 2 : Nat) : Int) + 1) * pl.ov := rfl
    generalize pl.n / 2 = h at *
    generalize pl.support / 2 = s at *
    have hr := rnd_close (pl.theta * pl.ov * u)
    have key : ((rnd (pl.theta * pl.ov * u) : Int) : K) =
        (pl.ov : K) * ((x : K) - a) + j - ((h : K) - s + 1) * pl.ov := by
      have : rnd (pl.theta * pl.ov * u) = (pl.ov : Int) * ((x : Int) - a) + j -
        ((h : Int) - s + 1) * pl.ov := by omega
      rw [this]
      push_cast
      ring
    rw [key] at hr
    have e : (a : K) + 1 - s - (j : K) / pl.ov - ((x : K) - h - pl.theta * u) =
        -(((pl.ov : K) * ((x : K) - a) + j - ((h : K) - s + 1) * pl.ov - pl.theta * pl.ov * u) /
          pl.ov) := by
      field_simp
      ring
    rw [e, abs_neg, abs_div, abs_of_pos hK, div_le_div_iff₀ hK (by positivity)]
    nlinarith

/-- **C66 (partial), w.**  If the w offset within the plane does not round up to the next
plane, the w kernel row `j` used is the nearest one. -/
theorem C66_w_partial (pl : Plan K R) (hov : 0 < pl.wOv) (w : K) (h0 : 0 ≤ w / pl.wStep)
    (h1 : w / pl.wStep * pl.wOv < pl.wOv - 1 / 2) :
    ∃ j : Nat, j < pl.wOv ∧ (∀ k, wTapAt pl w k = pl.wKernel.get (j * pl.wSupport + k)) ∧
      |(j : K) / pl.wOv - w / pl.wStep| ≤ 1 / (2 * pl.wOv) := by
  have hK : (0 : K) < pl.wOv := by exact_mod_cast hov
  have r0 : 0 ≤ rnd (w / pl.wStep * pl.wOv) :=
    rnd_nonneg_of (by nlinarith [mul_nonneg h0 hK.le])
  have hr := rnd_close (w / pl.wStep * pl.wOv)
  have r1 : rnd (w / pl.wStep * pl.wOv) < pl.wOv := by
    have a := (abs_le.1 hr).2
    have : ((rnd (w / pl.wStep * pl.wOv) : Int) : K) < ((pl.wOv : Int) : K) := by
      push_cast; linarith
    exact_mod_cast this
  obtain ⟨j, hj⟩ := Int.eq_ofNat_of_zero_le r0
  refine ⟨j, by omega, fun k => ?_, ?_⟩
  · unfold wTapAt
    rw [hj, Int.emod_eq_of_lt (by omega) (by omega)]
    congr 1
    have : (pl.wSupport : Int) * (j : Int) + (k : Int) = ((j * pl.wSupport + k : Nat) : Int) := by
      push_cast; ring
    rw [this, Int.toNat_natCast]
  · rw [hj] at hr
    have e : (j : K) / pl.wOv - w / pl.wStep = ((j : K) - w / pl.wStep * pl.wOv) / pl.wOv := by
      field_simp
    rw [e, abs_div, abs_of_pos hK, div_le_div_iff₀ hK (by positivity)]
    push_cast at hr
    nlinarith

/-- **C66 fails for w close to the upper end of the plane.**  For w = 7/8 of the plane the
nearest row is 2 of the rows 0, 1, 2 of the table (values 5, 6), but row 0 (values 1, 2) is
used. -/
theorem C66_w_false : rnd ((7 / 8 : ℚ) / exPlan.wStep * exPlan.wOv) = 2 ∧
    exPlan.wKernel.get (2 * exPlan.wSupport) = 5 ∧ wTapAt exPlan (7 / 8) 0 = 1 := by
  decide +kernel

/-- Non-vacuity of C66. -/
example : tapAt exPlan (1 / 2) 4 = 5 ∧ pos exPlan (1 / 2) / 2 = 3 ∧
    wTapAt exPlan (1 / 2) 0 = 3 ∧ (1 / 2 : ℚ) / exPlan.wStep * exPlan.wOv < 2 - 1 / 2 := by
  decide +kernel

/-! ## C67: planes -/

/-- The guard of the channel clamp decides the same way on all planes of `[a, b)`. -/
def SameGuard (pl : Plan K R) (ob : Obs K) (a b : Int) (i : Nat) (q : Prop) : Prop :=
  ∀ p : Int, a ≤ p → p < b →
    (resolved (ob.f0 * ob.uvw.get (3 * i + 2) / ob.c0) (ob.df * ob.uvw.get (3 * i + 2) / ob.c0)
      ((p + ob.offW - 1) * pl.wStep) ((p + ob.offW) * pl.wStep) ↔ q)

/-- A number strictly inside `((a-1) s, (b-1) s)` is in exactly one cell. -/
theorem cell_unique (s : K) (hs : 0 < s) (a b : Int) (x : K) (ha : ((a : K) - 1) * s ≤ x)
    (hb : x < ((b : K) - 1) * s) :
    ∃! p : Int, (a ≤ p ∧ p < b) ∧ ((p : K) - 1) * s ≤ x ∧ x < (p : K) * s := by
  refine ⟨⌊x / s⌋ + 1, ⟨⟨?_, ?_⟩, ?_, ?_⟩, ?_⟩
  · have : a - 1 ≤ ⌊x / s⌋ := by
      rw [Int.le_floor]; push_cast; rw [le_div_iff₀ hs]; exact ha
    omega
  · have : ⌊x / s⌋ < b - 1 := by
      rw [Int.floor_lt]; push_cast; rw [div_lt_iff₀ hs]; exact hb
    omega
  · push_cast
    have := Int.floor_le (x / s)
    rw [le_div_iff₀ hs] at this
    linarith
  · push_cast
    have := Int.lt_floor_add_one (x / s)
    rw [div_lt_iff₀ hs] at this
    linarith
  · rintro q ⟨_, q1, q2⟩
    have : ⌊x / s⌋ = q - 1 := by
      rw [Int.floor_eq_iff]
      push_cast
      rw [le_div_iff₀ hs, div_lt_iff₀ hs]
      constructor
      · exact q1
      · linarith
    omega

theorem cell_unique' (s : K) (hs : 0 < s) (a b : Int) (x : K) (ha : ((a : K) - 1) * s < x)
    (hb : x ≤ ((b : K) - 1) * s) :
    ∃! p : Int, (a ≤ p ∧ p < b) ∧ ((p : K) - 1) * s < x ∧ x ≤ (p : K) * s := by
  refine ⟨⌈x / s⌉, ⟨⟨?_, ?_⟩, ?_, ?_⟩, ?_⟩
  · have : a - 1 < ⌈x / s⌉ := by
      rw [Int.lt_ceil]; push_cast; rw [lt_div_iff₀ hs]; exact ha
    omega
  · have : ⌈x / s⌉ ≤ b - 1 := by
      rw [Int.ceil_le]; push_cast; rw [div_le_iff₀ hs]; exact hb
    omega
  · have := Int.ceil_lt_add_one (x / s)
    rw [← sub_lt_iff_lt_add, lt_div_iff₀ hs] at this
    exact this
  · have := Int.le_ceil (x / s)
    rw [div_le_iff₀ hs] at this
    exact this
  · rintro q ⟨_, q1, q2⟩
    symm
    rw [Int.ceil_eq_iff]
    rw [lt_div_iff₀ hs, div_le_iff₀ hs]
    exact ⟨q1, q2⟩

/-- w coordinate of visibility `(i, c)` in wavelengths. -/
def wAbs (ob : Obs K) (i : Nat) (c : Int) : K := invLambda ob c * ob.uvw.get (3 * i + 2)

/-- **C67 (partial).**  Sweep over planes `a <= p < b`: a visibility of the channel range whose
w lies strictly between the ends of the sweep is on exactly one plane (`Clamp`'s numerical guard
inactive on all of them). -/
theorem C67_one_plane_partial (pl : Plan K R) (hw : 0 < pl.wStep) (ob : Obs K) (a b : Int)
    (i : Nat) (c : Int) (hc : ob.startChs.get i ≤ c ∧ c < ob.endChs.get i)
    (hg : SameGuard pl ob a b i True)
    (lo : ((a : K) + ob.offW - 1) * pl.wStep < wAbs ob i c)
    (hi : wAbs ob i c < ((b : K) + ob.offW - 1) * pl.wStep) :
    ∃! p : Int, (a ≤ p ∧ p < b) ∧ OnPlane pl ob p i c := by
  have e : wAbs ob i c = ob.f0 * ob.uvw.get (3 * i + 2) / ob.c0 +
      ob.df * ob.uvw.get (3 * i + 2) / ob.c0 * c := by
    unfold wAbs invLambda
    ring
  unfold OnPlane Sel coord
  unfold SameGuard at hg
  generalize wAbs ob i c = x at *
  generalize ob.f0 * ob.uvw.get (3 * i + 2) / ob.c0 = w0 at *
  generalize ob.df * ob.uvw.get (3 * i + 2) / ob.c0 = dw at *
  rw [← e]
  have hab : a < b := by
    by_contra hh
    have h1 : (b : K) ≤ a := by exact_mod_cast (by omega : b ≤ a)
    nlinarith [mul_le_mul_of_nonneg_right h1 hw.le]
  have ne : dw ≠ 0 := resolved_ne ((hg a le_rfl hab).2 trivial)
  rcases lt_or_gt_of_ne ne with hd | hd
  · obtain ⟨p, ⟨hp, p1, p2⟩, pu⟩ := cell_unique' pl.wStep hw (a + ob.offW) (b + ob.offW) x
      (by push_cast; exact lo) (by push_cast; exact hi.le)
    refine ⟨p - ob.offW, ⟨⟨by omega, by omega⟩, hc.1, hc.2, ?_⟩, ?_⟩
    · have hr := (hg (p - ob.offW) (by omega) (by omega)).2 trivial
      right; left
      refine ⟨hr, hd, ?_, ?_⟩
      · push_cast; linarith
      · push_cast; linarith
    · rintro q ⟨⟨q1, q2⟩, _, _, hs⟩
      have hr := (hg q q1 q2).2 trivial
      have : q + ob.offW = p := by
        apply pu
        rcases hs with ⟨_, h, _⟩ | ⟨_, _, h1, h2⟩ | ⟨h, _⟩
        · exact absurd h (not_lt.2 hd.le)
        · refine ⟨⟨by omega, by omega⟩, ?_, ?_⟩
          · push_cast; exact h1
          · push_cast; exact h2
        · exact absurd hr h
      omega
  · obtain ⟨p, ⟨hp, p1, p2⟩, pu⟩ := cell_unique pl.wStep hw (a + ob.offW) (b + ob.offW) x
      (by push_cast; exact lo.le) (by push_cast; exact hi)
    refine ⟨p - ob.offW, ⟨⟨by omega, by omega⟩, hc.1, hc.2, ?_⟩, ?_⟩
    · have hr := (hg (p - ob.offW) (by omega) (by omega)).2 trivial
      left
      refine ⟨hr, hd, ?_, ?_⟩
      · push_cast; linarith
      · push_cast; linarith
    · rintro q ⟨⟨q1, q2⟩, _, _, hs⟩
      have hr := (hg q q1 q2).2 trivial
      have : q + ob.offW = p := by
        apply pu
        rcases hs with ⟨_, _, h1, h2⟩ | ⟨_, h, _⟩ | ⟨h, _⟩
        · refine ⟨⟨by omega, by omega⟩, ?_, ?_⟩
          · push_cast; exact h1
          · push_cast; exact h2
        · exact absurd h (not_lt.2 hd.le)
        · exact absurd hr h
      omega

/-- **C67 (partial), flat rows.**  A row whose w hardly changes over the band (the guard is
active on all planes) is on exactly one plane with all its channels, decided by channel 0. -/
theorem C67_flat_partial (pl : Plan K R) (hw : 0 < pl.wStep) (ob : Obs K) (a b : Int)
    (i : Nat) (c : Int) (hc : ob.startChs.get i ≤ c ∧ c < ob.endChs.get i)
    (hg : SameGuard pl ob a b i False)
    (lo : ((a : K) + ob.offW - 1) * pl.wStep ≤ wAbs ob i 0)
    (hi : wAbs ob i 0 < ((b : K) + ob.offW - 1) * pl.wStep) :
    ∃! p : Int, (a ≤ p ∧ p < b) ∧ OnPlane pl ob p i c := by
  have e : wAbs ob i 0 = ob.f0 * ob.uvw.get (3 * i + 2) / ob.c0 := by
    unfold wAbs invLambda
    push_cast
    ring
  unfold OnPlane Sel coord
  unfold SameGuard at hg
  rw [e] at lo hi
  generalize ob.f0 * ob.uvw.get (3 * i + 2) / ob.c0 = w0 at *
  generalize ob.df * ob.uvw.get (3 * i + 2) / ob.c0 = dw at *
  obtain ⟨p, ⟨hp, p1, p2⟩, pu⟩ := cell_unique pl.wStep hw (a + ob.offW) (b + ob.offW) w0
    (by push_cast; exact lo) (by push_cast; exact hi)
  refine ⟨p - ob.offW, ⟨⟨by omega, by omega⟩, hc.1, hc.2, ?_⟩, ?_⟩
  · have hr := hg (p - ob.offW) (by omega) (by omega)
    right; right
    refine ⟨fun h => hr.1 h, ?_, ?_⟩
    · push_cast; linarith
    · push_cast; linarith
  · rintro q ⟨⟨q1, q2⟩, _, _, hs⟩
    have hr := hg q q1 q2
    have : q + ob.offW = p := by
      apply pu
      rcases hs with ⟨h, _⟩ | ⟨h, _⟩ | ⟨_, h1, h2⟩
      · exact absurd h fun h => hr.1 h
      · exact absurd h fun h => hr.1 h
      · refine ⟨⟨by omega, by omega⟩, ?_, ?_⟩
        · push_cast; exact h1
        · push_cast; exact h2
    omega

end Sdp.WTower
