import Verif.WTower.SweepGrid

/-!
# C67, C42: whole calls -- one plane per visibility, adjointness, no visibilities
-/

set_option linter.unusedSectionVars false

namespace Sdp.WTower
open Sdp.Fft Sdp.GridUtil Sdp.Clamp Finset

noncomputable section

variable {K : Type} [Field K] [LinearOrder K] [IsStrictOrderedRing K] [FloorRing K]

/-- The planes of a call: what both drivers compute from the exact bounds. -/
def Planes (pl : Plan K ℂ) (ob : Obs K) (m : Nat) (b : MinMax K × MinMax K × MinMax K)
    (fl : Int × Int) : Prop :=
  uvwBounds ob.c0 ob.f0 ob.df ob.uvw m ob.startChs ob.endChs = some b ∧
    planeRange pl.wStep ob.offW b.2.2 = some fl

/-- The swept planes contain every selected visibility with a margin. -/
theorem planes_cover (pl : Plan K ℂ) (hw : 0 < pl.wStep) (ob : Obs K) (hc : 0 < ob.c0)
    (hd : 0 ≤ ob.df) (m : Nat) (hm : ob.Made m) (b : MinMax K × MinMax K × MinMax K)
    (fl : Int × Int) (hp : Planes pl ob m b fl) (i : Nat) (hi : i < m) (c : Int)
    (h1 : ob.startChs.get i ≤ c) (h2 : c < ob.endChs.get i) :
    ((fl.1 : K) + ob.offW) * pl.wStep < wAbs ob i c ∧
      wAbs ob i c < ((fl.2 : K) + ob.offW - 1) * pl.wStep := by
  obtain ⟨b', e1, _, _, ex, _⟩ := C39_bounds_partial ob.c0 ob.f0 ob.df hc hd ob.uvw m ob.startChs
    ob.endChs (by rw [hm.uvw]; omega) (by rw [hm.s]) (by rw [hm.e])
  obtain rfl : b' = b := Option.some.inj (e1.symm.trans hp.1)
  have hmem : GridUtil.coords ob.c0 ob.f0 ob.df ob.uvw ob.startChs ob.endChs 2 (List.range m)
      (wAbs ob i c) := by
    refine ⟨i, List.mem_range.2 hi, c, h1, h2, ?_⟩
    unfold wAbs invLambda visCoord
    ring
  have lo := ex.lower _ hmem
  have up := ex.upper _ hmem
  have hfl := hp.2
  unfold planeRange at hfl
  rcases hmn : b'.2.2.mn with _ | mn
  · rw [hmn] at hfl
    simp at hfl
  rcases hmx : b'.2.2.mx with _ | mx
  · rw [hmn, hmx] at hfl
    simp at hfl
  rw [hmn, hmx] at hfl
  rw [hmn] at lo
  rw [hmx] at up
  have lo : mn ≤ wAbs ob i c := WithTop.coe_le_coe.1 lo
  have up : wAbs ob i c ≤ mx := WithBot.coe_le_coe.1 up
  simp only [Option.some.injEq] at hfl
  subst hfl
  simp only
  constructor
  · have := Int.floor_le (mn / pl.wStep - 1 / 100000)
    push_cast
    rw [← lt_div_iff₀ hw]
    have h3 : mn / pl.wStep ≤ wAbs ob i c / pl.wStep := by gcongr
    have : (0 : K) < 1 / 100000 := by norm_num
    linarith
  · have := Int.le_ceil (mx / pl.wStep + 1 / 100000)
    push_cast
    rw [← div_lt_iff₀ hw]
    have h3 : wAbs ob i c / pl.wStep ≤ mx / pl.wStep := by gcongr
    have : (0 : K) < 1 / 100000 := by norm_num
    linarith

/-- All plane ends lie within the numerical guard of the channel clamp for row `i`, or the row
has `w = 0`. -/
def GuardOk (pl : Plan K ℂ) (ob : Obs K) (fl : Int × Int) (i : Nat) : Prop :=
  ob.uvw.get (3 * i + 2) = 0 ∨
  (|((fl.1 : K) + ob.offW - 1) * pl.wStep - wAbs ob i 0| <
      2147483645 * |ob.df * ob.uvw.get (3 * i + 2) / ob.c0| ∧
    |((fl.2 : K) + ob.offW) * pl.wStep - wAbs ob i 0| <
      2147483645 * |ob.df * ob.uvw.get (3 * i + 2) / ob.c0|)

theorem wAbs_zero (ob : Obs K) (i : Nat) :
    wAbs ob i 0 = ob.f0 * ob.uvw.get (3 * i + 2) / ob.c0 := by
  unfold wAbs invLambda
  push_cast
  ring

/-- **C67 (partial).**  In a whole call every selected visibility lies on exactly one of the
swept planes. -/
theorem C67_sweep_partial (pl : Plan K ℂ) (hw : 0 < pl.wStep) (ob : Obs K) (hc : 0 < ob.c0)
    (hd : 0 ≤ ob.df) (m : Nat) (hm : ob.Made m) (b : MinMax K × MinMax K × MinMax K)
    (fl : Int × Int) (hp : Planes pl ob m b fl) (i : Nat) (hi : i < m) (c : Int)
    (h1 : ob.startChs.get i ≤ c) (h2 : c < ob.endChs.get i) (hg : GuardOk pl ob fl i) :
    ∃! p : Int, (fl.1 ≤ p ∧ p ≤ fl.2) ∧ OnPlane pl ob p i c := by
  obtain ⟨lo, up⟩ := planes_cover pl hw ob hc hd m hm b fl hp i hi c h1 h2
  have lo' : ((fl.1 : K) + ob.offW - 1) * pl.wStep < wAbs ob i c := by
    have : ((fl.1 : K) + ob.offW - 1) * pl.wStep < ((fl.1 : K) + ob.offW) * pl.wStep := by
      apply mul_lt_mul_of_pos_right _ hw; linarith
    linarith
  have up' : wAbs ob i c < (((fl.2 + 1 : Int) : K) + ob.offW - 1) * pl.wStep := by
    have : ((fl.2 : K) + ob.offW - 1) * pl.wStep < ((fl.2 : K) + ob.offW) * pl.wStep := by
      apply mul_lt_mul_of_pos_right _ hw; linarith
    push_cast
    linarith
  have conv : (∃! p : Int, (fl.1 ≤ p ∧ p < fl.2 + 1) ∧ OnPlane pl ob p i c) →
      ∃! p : Int, (fl.1 ≤ p ∧ p ≤ fl.2) ∧ OnPlane pl ob p i c := by
    rintro ⟨p, ⟨⟨q1, q2⟩, q3⟩, u⟩
    exact ⟨p, ⟨⟨q1, by omega⟩, q3⟩, fun y ⟨⟨y1, y2⟩, y3⟩ => u y ⟨⟨y1, by omega⟩, y3⟩⟩
  rcases hg with h0 | ⟨g1, g2⟩
  · have hz : ∀ d : Int, wAbs ob i d = 0 := by
      intro d; unfold wAbs; rw [h0, mul_zero]
    rw [hz] at lo' up'
    refine conv (C67_flat_partial pl hw ob fl.1 (fl.2 + 1) i c ⟨h1, h2⟩ ?_ ?_ ?_)
    · intro p _ _
      simp only [iff_false]
      intro hr
      exact resolved_ne hr (by rw [h0]; simp)
    · rw [hz]; exact lo'.le
    · rw [hz]; exact up'
  · refine conv (C67_one_plane_partial pl hw ob fl.1 (fl.2 + 1) i c ⟨h1, h2⟩ ?_ lo' up')
    intro p p1 p2
    simp only [iff_true]
    rw [wAbs_zero] at g1 g2
    unfold resolved
    generalize ob.f0 * ob.uvw.get (3 * i + 2) / ob.c0 = w0 at *
    generalize 2147483645 * |ob.df * ob.uvw.get (3 * i + 2) / ob.c0| = G at *
    rw [abs_lt] at g1 g2
    have a1 : (fl.1 : K) ≤ p := by exact_mod_cast p1
    have a2 : (p : K) ≤ fl.2 := by exact_mod_cast (by omega : p ≤ fl.2)
    have a3 := mul_le_mul_of_nonneg_right a1 hw.le
    have a4 := mul_le_mul_of_nonneg_right a2 hw.le
    constructor
    · rw [abs_lt]
      constructor <;> nlinarith
    · rw [abs_lt]
      constructor <;> nlinarith

open Classical in
/-- A sum over planes of something that is zero off the plane of the visibility. -/
theorem degridSum_off (pl : Plan K ℂ) (ob : Obs K) (p : Int) (T : Nat → Nat → Nat → ℂ) (i c : Nat)
    (h : ¬ OnPlane pl ob p i c) : degridSum pl ob p T i c = 0 := by
  unfold degridSum
  rw [if_neg fun hu => h hu.1]

/-- **C42/C67: each visibility is degridded once.**  The call adds to a visibility the value
degridded on the one plane that contains it, from a tower whose layer `k` is the transform of the
image at w-plane `p + k - support/2`. -/
theorem C42_degrid_once_partial (pl : Plan K ℂ) (hw : 0 < pl.wStep) (ob : Obs K)
    (hc : 0 < (fixFreq ob).c0) (hd : 0 ≤ (fixFreq ob).df) (m : Nat) (pat img : Arr ℂ)
    (he : Env pl pat) (hI : img.size = pl.n * pl.n) (rows : List Nat) (S0 S : Nat → Sched)
    (hS0 : ∀ j, (S0 j).Ok pl.n rows) (hS : ∀ j, (S j).Ok pl.n rows) (T0 W0 tmp : Arr ℂ)
    (hT : T0.size = pl.wSupport * (pl.n * pl.n)) (hW : W0.size = pl.n * pl.n)
    (ht : tmp.size = pl.n * pl.n) (vis : Arr ℂ) (hv : vis.size = m * ob.numChan)
    (b : MinMax K × MinMax K × MinMax K) (fl : Int × Int) (hp : Planes pl (fixFreq ob) m b fl)
    (hcall : ∀ p, fl.1 ≤ p → p ≤ fl.2 → Call pl (fixFreq ob) p m rows) (hmade : (fixFreq ob).Made m)
    (hg : ∀ i ∈ rows, GuardOk pl (fixFreq ob) fl i) :
    ∃ r, degridCall pl ob m pat img S0 S T0 W0 tmp vis = some (r, 1 + fl.2 - fl.1) ∧
      ∀ i ∈ rows, i < m → ∀ c : Nat, c < ob.numChan →
        (ob.startChs.get i ≤ (c : Int) ∧ (c : Int) < ob.endChs.get i →
          ∃ p : Int, OnPlane pl (fixFreq ob) p i c ∧
          visAt ob r i c = visAt ob vis i c +
            degridSum pl (fixFreq ob) p (fun k x y => planeGrid pl.n (im pl.n pat) (im pl.n img)
              (p + k - ((pl.wSupport / 2 : Nat) : Int)) x y) i c) ∧
        (¬ (ob.startChs.get i ≤ (c : Int) ∧ (c : Int) < ob.endChs.get i) →
          visAt ob r i c = visAt ob vis i c) := by
  obtain ⟨r, r1, _, r3, _⟩ := C42_degrid pl ob m pat img he hI rows S0 S hS0 hS T0 W0 tmp hT hW ht vis
    hv b fl hp.1 hp.2 hcall
  have hs : (fixFreq ob).startChs = ob.startChs := by unfold fixFreq; split_ifs <;> rfl
  have hE : (fixFreq ob).endChs = ob.endChs := by unfold fixFreq; split_ifs <;> rfl
  refine ⟨r, r1, fun i hi him c hcn => ⟨fun hsel => ?_, fun hsel => ?_⟩⟩
  · obtain ⟨p, ⟨hp1, hp2⟩, pu⟩ := C67_sweep_partial pl hw (fixFreq ob) hc hd m hmade b fl hp i him c
      (by rw [hs]; exact hsel.1) (by rw [hE]; exact hsel.2) (hg i hi)
    refine ⟨p, hp2, ?_⟩
    rw [r3 i hi c hcn]
    congr 1
    apply sum_eq_single p
    · intro q hq hqp
      apply degridSum_off
      intro ho
      rw [mem_Icc] at hq
      exact hqp (pu q ⟨hq, ho⟩)
    · intro h
      exact absurd (mem_Icc.2 hp1) h
  · rw [r3 i hi c hcn, add_eq_left]
    apply sum_eq_zero
    intro q _
    apply degridSum_off
    intro ho
    unfold OnPlane at ho
    rw [hs, hE] at ho
    exact hsel ⟨ho.1, ho.2.1⟩

/-- **C42 fails without visibilities.**  With every channel range empty the bounds are infinite
and their conversion to `int` is undefined, in both calls. -/
theorem C42_empty_false (pl : Plan K ℂ) (ob : Obs K) (hc : 0 < (fixFreq ob).c0)
    (hd : 0 ≤ (fixFreq ob).df) (m : Nat) (hm : (fixFreq ob).Made m)
    (he : ∀ i < m, (fixFreq ob).endChs.get i ≤ (fixFreq ob).startChs.get i) (pat img : Arr ℂ)
    (S0 S : Nat → Sched) (T0 W0 tmp vis : Arr ℂ) (a e : Int) :
    degridCall pl ob m pat img S0 S T0 W0 tmp vis = none ∧
      gridCall pl ob m pat vis a e S0 S W0 tmp img = none := by
  obtain ⟨b, e1, _, _, _, hn⟩ := C39_bounds_partial (fixFreq ob).c0 (fixFreq ob).f0 (fixFreq ob).df hc
    hd (fixFreq ob).uvw m (fixFreq ob).startChs (fixFreq ob).endChs (by rw [hm.uvw]; omega)
    (by rw [hm.s]) (by rw [hm.e])
  have := hn he
  subst this
  unfold degridCall gridCall
  simp only
  rw [e1]
  exact ⟨rfl, rfl⟩

/-! ## Adjointness of whole calls -/

theorem star_cexp_frac (z : Int) (n : Nat) :
    star (Complex.exp (2 * Real.pi * Complex.I * ((z : ℂ) / n))) =
      Complex.exp (2 * Real.pi * Complex.I * (((-z : Int) : ℂ) / n)) := by
  rw [Complex.star_def, ← Complex.exp_conj]
  congr 1
  simp [Complex.conj_ofNat]
  ring

/-- The centred inverse transform is the adjoint of the centred forward transform. -/
theorem centred_adjoint (n : Nat) (f g : Nat → Nat → ℂ) :
    ∑ x ∈ range n, ∑ y ∈ range n, star (centred false n n f x y) * g x y =
      ∑ a ∈ range n, ∑ b ∈ range n, star (f a b) * centred true n n g a b := by
  have L : ∀ x y, star (centred false n n f x y) * g x y =
      ∑ a ∈ range n, ∑ b ∈ range n, star (f a b) * (
        Complex.exp (2 * Real.pi * Complex.I * (((((x : Int) - (n / 2 : Nat)) *
          ((a : Int) - (n / 2 : Nat)) : Int) : ℂ) / n)) *
        Complex.exp (2 * Real.pi * Complex.I * (((((y : Int) - (n / 2 : Nat)) *
          ((b : Int) - (n / 2 : Nat)) : Int) : ℂ) / n)) * g x y) := by
    intro x y
    unfold centred
    rw [star_sum, sum_mul]
    refine sum_congr rfl fun a _ => ?_
    rw [star_sum, sum_mul]
    refine sum_congr rfl fun b _ => ?_
    rw [star_mul', star_mul', star_cexp_frac, star_cexp_frac]
    have e : ∀ u v : Int, -((if (false : Bool) = true then 1 else -1) * (u * v)) = v * u := by
      intro u v; simp; ring
    rw [e, e]
    ring
  simp only [L]
  have R : ∀ a b, star (f a b) * centred true n n g a b =
      ∑ x ∈ range n, ∑ y ∈ range n, star (f a b) * (
        Complex.exp (2 * Real.pi * Complex.I * (((((x : Int) - (n / 2 : Nat)) *
          ((a : Int) - (n / 2 : Nat)) : Int) : ℂ) / n)) *
        Complex.exp (2 * Real.pi * Complex.I * (((((y : Int) - (n / 2 : Nat)) *
          ((b : Int) - (n / 2 : Nat)) : Int) : ℂ) / n)) * g x y) := by
    intro a b
    unfold centred
    simp only [mul_sum, if_true, one_mul]
  simp only [R]
  -- swap (x, y) with (a, b)
  have sw : ∀ F : Nat → Nat → Nat → Nat → ℂ,
      ∑ x ∈ range n, ∑ y ∈ range n, ∑ a ∈ range n, ∑ b ∈ range n, F x y a b =
      ∑ a ∈ range n, ∑ b ∈ range n, ∑ x ∈ range n, ∑ y ∈ range n, F x y a b := by
    intro F
    have := sum_comm (s := range n ×ˢ range n) (t := range n ×ˢ range n)
      (f := fun p q => F p.1 p.2 q.1 q.2)
    simpa only [sum_product] using this
  exact sw _

/-- Conjugating a degridded value: real kernels. -/
theorem star_degridSum (pl : Plan K ℂ) (kuv : ∀ j, star (pl.uvKernel.get j) = pl.uvKernel.get j)
    (kw : ∀ j, star (pl.wKernel.get j) = pl.wKernel.get j) (ob : Obs K) (p : Int)
    (T : Nat → Nat → Nat → ℂ) (i c : Nat) :
    star (degridSum pl ob p T i c) = degridSum pl ob p (fun k x y => star (T k x y)) i c := by
  unfold degridSum
  by_cases hu : Used pl ob p i c
  · rw [if_pos hu, if_pos hu]
    simp only [star_sum, star_mul']
    refine sum_congr rfl fun k _ => sum_congr rfl fun x _ => sum_congr rfl fun y _ => ?_
    congr 1
    unfold wt wTapAt tapAt
    rw [star_mul', star_mul', kw]
    congr 1
    · congr 1
      split_ifs
      · exact kuv _
      · exact star_zero _
    · split_ifs
      · exact kuv _
      · exact star_zero _
  · rw [if_neg hu, if_neg hu, star_zero]

/-- Real kernels, unimodular w pattern `P`, all rows: degridding `img` into zeroed visibilities
and gridding `v` into a zeroed image satisfy
`⟨degrid img, v⟩ = ⟨img, P^(support mod 2) · grid v⟩`. -/
theorem C68_general (pl : Plan K ℂ)
    (kuv : ∀ j, star (pl.uvKernel.get j) = pl.uvKernel.get j)
    (kw : ∀ j, star (pl.wKernel.get j) = pl.wKernel.get j) (ob : Obs K) (m : Nat)
    (pat img v : Arr ℂ) (he : Env pl pat)
    (hu : ∀ x, x < pl.n → ∀ y, y < pl.n → star (im pl.n pat x y) * im pl.n pat x y = 1)
    (hI : img.size = pl.n * pl.n) (hv : v.size = m * ob.numChan)
    (S0 S S1 S2 : Nat → Sched) (hS0 : ∀ j, (S0 j).Ok pl.n (rowList m (-1) (-1)))
    (hS : ∀ j, (S j).Ok pl.n (rowList m (-1) (-1)))
    (hS1 : ∀ j, (S1 j).Ok pl.n (rowList m (-1) (-1)))
    (hS2 : ∀ j, (S2 j).Ok pl.n (rowList m (-1) (-1)))
    (T0 W0 tmp F0 tmp2 v0 i0 : Arr ℂ)
    (hT : T0.size = pl.wSupport * (pl.n * pl.n)) (hW : W0.size = pl.n * pl.n)
    (ht : tmp.size = pl.n * pl.n) (hF : F0.size = pl.n * pl.n) (ht2 : tmp2.size = pl.n * pl.n)
    (hv0 : v0.size = m * ob.numChan) (hi0 : i0.size = pl.n * pl.n)
    (zv : ∀ j, v0.get j = 0) (zi : ∀ j, i0.get j = 0)
    (b : MinMax K × MinMax K × MinMax K) (fl : Int × Int) (hle : fl.1 ≤ fl.2)
    (hp : Planes pl (fixFreq ob) m b fl)
    (hcall : ∀ p, fl.1 ≤ p → p ≤ fl.2 → Call pl (fixFreq ob) p m (rowList m (-1) (-1))) :
    ∃ D G, degridCall pl ob m pat img S0 S T0 W0 tmp v0 = some (D, 1 + fl.2 - fl.1) ∧
      gridCall pl ob m pat v (-1) (-1) S1 S2 F0 tmp2 i0 = some (G, 1 + fl.2 - fl.1) ∧
      (∑ i ∈ range m, ∑ c ∈ range ob.numChan, star (visAt ob D i c) * visAt ob v i c) =
        ∑ x ∈ range pl.n, ∑ y ∈ range pl.n, star (im pl.n img x y) *
          (im pl.n pat x y ^ (pl.wSupport % 2) * im pl.n G x y) := by
  have hrows : rowList m (-1) (-1) = List.range m := by unfold rowList; simp
  rw [hrows] at hS0 hS hcall
  obtain ⟨D, d1, _, d3, _⟩ := C42_degrid pl ob m pat img he hI (List.range m) S0 S hS0 hS T0 W0 tmp
    hT hW ht v0 hv0 b fl hp.1 hp.2 hcall
  obtain ⟨G, g1, _, g3⟩ := C42_grid pl ob m pat v i0 he hi0 (-1) (-1) S1 S2 hS1 hS2 F0 tmp2 hF ht2 hv b
    fl hle hp.1 hp.2 (by rw [hrows]; exact hcall)
  refine ⟨D, G, d1, g1, ?_⟩
  rw [hrows] at g3
  have hnc : (fixFreq ob).numChan = ob.numChan := by unfold fixFreq; split_ifs <;> rfl
  -- left side: sum over planes
  have e1 : ∀ i ∈ range m, ∀ c ∈ range ob.numChan, star (visAt ob D i c) * visAt ob v i c =
      ∑ p ∈ Icc fl.1 fl.2, degridSum pl (fixFreq ob) p (fun k x y =>
        star (planeGrid pl.n (im pl.n pat) (im pl.n img)
          (p + k - ((pl.wSupport / 2 : Nat) : Int)) x y)) i c * visAt ob v i c := by
    intro i hi c hc
    rw [d3 i (List.mem_range.2 (mem_range.1 hi)) c (mem_range.1 hc)]
    have : visAt ob v0 i c = 0 := zv _
    rw [this, zero_add, star_sum, sum_mul]
    refine sum_congr rfl fun p _ => ?_
    rw [star_degridSum pl kuv kw]
  rw [sum_congr rfl fun i hi => sum_congr rfl fun c hc => e1 i hi c hc]
  have e2 : (∑ i ∈ range m, ∑ c ∈ range ob.numChan, ∑ p ∈ Icc fl.1 fl.2,
      degridSum pl (fixFreq ob) p (fun k x y => star (planeGrid pl.n (im pl.n pat) (im pl.n img)
          (p + k - ((pl.wSupport / 2 : Nat) : Int)) x y)) i c * visAt ob v i c) =
      ∑ p ∈ Icc fl.1 fl.2, ∑ k ∈ range pl.wSupport, ∑ x ∈ range pl.n, ∑ y ∈ range pl.n,
        star (planeGrid pl.n (im pl.n pat) (im pl.n img)
          (p + k - ((pl.wSupport / 2 : Nat) : Int)) x y) *
        gridSum pl (fixFreq ob) p (List.range m) (visAt ob v) k x y := by
    have : ∀ p, ∑ k ∈ range pl.wSupport, ∑ x ∈ range pl.n, ∑ y ∈ range pl.n,
        star (planeGrid pl.n (im pl.n pat) (im pl.n img)
          (p + k - ((pl.wSupport / 2 : Nat) : Int)) x y) *
        gridSum pl (fixFreq ob) p (List.range m) (visAt ob v) k x y =
        ∑ i ∈ range m, ∑ c ∈ range ob.numChan,
          degridSum pl (fixFreq ob) p (fun k x y => star (planeGrid pl.n (im pl.n pat) (im pl.n img)
            (p + k - ((pl.wSupport / 2 : Nat) : Int)) x y)) i c * visAt ob v i c := by
      intro p
      rw [← degridSum_zero_vis, list_sum_range, hnc]
    simp only [this]
    rw [sum_comm' (s := Icc fl.1 fl.2) (t' := range m) (s' := fun _ => Icc fl.1 fl.2)
      (t := fun _ => range m) (by intro a b; tauto)]
    refine sum_congr rfl fun i _ => ?_
    rw [sum_comm]
  rw [e2]
  -- transpose each transform
  have e3 : ∀ (p : Int) (k : Nat), ∑ x ∈ range pl.n, ∑ y ∈ range pl.n,
        star (planeGrid pl.n (im pl.n pat) (im pl.n img)
          (p + k - ((pl.wSupport / 2 : Nat) : Int)) x y) *
        gridSum pl (fixFreq ob) p (List.range m) (visAt ob v) k x y =
      ∑ x ∈ range pl.n, ∑ y ∈ range pl.n, star (im pl.n img x y) *
        (im pl.n pat x y ^ (p + k - ((pl.wSupport / 2 : Nat) : Int)) *
          centred true pl.n pl.n (gridSum pl (fixFreq ob) p (List.range m) (visAt ob v) k) x y) := by
    intro p k
    unfold planeGrid
    rw [centred_adjoint]
    refine sum_congr rfl fun x hx => sum_congr rfl fun y hy => ?_
    have h1 := hu x (mem_range.1 hx) y (mem_range.1 hy)
    have h2 : star (im pl.n pat x y) = (im pl.n pat x y)⁻¹ := eq_inv_of_mul_eq_one_left h1
    rw [star_div₀, star_zpow₀, h2, inv_zpow, div_inv_eq_mul, mul_assoc]
  simp only [e3]
  have sw : ∀ F : Int → Nat → Nat → Nat → ℂ,
      ∑ p ∈ Icc fl.1 fl.2, ∑ k ∈ range pl.wSupport, ∑ x ∈ range pl.n, ∑ y ∈ range pl.n, F p k x y =
      ∑ x ∈ range pl.n, ∑ y ∈ range pl.n, ∑ p ∈ Icc fl.1 fl.2, ∑ k ∈ range pl.wSupport,
        F p k x y := by
    intro F
    have := sum_comm (s := Icc fl.1 fl.2 ×ˢ range pl.wSupport) (t := range pl.n ×ˢ range pl.n)
      (f := fun p q => F p.1 p.2 q.1 q.2)
    simpa only [sum_product] using this
  rw [sw]
  refine sum_congr rfl fun x hx => sum_congr rfl fun y hy => ?_
  rw [g3 x (mem_range.1 hx) y (mem_range.1 hy)]
  have : im pl.n i0 x y = 0 := zi _
  rw [this, zero_add]
  have hP := he.ne x (mem_range.1 hx) y (mem_range.1 hy)
  simp only [mul_sum]
  refine sum_congr rfl fun p _ => sum_congr rfl fun k _ => ?_
  rw [← mul_assoc (im pl.n pat x y ^ (pl.wSupport % 2))]
  congr 2
  rw [← zpow_natCast, ← zpow_add₀ hP]
  congr 1
  omega

/-- **C68 (partial).**  For even `w_support`, real kernels and a unimodular w pattern, gridding a
set of visibilities into a zeroed image is the adjoint of degridding an image into zeroed
visibilities. -/
theorem C68_adjoint_partial (pl : Plan K ℂ)
    (kuv : ∀ j, star (pl.uvKernel.get j) = pl.uvKernel.get j)
    (kw : ∀ j, star (pl.wKernel.get j) = pl.wKernel.get j) (ob : Obs K) (m : Nat)
    (pat img v : Arr ℂ) (he : Env pl pat)
    (hu : ∀ x, x < pl.n → ∀ y, y < pl.n → star (im pl.n pat x y) * im pl.n pat x y = 1)
    (hI : img.size = pl.n * pl.n) (hv : v.size = m * ob.numChan)
    (S0 S S1 S2 : Nat → Sched) (hS0 : ∀ j, (S0 j).Ok pl.n (rowList m (-1) (-1)))
    (hS : ∀ j, (S j).Ok pl.n (rowList m (-1) (-1)))
    (hS1 : ∀ j, (S1 j).Ok pl.n (rowList m (-1) (-1)))
    (hS2 : ∀ j, (S2 j).Ok pl.n (rowList m (-1) (-1)))
    (T0 W0 tmp F0 tmp2 v0 i0 : Arr ℂ)
    (hT : T0.size = pl.wSupport * (pl.n * pl.n)) (hW : W0.size = pl.n * pl.n)
    (ht : tmp.size = pl.n * pl.n) (hF : F0.size = pl.n * pl.n) (ht2 : tmp2.size = pl.n * pl.n)
    (hv0 : v0.size = m * ob.numChan) (hi0 : i0.size = pl.n * pl.n)
    (zv : ∀ j, v0.get j = 0) (zi : ∀ j, i0.get j = 0)
    (b : MinMax K × MinMax K × MinMax K) (fl : Int × Int) (hle : fl.1 ≤ fl.2)
    (hp : Planes pl (fixFreq ob) m b fl)
    (hcall : ∀ p, fl.1 ≤ p → p ≤ fl.2 → Call pl (fixFreq ob) p m (rowList m (-1) (-1))) 
    (hev : pl.wSupport % 2 = 0) :
    ∃ D G, degridCall pl ob m pat img S0 S T0 W0 tmp v0 = some (D, 1 + fl.2 - fl.1) ∧
      gridCall pl ob m pat v (-1) (-1) S1 S2 F0 tmp2 i0 = some (G, 1 + fl.2 - fl.1) ∧
      (∑ i ∈ range m, ∑ c ∈ range ob.numChan, star (visAt ob D i c) * visAt ob v i c) =
        ∑ x ∈ range pl.n, ∑ y ∈ range pl.n, star (im pl.n img x y) * im pl.n G x y := by
  obtain ⟨D, G, d, g, e⟩ := C68_general pl kuv kw ob m pat img v he hu hI hv S0 S S1 S2 hS0 hS hS1 hS2 T0 W0 tmp F0 tmp2 v0 i0 hT hW ht
    hF ht2 hv0 hi0 zv zi b fl hle hp hcall
  refine ⟨D, G, d, g, ?_⟩
  rw [e]
  simp only [hev, pow_zero, one_mul]

/-- **C68 fails for odd `w_support`**: gridding misses one factor of the w pattern.  For every
visibility set whose gridded image has a non-zero pixel where the pattern is not 1, there is an
image for which the two inner products differ. -/
theorem C68_odd_false (pl : Plan K ℂ)
    (kuv : ∀ j, star (pl.uvKernel.get j) = pl.uvKernel.get j)
    (kw : ∀ j, star (pl.wKernel.get j) = pl.wKernel.get j) (ob : Obs K) (m : Nat)
    (pat v : Arr ℂ) (he : Env pl pat)
    (hu : ∀ x, x < pl.n → ∀ y, y < pl.n → star (im pl.n pat x y) * im pl.n pat x y = 1)
    (hv : v.size = m * ob.numChan)
    (S0 S S1 S2 : Nat → Sched) (hS0 : ∀ j, (S0 j).Ok pl.n (rowList m (-1) (-1)))
    (hS : ∀ j, (S j).Ok pl.n (rowList m (-1) (-1)))
    (hS1 : ∀ j, (S1 j).Ok pl.n (rowList m (-1) (-1)))
    (hS2 : ∀ j, (S2 j).Ok pl.n (rowList m (-1) (-1)))
    (T0 W0 tmp F0 tmp2 v0 i0 : Arr ℂ)
    (hT : T0.size = pl.wSupport * (pl.n * pl.n)) (hW : W0.size = pl.n * pl.n)
    (ht : tmp.size = pl.n * pl.n) (hF : F0.size = pl.n * pl.n) (ht2 : tmp2.size = pl.n * pl.n)
    (hv0 : v0.size = m * ob.numChan) (hi0 : i0.size = pl.n * pl.n)
    (zv : ∀ j, v0.get j = 0) (zi : ∀ j, i0.get j = 0)
    (b : MinMax K × MinMax K × MinMax K) (fl : Int × Int) (hle : fl.1 ≤ fl.2)
    (hp : Planes pl (fixFreq ob) m b fl)
    (hcall : ∀ p, fl.1 ≤ p → p ≤ fl.2 → Call pl (fixFreq ob) p m (rowList m (-1) (-1))) 
    (hodd : pl.wSupport % 2 = 1) (G : Arr ℂ)
    (hG : gridCall pl ob m pat v (-1) (-1) S1 S2 F0 tmp2 i0 = some (G, 1 + fl.2 - fl.1))
    (x0 y0 : Nat) (hx0 : x0 < pl.n) (hy0 : y0 < pl.n) (h1 : im pl.n pat x0 y0 ≠ 1)
    (h2 : im pl.n G x0 y0 ≠ 0) :
    ∃ img D : Arr ℂ, img.size = pl.n * pl.n ∧
      degridCall pl ob m pat img S0 S T0 W0 tmp v0 = some (D, 1 + fl.2 - fl.1) ∧
      (∑ i ∈ range m, ∑ c ∈ range ob.numChan, star (visAt ob D i c) * visAt ob v i c) ≠
        ∑ x ∈ range pl.n, ∑ y ∈ range pl.n, star (im pl.n img x y) * im pl.n G x y := by
  obtain ⟨D, G', d, g, e⟩ := C68_general pl kuv kw ob m pat ⟨pl.n * pl.n, fun j => (pat.get j - 1) * G.get j⟩ v he hu rfl hv S0 S S1 S2 hS0 hS hS1 hS2 T0 W0 tmp F0 tmp2 v0 i0 hT hW ht
    hF ht2 hv0 hi0 zv zi b fl hle hp hcall
  obtain rfl : G' = G := (Prod.mk.inj (Option.some.inj (g.symm.trans hG))).1
  refine ⟨_, D, rfl, d, ?_⟩
  rw [e]
  simp only [hodd, pow_one]
  intro hh
  rw [← sub_eq_zero, ← sum_sub_distrib] at hh
  simp only [← sum_sub_distrib] at hh
  have t : ∀ x y, star (im pl.n ⟨pl.n * pl.n, fun j => (pat.get j - 1) * G'.get j⟩ x y) *
      (im pl.n pat x y * im pl.n G' x y) -
      star (im pl.n ⟨pl.n * pl.n, fun j => (pat.get j - 1) * G'.get j⟩ x y) * im pl.n G' x y =
      ((Complex.normSq ((im pl.n pat x y - 1) * im pl.n G' x y) : ℝ) : ℂ) := by
    intro x y
    rw [Complex.normSq_eq_conj_mul_self]
    unfold im
    simp only [Complex.star_def]
    ring
  simp only [t] at hh
  have hh' : ∑ x ∈ range pl.n, ∑ y ∈ range pl.n,
      Complex.normSq ((im pl.n pat x y - 1) * im pl.n G' x y) = 0 := by exact_mod_cast hh
  rw [sum_eq_zero_iff_of_nonneg fun x _ => sum_nonneg fun y _ => Complex.normSq_nonneg _] at hh'
  have a := hh' x0 (mem_range.2 hx0)
  rw [sum_eq_zero_iff_of_nonneg fun y _ => Complex.normSq_nonneg _] at a
  have b := a y0 (mem_range.2 hy0)
  rw [Complex.normSq_eq_zero, mul_eq_zero] at b
  rcases b with b | b
  · exact h1 (sub_eq_zero.1 b)
  · exact h2 b

/-! ## Non-vacuity -/

/-- `exPlan` with complex kernels. -/
def exPlanC : Plan ℚ ℂ where
  n := 8
  theta := 1
  wStep := 1
  support := 4
  ov := 2
  wSupport := 2
  wOv := 2
  uvKernel := ⟨12, fun j => j⟩
  wKernel := ⟨6, fun j => j + 1⟩

theorem exPlanC_made : exPlanC.Made := by
  constructor <;> simp [exPlanC]

def exOb : Obs ℚ := exObs (1 / 2) (-1 / 2) (1 / 5)

theorem exSel (p : Int) (hp : p = 0 ∨ p = 1 ∨ p = 2) :
    rowSel exPlanC exOb p 0 = some (if p = 1 then (0, 3) else (0, 0)) := by
  have e : rowSel exPlanC exOb p 0 = rowSel exPlan exOb p 0 := rfl
  rw [e]
  rcases hp with rfl | rfl | rfl <;> decide +kernel

theorem exCall (p : Int) (hp : p = 0 ∨ p = 1 ∨ p = 2) : Call exPlanC exOb p 1 [0] := by
  refine ⟨exPlanC_made, exObs_made _ _ _, by simp, by simp, ?_⟩
  intro i hi c hu
  have hi' : i = 0 := by simpa using hi
  subst hi'
  obtain ⟨r, h1, h2⟩ := rowSel_ok exPlanC exOb p 1 (exObs_made _ _ _) 0 (by omega)
  rw [exSel p hp] at h1
  obtain rfl := Option.some.inj h1
  have hc := (h2 c).2 hu
  have e : Fits exPlanC exOb p 0 c = Fits exPlan exOb p 0 c := rfl
  rw [e]
  by_cases h : p = 1
  · rw [if_pos h] at hc
    subst h
    simp only at hc
    have : c = 0 ∨ c = 1 ∨ c = 2 := by omega
    unfold Fits InGrid
    rcases this with rfl | rfl | rfl <;> decide +kernel
  · rw [if_neg h] at hc
    simp only at hc
    omega

/-- Non-vacuity of C42 and C67: an observation sweeping planes 0 to 2 with all its visibilities
on plane 1, a plan and a w pattern meeting the hypotheses. -/
theorem exWhole : (∃ b, Planes exPlanC (fixFreq exOb) 1 b (0, 2)) ∧
    (∀ p, 0 ≤ p → p ≤ 2 → Call exPlanC (fixFreq exOb) p 1 [0]) ∧
    Env exPlanC ⟨64, fun _ => Complex.I⟩ ∧ GuardOk exPlanC (fixFreq exOb) (0, 2) 0 ∧
    (∀ x, x < 8 → ∀ y, y < 8 → star (im 8 ⟨64, fun _ => Complex.I⟩ x y) *
      im 8 ⟨64, fun _ => Complex.I⟩ x y = 1) ∧
    Used exPlanC (fixFreq exOb) 1 0 2 := by
  have hf : fixFreq exOb = exOb := by
    unfold fixFreq exOb exObs
    rw [if_neg (by norm_num)]
  rw [hf]
  refine ⟨?_, ?_, ?_, ?_, ?_, ?_⟩
  · obtain ⟨b, e1, _⟩ := C39_bounds_partial exOb.c0 exOb.f0 exOb.df (by decide +kernel)
      (by decide +kernel) exOb.uvw 1 exOb.startChs exOb.endChs (by decide) (by decide) (by decide)
    refine ⟨b, e1, ?_⟩
    have hb : b.2.2 = ⟨((1 / 5 : ℚ) : WithTop ℚ), ((3 / 5 : ℚ) : WithBot ℚ)⟩ := by
      have : uvwBounds exOb.c0 exOb.f0 exOb.df exOb.uvw 1 exOb.startChs exOb.endChs =
        boundRow exOb.c0 exOb.f0 exOb.df exOb.uvw exOb.startChs exOb.endChs
          (MinMax.init, MinMax.init, MinMax.init) 0 := by
        simp only [uvwBounds, List.range_succ, List.range_zero, List.nil_append, loop]
        cases boundRow exOb.c0 exOb.f0 exOb.df exOb.uvw exOb.startChs exOb.endChs
          (MinMax.init, MinMax.init, MinMax.init) 0 <;> rfl
      rw [this] at e1
      simp [boundRow, exOb, exObs, Arr.read, boundStep, MinMax.init] at e1
      rw [← e1]
      norm_num
      have h2 : (2 : WithBot ℚ) = ((2 : ℚ) : WithBot ℚ) := rfl
      rw [h2, ← WithBot.coe_mul, ← WithBot.coe_add]
      norm_num
    rw [hb]
    unfold planeRange
    simp only [Option.some.injEq, Prod.mk.injEq]
    constructor <;> decide +kernel
  · intro p h1 h2
    exact exCall p (by omega)
  · refine ⟨rfl, by decide, by decide, rfl, fun x _ y _ => ?_⟩
    exact Complex.I_ne_zero
  · right
    constructor <;> decide +kernel
  · intro x _ y _
    simp [im]
  · obtain ⟨r, h1, h2⟩ := rowSel_ok exPlanC exOb 1 1 (exObs_made _ _ _) 0 (by omega)
    rw [exSel 1 (by omega)] at h1
    obtain rfl := Option.some.inj h1
    exact (h2 2).1 (by simp)

end
end Sdp.WTower
