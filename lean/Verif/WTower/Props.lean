import Mathlib.Tactic.FieldSimp
import Mathlib.Tactic.NormNum
import Mathlib.Tactic.Linarith
import Mathlib.Tactic.Positivity
import Verif.WTower.Plane

/-!
# C40 (adjointness, linearity, order), C41 (memory), C66 (kernel choice), C67 (planes)
-/

set_option linter.unusedSectionVars false

namespace Sdp.WTower
open Sdp.Clamp Finset

variable {K : Type} [Field K] [LinearOrder K] [IsStrictOrderedRing K] [FloorRing K]
variable {R : Type} [CommRing R]

/-! ## C40 -/

theorem degridSum_zero_vis (pl : Plan K R) (ob : Obs K) (p : Int) (rows : List Nat)
    (T : Nat → Nat → Nat → R) (v : Nat → Nat → R) :
    (rows.map fun i => ∑ c ∈ range ob.numChan, degridSum pl ob p T i c * v i c).sum =
      ∑ k ∈ range pl.wSupport, ∑ x ∈ range pl.n, ∑ y ∈ range pl.n,
        T k x y * gridSum pl ob p rows v k x y := by
  classical
  induction rows with
  | nil => simp [gridSum]
  | cons i rows ih =>
    have e : ∀ k x y, gridSum pl ob p (i :: rows) v k x y =
        (∑ c ∈ range ob.numChan, if Used pl ob p i c then wt pl ob p i c k x y * v i c else 0) +
          gridSum pl ob p rows v k x y := by
      intro k x y
      simp only [gridSum, List.map_cons, List.sum_cons]
    simp only [e, mul_add, sum_add_distrib, List.map_cons, List.sum_cons, ih]
    congr 1
    have z : ∀ k x y, T k x y * (∑ c ∈ range ob.numChan,
        if Used pl ob p i c then wt pl ob p i c k x y * v i c else 0) =
        ∑ c ∈ range ob.numChan,
          if Used pl ob p i c then wt pl ob p i c k x y * T k x y * v i c else 0 := by
      intro k x y
      rw [mul_sum]
      refine sum_congr rfl fun c _ => ?_
      by_cases hu : Used pl ob p i c
      · rw [if_pos hu, if_pos hu]; ring
      · rw [if_neg hu, if_neg hu, mul_zero]
    simp only [z]
    have sw : ∀ f : Nat → Nat → Nat → Nat → R,
        ∑ k ∈ range pl.wSupport, ∑ x ∈ range pl.n, ∑ y ∈ range pl.n,
          ∑ c ∈ range ob.numChan, f k x y c =
        ∑ c ∈ range ob.numChan, ∑ k ∈ range pl.wSupport, ∑ x ∈ range pl.n,
          ∑ y ∈ range pl.n, f k x y c := by
      intro f
      rw [sum_comm' (s := range ob.numChan) (t' := range pl.wSupport) (s' := fun _ => range ob.numChan)
        (t := fun _ => range pl.wSupport) (by intro a b; tauto)]
      refine sum_congr rfl fun k _ => ?_
      rw [sum_comm' (s := range ob.numChan) (t' := range pl.n) (s' := fun _ => range ob.numChan)
        (t := fun _ => range pl.n) (by intro a b; tauto)]
      refine sum_congr rfl fun x _ => ?_
      rw [sum_comm]
    rw [sw]
    refine sum_congr rfl fun c _ => ?_
    unfold degridSum
    by_cases hu : Used pl ob p i c
    · simp only [if_pos hu, sum_mul]
    · simp only [if_neg hu, zero_mul, sum_const_zero]

/-- A plane call within the memory limits (hypotheses of C40). -/
structure Call (pl : Plan K R) (ob : Obs K) (p : Int) (m : Nat) (order : List Nat) : Prop where
  plan : pl.Made
  obs : ob.Made m
  rows : ∀ i ∈ order, i < m
  nodup : order.Nodup
  fits : ∀ i ∈ order, ∀ c, Used pl ob p i c → Fits pl ob p i c

/-- **C40, adjointness.**  Degrid a tower `T` into zeroed visibilities, grid visibilities `v`
into a zeroed tower: `⟨degrid T, v⟩ = ⟨T, grid v⟩`. -/
theorem C40_adjoint (pl : Plan K R) (ob : Obs K) (p : Int) (m : Nat) (order : List Nat)
    (h : Call pl ob p m order) (T v : Arr R) (hT : T.size = pl.wSupport * (pl.n * pl.n))
    (hv : v.size = m * ob.numChan) (v0 T0 : Arr R) (hv0 : v0.size = v.size)
    (hT0 : T0.size = T.size) (zv : ∀ j, v0.get j = 0) (zT : ∀ j, T0.get j = 0) :
    ∃ D G, degridPlane pl ob p T order v0 = some D ∧ gridPlane pl ob p v order T0 = some G ∧
      (order.map fun i => ∑ c ∈ range ob.numChan, visAt ob D i c * visAt ob v i c).sum =
        ∑ k ∈ range pl.wSupport, ∑ x ∈ range pl.n, ∑ y ∈ range pl.n,
          tower pl T k x y * tower pl G k x y := by
  obtain ⟨D, d1, _, d3, _⟩ := C40_degrid pl h.plan ob p m h.obs T hT order h.rows h.nodup h.fits v0
    (by rw [hv0, hv])
  obtain ⟨G, g1, _, g3⟩ := C40_grid pl h.plan ob p m h.obs T0 (by rw [hT0, hT]) order h.rows
    h.fits v hv
  refine ⟨D, G, d1, g1, ?_⟩
  have e1 : (order.map fun i => ∑ c ∈ range ob.numChan, visAt ob D i c * visAt ob v i c).sum =
      (order.map fun i => ∑ c ∈ range ob.numChan,
        degridSum pl ob p (tower pl T) i c * visAt ob v i c).sum := by
    congr 1
    apply List.map_congr_left
    intro i hi
    refine sum_congr rfl fun c hc => ?_
    rw [d3 i hi c (mem_range.1 hc)]
    have : visAt ob v0 i c = 0 := zv _
    rw [this, zero_add]
  rw [e1, degridSum_zero_vis]
  refine sum_congr rfl fun k hk => sum_congr rfl fun x hx => sum_congr rfl fun y hy => ?_
  rw [g3 k (mem_range.1 hk) x (mem_range.1 hx) y (mem_range.1 hy)]
  have : tower pl T0 k x y = 0 := zT _
  rw [this, zero_add]

/-- **C40, adjointness for complex data.**  With real (self-adjoint) kernel tables the two maps
are adjoint for the inner product conjugating its left argument. -/
theorem C40_adjoint_conj [StarRing R] (pl : Plan K R) (ob : Obs K) (p : Int) (m : Nat)
    (order : List Nat) (h : Call pl ob p m order)
    (kuv : ∀ j, star (pl.uvKernel.get j) = pl.uvKernel.get j)
    (kw : ∀ j, star (pl.wKernel.get j) = pl.wKernel.get j)
    (T v : Arr R) (hT : T.size = pl.wSupport * (pl.n * pl.n))
    (hv : v.size = m * ob.numChan) (v0 T0 : Arr R) (hv0 : v0.size = v.size)
    (hT0 : T0.size = T.size) (zv : ∀ j, v0.get j = 0) (zT : ∀ j, T0.get j = 0) :
    ∃ D G, degridPlane pl ob p T order v0 = some D ∧ gridPlane pl ob p v order T0 = some G ∧
      (order.map fun i => ∑ c ∈ range ob.numChan, star (visAt ob D i c) * visAt ob v i c).sum =
        ∑ k ∈ range pl.wSupport, ∑ x ∈ range pl.n, ∑ y ∈ range pl.n,
          star (tower pl T k x y) * tower pl G k x y := by
  obtain ⟨D, d1, _, d3, _⟩ := C40_degrid pl h.plan ob p m h.obs T hT order h.rows h.nodup h.fits v0
    (by rw [hv0, hv])
  obtain ⟨G, g1, _, g3⟩ := C40_grid pl h.plan ob p m h.obs T0 (by rw [hT0, hT]) order h.rows
    h.fits v hv
  refine ⟨D, G, d1, g1, ?_⟩
  have st : ∀ i c, star (degridSum pl ob p (tower pl T) i c) =
      degridSum pl ob p (fun k x y => star (tower pl T k x y)) i c := by
    intro i c
    unfold degridSum
    by_cases hu : Used pl ob p i c
    · rw [if_pos hu, if_pos hu]
      simp only [star_sum, star_mul']
      refine sum_congr rfl fun k _ => sum_congr rfl fun x _ => sum_congr rfl fun y _ => ?_
      congr 1
      unfold wt wTapAt tapAt
      rw [star_mul', star_mul', kw]
      congr 1
      · congr 1
        split_ifs
        · exact kuv _
        · exact star_zero _
      · split_ifs
        · exact kuv _
        · exact star_zero _
    · rw [if_neg hu, if_neg hu, star_zero]
  have e1 : (order.map fun i => ∑ c ∈ range ob.numChan,
        star (visAt ob D i c) * visAt ob v i c).sum =
      (order.map fun i => ∑ c ∈ range ob.numChan,
        degridSum pl ob p (fun k x y => star (tower pl T k x y)) i c * visAt ob v i c).sum := by
    congr 1
    apply List.map_congr_left
    intro i hi
    refine sum_congr rfl fun c hc => ?_
    rw [d3 i hi c (mem_range.1 hc)]
    have : visAt ob v0 i c = 0 := zv _
    rw [this, zero_add, st]
  rw [e1, degridSum_zero_vis]
  refine sum_congr rfl fun k hk => sum_congr rfl fun x hx => sum_congr rfl fun y hy => ?_
  rw [g3 k (mem_range.1 hk) x (mem_range.1 hx) y (mem_range.1 hy)]
  have : tower pl T0 k x y = 0 := zT _
  rw [this, zero_add]

/-- **C40, linearity of degridding** in the tower. -/
theorem C40_degrid_linear (pl : Plan K R) (ob : Obs K) (p : Int) (m : Nat) (order : List Nat)
    (h : Call pl ob p m order) (a b : R) (S T U vs vt vu : Arr R)
    (hS : S.size = pl.wSupport * (pl.n * pl.n)) (hT : T.size = S.size) (hU : U.size = S.size)
    (hvs : vs.size = m * ob.numChan) (hvt : vt.size = vs.size) (hvu : vu.size = vs.size)
    (lT : ∀ j, j < S.size → U.get j = a * S.get j + b * T.get j)
    (lv : ∀ j, j < vs.size → vu.get j = a * vs.get j + b * vt.get j) :
    ∃ DS DT DU, degridPlane pl ob p S order vs = some DS ∧ degridPlane pl ob p T order vt = some DT ∧
      degridPlane pl ob p U order vu = some DU ∧
      ∀ i ∈ order, ∀ c, c < ob.numChan →
        visAt ob DU i c = a * visAt ob DS i c + b * visAt ob DT i c := by
  obtain ⟨DS, s1, _, s3, _⟩ := C40_degrid pl h.plan ob p m h.obs S hS order h.rows h.nodup h.fits vs
    hvs
  obtain ⟨DT, t1, _, t3, _⟩ := C40_degrid pl h.plan ob p m h.obs T (by omega) order h.rows h.nodup
    h.fits vt (by omega)
  obtain ⟨DU, u1, _, u3, _⟩ := C40_degrid pl h.plan ob p m h.obs U (by omega) order h.rows h.nodup
    h.fits vu (by omega)
  refine ⟨DS, DT, DU, s1, t1, u1, fun i hi c hc => ?_⟩
  rw [s3 i hi c hc, t3 i hi c hc, u3 i hi c hc]
  have e : visAt ob vu i c = a * visAt ob vs i c + b * visAt ob vt i c := by
    apply lv
    have := flat_lt (h.rows i hi) hc
    rw [hvs, Nat.mul_comm i]
    exact this
  have d : degridSum pl ob p (tower pl U) i c = a * degridSum pl ob p (tower pl S) i c +
      b * degridSum pl ob p (tower pl T) i c := by
    unfold degridSum
    by_cases hu : Used pl ob p i c
    · simp only [if_pos hu, mul_sum, ← sum_add_distrib]
      refine sum_congr rfl fun k hk => sum_congr rfl fun x hx => sum_congr rfl fun y hy => ?_
      have : tower pl U k x y = a * tower pl S k x y + b * tower pl T k x y := by
        apply lT
        have := tower_lt (mem_range.1 hk) (mem_range.1 hx) (mem_range.1 hy)
        rw [hS]
        calc (k * pl.n + x) * pl.n + y = pl.n * (pl.n * k + x) + y := by ring
          _ < _ := this
      rw [this]
      ring
    · simp only [if_neg hu, mul_zero, add_zero]
  rw [e, d]
  ring

/-- **C40, linearity of gridding** in the visibilities. -/
theorem C40_grid_linear (pl : Plan K R) (ob : Obs K) (p : Int) (m : Nat) (order : List Nat)
    (h : Call pl ob p m order) (a b : R) (S T U vs vt vu : Arr R)
    (hS : S.size = pl.wSupport * (pl.n * pl.n)) (hT : T.size = S.size) (hU : U.size = S.size)
    (hvs : vs.size = m * ob.numChan) (hvt : vt.size = vs.size) (hvu : vu.size = vs.size)
    (lT : ∀ j, j < S.size → U.get j = a * S.get j + b * T.get j)
    (lv : ∀ j, j < vs.size → vu.get j = a * vs.get j + b * vt.get j) :
    ∃ GS GT GU, gridPlane pl ob p vs order S = some GS ∧ gridPlane pl ob p vt order T = some GT ∧
      gridPlane pl ob p vu order U = some GU ∧
      ∀ k, k < pl.wSupport → ∀ x, x < pl.n → ∀ y, y < pl.n →
        tower pl GU k x y = a * tower pl GS k x y + b * tower pl GT k x y := by
  classical
  obtain ⟨GS, s1, _, s3⟩ := C40_grid pl h.plan ob p m h.obs S hS order h.rows h.fits vs hvs
  obtain ⟨GT, t1, _, t3⟩ := C40_grid pl h.plan ob p m h.obs T (by omega) order h.rows
    h.fits vt (by omega)
  obtain ⟨GU, u1, _, u3⟩ := C40_grid pl h.plan ob p m h.obs U (by omega) order h.rows
    h.fits vu (by omega)
  refine ⟨GS, GT, GU, s1, t1, u1, fun k hk x hx y hy => ?_⟩
  rw [s3 k hk x hx y hy, t3 k hk x hx y hy, u3 k hk x hx y hy]
  have e : tower pl U k x y = a * tower pl S k x y + b * tower pl T k x y := by
    apply lT
    have := tower_lt hk hx hy
    rw [hS]
    calc (k * pl.n + x) * pl.n + y = pl.n * (pl.n * k + x) + y := by ring
      _ < _ := this
  have d : gridSum pl ob p order (visAt ob vu) k x y =
      a * gridSum pl ob p order (visAt ob vs) k x y +
        b * gridSum pl ob p order (visAt ob vt) k x y := by
    unfold gridSum
    rw [← List.sum_map_mul_left, ← List.sum_map_mul_left, ← List.sum_map_add]
    congr 1
    apply List.map_congr_left
    intro i hi
    rw [mul_sum, mul_sum, ← sum_add_distrib]
    refine sum_congr rfl fun c hc => ?_
    by_cases hu : Used pl ob p i c
    · simp only [if_pos hu]
      have : visAt ob vu i c = a * visAt ob vs i c + b * visAt ob vt i c := by
        apply lv
        have := flat_lt (h.rows i hi) (mem_range.1 hc)
        rw [hvs, Nat.mul_comm i]
        exact this
      rw [this]
      ring
    · simp only [if_neg hu, mul_zero, add_zero]
  rw [e, d]
  ring

/-- **C40, order.**  Gridding the rows in another order gives the same tower. -/
theorem C40_grid_order (pl : Plan K R) (ob : Obs K) (p : Int) (m : Nat) (order order' : List Nat)
    (h : Call pl ob p m order) (hp : order.Perm order') (T v : Arr R)
    (hT : T.size = pl.wSupport * (pl.n * pl.n)) (hv : v.size = m * ob.numChan) :
    ∃ G G', gridPlane pl ob p v order T = some G ∧ gridPlane pl ob p v order' T = some G' ∧
      ∀ k, k < pl.wSupport → ∀ x, x < pl.n → ∀ y, y < pl.n →
        tower pl G k x y = tower pl G' k x y := by
  obtain ⟨G, g1, _, g3⟩ := C40_grid pl h.plan ob p m h.obs T hT order h.rows h.fits v hv
  obtain ⟨G', g1', _, g3'⟩ := C40_grid pl h.plan ob p m h.obs T hT order'
    (fun i hi => h.rows i (hp.mem_iff.2 hi)) (fun i hi => h.fits i (hp.mem_iff.2 hi)) v hv
  refine ⟨G, G', g1, g1', fun k hk x hx y hy => ?_⟩
  rw [g3 k hk x hx y hy, g3' k hk x hx y hy]
  congr 1
  unfold gridSum
  exact (hp.map _).sum_eq

/-- **C40, splitting.**  Gridding rows in two calls, in particular one row at a time, is the
same as gridding them in one. -/
theorem C40_grid_split (pl : Plan K R) (ob : Obs K) (p : Int) (a b : List Nat) (v T : Arr R) :
    gridPlane pl ob p v (a ++ b) T =
      (gridPlane pl ob p v a T).bind fun T' => gridPlane pl ob p v b T' :=
  loop_append _ _ _ _

/-! ## Rounding -/

theorem rnd_le {x : K} {z : Int} (h : x ≤ z) : rnd x ≤ z := by
  unfold rnd
  by_cases h0 : 0 ≤ x
  · rw [if_pos h0]
    have : ⌊x + 1 / 2⌋ < z + 1 := by
      rw [Int.floor_lt]; push_cast; linarith
    omega
  · rw [if_neg h0, Int.ceil_le]; linarith

theorem le_rnd {x : K} {z : Int} (h : (z : K) ≤ x) : z ≤ rnd x := by
  unfold rnd
  by_cases h0 : 0 ≤ x
  · rw [if_pos h0, Int.le_floor]; linarith
  · rw [if_neg h0]
    have : z - 1 < ⌈x - 1 / 2⌉ := by
      rw [Int.lt_ceil]; push_cast; linarith
    omega

theorem rnd_nonneg_of {x : K} (h : -(1 / 2) < x) : 0 ≤ rnd x := by
  unfold rnd
  by_cases h0 : 0 ≤ x
  · rw [if_pos h0, Int.le_floor]; push_cast; linarith
  · rw [if_neg h0]
    have : -1 < ⌈x - 1 / 2⌉ := by
      rw [Int.lt_ceil]; push_cast; linarith
    omega

theorem rnd_close (x : K) : |(rnd x : K) - x| ≤ 1 / 2 := by
  unfold rnd
  rw [abs_le]
  by_cases h0 : 0 ≤ x
  · rw [if_pos h0]
    have a := Int.floor_le (x + 1 / 2)
    have b := Int.lt_floor_add_one (x + 1 / 2)
    constructor <;> linarith
  · rw [if_neg h0]
    have a := Int.le_ceil (x - 1 / 2)
    have b := Int.ceil_lt_add_one (x - 1 / 2)
    constructor <;> linarith

/-! ## C41 -/

/-- **C41 (partial), footprint.**  A coordinate at least half a kernel (and one sample) away
from the subgrid edge has its whole footprint in the subgrid. -/
theorem C41_margin_partial (pl : Plan K R) (hov : 0 < pl.ov) (u : K)
    (lo : -(((pl.n / 2 : Nat) : K) - ((pl.support / 2 : Nat) : K) + 1) ≤ pl.theta * u)
    (hi : pl.theta * u ≤ (pl.n : K) - ((pl.n / 2 : Nat) : K) -
      ((pl.support : K) - ((pl.support / 2 : Nat) : K)) - 1 / (pl.ov : K)) :
    InGrid pl u := by
  have hov' : (0 : K) < pl.ov := by exact_mod_cast hov
  unfold InGrid pos
  generalize pl.n / 2 = h at *
  generalize pl.support / 2 = hs at *
  have e : pl.theta * (pl.ov : K) * u = pl.theta * u * pl.ov := by ring
  rw [e]
  constructor
  · have : -(((h : Int) - (hs : Int) + 1) * pl.ov) ≤ rnd (pl.theta * u * pl.ov) := by
      apply le_rnd
      push_cast
      nlinarith
    omega
  · have : rnd (pl.theta * u * pl.ov) ≤
        ((pl.n : Int) - h - ((pl.support : Int) - hs)) * pl.ov - 1 := by
      apply rnd_le
      push_cast
      have := mul_le_mul_of_nonneg_right hi hov'.le
      have e2 : 1 / (pl.ov : K) * pl.ov = 1 := by field_simp
      nlinarith
    have e3 : ((pl.n : Int) - pl.support + 1) * pl.ov =
      ((pl.n : Int) - h - ((pl.support : Int) - hs)) * pl.ov + ((h : Int) - hs + 1) * pl.ov := by ring
    omega

/-- **C41 (partial), subgrid boxes.**  Visibilities in a box of `d` pixels centred on an even
subgrid, `d ≤ n - support - 2` (`support` rounded up to an even number), have their footprint in the subgrid. -/
theorem C41_box_partial (pl : Plan K R) (hov : 0 < pl.ov) (hn : pl.n % 2 = 0) (d : Nat)
    (hd : d + 2 * ((pl.support + 1) / 2) + 2 ≤ pl.n) (u : K) (hu : |pl.theta * u| ≤ (d : K) / 2) :
    InGrid pl u := by
  obtain ⟨lo, hi⟩ := abs_le.1 hu
  have o1 : 1 / (pl.ov : K) ≤ 1 := by
    rw [div_le_one (by exact_mod_cast hov)]; exact_mod_cast hov
  have h1 : (pl.n : K) = 2 * ((pl.n / 2 : Nat) : K) := by
    have : pl.n = 2 * (pl.n / 2) := by omega
    exact_mod_cast this
  have h2 : (pl.support : K) - ((pl.support / 2 : Nat) : K) = (((pl.support + 1) / 2 : Nat) : K) := by
    have : pl.support = pl.support / 2 + (pl.support + 1) / 2 := by omega
    rw [sub_eq_iff_eq_add']
    exact_mod_cast this
  have h3 : 2 * ((pl.support / 2 : Nat) : K) ≤ pl.support := by
    have : 2 * (pl.support / 2) ≤ pl.support := by omega
    exact_mod_cast this
  have h4 : (d : K) + 2 * (((pl.support + 1) / 2 : Nat) : K) + 2 ≤ pl.n := by exact_mod_cast hd
  apply C41_margin_partial pl hov
  · linarith
  · linarith

/-- **C41 (partial), w.**  A visibility on the plane never selects a negative w kernel row, if
channel number and w oversampling are of reasonable size. -/
theorem C41_w_partial (pl : Plan K R) (hw : 0 < pl.wStep) (ob : Obs K) (p : Int) (i : Nat)
    (c : Int) (h0 : 0 ≤ c) (hc : c * (2 * pl.wOv) < 2147483645) (h : OnPlane pl ob p i c) :
    0 ≤ rnd (wAt pl ob p i c / pl.wStep * pl.wOv) := by
  apply rnd_nonneg_of
  obtain ⟨_, _, hs⟩ := h
  unfold Sel coord at hs
  have hov : (0 : K) ≤ pl.wOv := Nat.cast_nonneg _
  have pos_case : 0 ≤ wAt pl ob p i c → -(1 / 2) < wAt pl ob p i c / pl.wStep * pl.wOv := by
    intro hh
    have : 0 ≤ wAt pl ob p i c / pl.wStep * pl.wOv :=
      mul_nonneg (div_nonneg hh hw.le) hov
    linarith
  have e : wAt pl ob p i c = ob.f0 * ob.uvw.get (3 * i + 2) / ob.c0 +
      ob.df * ob.uvw.get (3 * i + 2) / ob.c0 * c - (p + ob.offW - 1) * pl.wStep := by
    unfold wAt invLambda
    ring
  generalize ob.f0 * ob.uvw.get (3 * i + 2) / ob.c0 = w0 at *
  generalize ob.df * ob.uvw.get (3 * i + 2) / ob.c0 = dw at *
  rcases hs with ⟨_, _, a, _⟩ | ⟨_, _, a, _⟩ | ⟨hr, a, b⟩
  · apply pos_case; rw [e]; linarith
  · apply pos_case; rw [e]; linarith
  · -- the step is too small to leave the plane by half a sample
    have hd : |dw| * 2147483645 ≤ pl.wStep := by
      unfold resolved at hr
      have x1 : |((p : K) + ob.offW - 1) * pl.wStep - w0| ≤ pl.wStep := by
        rw [abs_le]
        constructor <;> nlinarith
      have x2 : |((p : K) + ob.offW) * pl.wStep - w0| ≤ pl.wStep := by
        rw [abs_le]
        constructor <;> nlinarith
      by_contra hcon
      push Not at hcon
      exact hr ⟨by linarith, by linarith⟩
    have hck : (c : K) * (2 * pl.wOv) < 2147483645 := by exact_mod_cast hc
    have hc0 : (0 : K) ≤ c := by exact_mod_cast h0
    have h2 : -|dw| ≤ dw := neg_abs_le dw
    have h3 : -(pl.wStep * c) ≤ wAt pl ob p i c * 2147483645 := by
      rw [e]
      nlinarith [mul_nonneg hc0 (sub_nonneg.2 hd), mul_nonneg hc0 (by linarith : 0 ≤ dw + |dw|)]
    have h4 : -(c : K) ≤ wAt pl ob p i c / pl.wStep * 2147483645 := by
      have := div_le_div_of_nonneg_right h3 hw.le
      have e1 : -(pl.wStep * (c : K)) / pl.wStep = -c := by field_simp
      rw [e1] at this
      linarith [show wAt pl ob p i c * 2147483645 / pl.wStep =
        wAt pl ob p i c / pl.wStep * 2147483645 by ring]
    generalize wAt pl ob p i c / pl.wStep = q at *
    by_contra hcon
    push Not at hcon
    nlinarith [mul_le_mul_of_nonneg_right h4 hov]

/-- **C41 (partial).**  No memory fault and the results of C40, if all visibilities on the
plane are in boxes of `d ≤ n - support - 2` pixels (`support` rounded up to an even number). -/
theorem C41_no_fault_partial (pl : Plan K R) (hm : pl.Made) (hn : pl.n % 2 = 0)
    (hw : 0 < pl.wStep) (ob : Obs K) (p : Int) (m : Nat) (ho : ob.Made m) (order : List Nat)
    (hord : ∀ i ∈ order, i < m) (hnd : order.Nodup) (d : Nat) (hd : d + 2 * ((pl.support + 1) / 2) + 2 ≤ pl.n)
    (hch : (ob.numChan : Int) * (2 * pl.wOv) < 2147483645)
    (hbox : ∀ i ∈ order, ∀ c, Used pl ob p i c →
      |pl.theta * uAt pl ob i c| ≤ (d : K) / 2 ∧ |pl.theta * vAt pl ob i c| ≤ (d : K) / 2)
    (T v : Arr R) (hT : T.size = pl.wSupport * (pl.n * pl.n)) (hv : v.size = m * ob.numChan) :
    Call pl ob p m order ∧ degridPlane pl ob p T order v ≠ none ∧
      gridPlane pl ob p v order T ≠ none := by
  have hf : ∀ i ∈ order, ∀ c, Used pl ob p i c → Fits pl ob p i c := by
    intro i hi c hu
    obtain ⟨b1, b2⟩ := hbox i hi c hu
    have hr := used_range pl ob p m ho i (hord i hi) c hu
    refine ⟨C41_box_partial pl hm.ov hn d hd _ b1, C41_box_partial pl hm.ov hn d hd _ b2,
      C41_w_partial pl hw ob p i c hr.1 ?_ hu.1⟩
    have hw2 : (0 : Int) ≤ 2 * pl.wOv := by omega
    nlinarith [mul_le_mul_of_nonneg_right hr.2.le hw2]
  refine ⟨⟨hm, ho, hord, hnd, hf⟩, ?_, ?_⟩
  · obtain ⟨r, h1, _⟩ := C40_degrid pl hm ob p m ho T hT order hord hnd hf v hv
    rw [h1]; simp
  · obtain ⟨r, h1, _⟩ := C40_grid pl hm ob p m ho T hT order hord hf v hv
    rw [h1]; simp

end Sdp.WTower
