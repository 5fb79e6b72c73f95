import Verif.Wstack.AllSpec
import Verif.Wstack.Events

/-!
# C89: where each visibility is (de)gridded
-/

namespace Sdp.Wstack

open Sdp.Clamp Sdp.GridUtil Sdp.Fft Sdp.WTower Sdp.GridCorrect Finset

noncomputable section

theorem Setup.Ok.cfgOk {su : Setup} (h : su.Ok) : su.cfg.Ok where
  c0 := h.c0
  df := h.df.le
  uvw := h.uvw
  dUv := div_pos (by exact_mod_cast h.eff) h.theta
  dW := mul_pos h.height h.wStep
  rows := h.rows
  chan := h.chan
  guardU := h.guardU
  guardV := h.guardV
  guardW := h.guardW

/-- Whatever box selects a channel, the coordinate is within half a box of its centre. -/
theorem sel_near {u0 du d : ℝ} (hd : 0 < d) {N : Nat} (hg : GuardOk u0 du d N) (ch : Int)
    (h0 : 0 ≤ ch) (h1 : ch < N) (k : Int) (hs : Sel u0 du (boxLo d k) (boxHi d k) ch) :
    |coord u0 du ch - k * d| ≤ d / 2 := by
  obtain ⟨i, _, hu, hk⟩ := axis_unique hd hg ch h0 h1
  obtain rfl := hu k hs
  rw [abs_le]
  rcases hk with hk | hk
  · obtain ⟨a, b⟩ := (box_floor hd _ _).2 hk
    unfold boxLo at a
    unfold boxHi at b
    push_cast at b
    constructor <;> linarith
  · obtain ⟨a, b⟩ := (box_ceil hd _ _).2 hk
    unfold boxLo at a
    unfold boxHi at b
    push_cast at b
    constructor <;> linarith

theorem coord_at (su : Setup) (j i c : Nat) :
    coord (base su.cfg i j) (step su.cfg i j) (c : Int) = su.at j i c := by
  unfold coord base step Setup.at Setup.cfg
  push_cast
  ring

/-- The selection of tower plane `p` of w-plane `k` for channel `c` of row `i`. -/
def OnTower (su : Setup) (k p : Int) (i : Nat) (c : Int) : Prop :=
  Sel (su.f0 * su.uvw.get (3 * i + 2) / su.c0) (su.df * su.uvw.get (3 * i + 2) / su.c0)
    (((p : ℝ) + su.offW k - 1) * su.pl.wStep) (((p : ℝ) + su.offW k) * su.pl.wStep) c

theorem onPlane_task (su : Setup) (k : Int) (e : Event) (p : Int) (i : Nat) (c : Int) :
    OnPlane su.pl (taskObs su k e) p i c ↔
      e.2.1.get i ≤ c ∧ c < e.2.2.get i ∧ OnTower su k p i c := Iff.rfl

/-- One plane of the tower for each visibility. -/
theorem onTower_unique {su : Setup} (h : su.Ok) (k : Int) (i c : Nat) (hi : i < su.numRows)
    (hc : c < su.numChan) :
    ∃ p : Int, OnTower su k p i c ∧ (∀ p', OnTower su k p' i c → p' = p) ∧
      ((p : ℝ) + su.offW k - 1) * su.pl.wStep ≤ su.at 2 i c ∧
      su.at 2 i c ≤ ((p : ℝ) + su.offW k) * su.pl.wStep := by
  obtain ⟨W, hW, hT⟩ := h.tower
  have w1 := hW i hi c hc
  have w0 := hW i hi 0 (by omega)
  have hs := h.wStep
  have e0 : su.at 2 i 0 = su.f0 * su.uvw.get (3 * i + 2) / su.c0 := by
    unfold Setup.at; push_cast; ring
  have e1 : su.at 2 i c = coord (su.f0 * su.uvw.get (3 * i + 2) / su.c0)
      (su.df * su.uvw.get (3 * i + 2) / su.c0) (c : Int) := by
    unfold Setup.at coord; push_cast; ring
  rw [e0] at w0
  rw [e1] at w1 ⊢
  have hT := hT i hi
  unfold OnTower Sel
  have hflat : su.uvw.get (3 * i + 2) = 0 → su.f0 * su.uvw.get (3 * i + 2) / su.c0 = 0 ∧
      su.df * su.uvw.get (3 * i + 2) / su.c0 = 0 := by
    intro hz; rw [hz]; simp
  have hne : su.uvw.get (3 * i + 2) ≠ 0 → su.df * su.uvw.get (3 * i + 2) / su.c0 ≠ 0 := by
    intro hz
    exact div_ne_zero (mul_ne_zero h.df.ne' hz) h.c0.ne'
  generalize su.f0 * su.uvw.get (3 * i + 2) / su.c0 = u0 at *
  generalize su.df * su.uvw.get (3 * i + 2) / su.c0 = du at *
  generalize su.pl.wStep = s at *
  generalize su.offW k = o at *
  -- planes shifted by the offset
  by_cases hz : su.uvw.get (3 * i + 2) = 0
  · obtain ⟨rfl, rfl⟩ := hflat hz
    have hr : ∀ lo hi : ℝ, ¬ resolved 0 0 lo hi := by
      intro lo hi hr
      exact resolved_ne hr rfl
    have hx : coord (0 : ℝ) 0 (c : Int) = 0 := by unfold coord; simp
    refine ⟨1 - o, ?_, ?_, ?_, ?_⟩
    · right; right
      refine ⟨hr _ _, ?_, ?_⟩ <;> push_cast
      · have : (1 - (o : ℝ) + o - 1) * s = 0 := by ring
        rw [this]
      · have : (1 - (o : ℝ) + o) * s = s := by ring
        rw [this]; exact hs
    · intro p' hp'
      rcases hp' with ⟨q, _⟩ | ⟨q, _⟩ | ⟨_, q1, q2⟩
      · exact absurd q (hr _ _)
      · exact absurd q (hr _ _)
      · have a1 : (p' : ℝ) + o - 1 ≤ 0 := by
          by_contra hcon
          push Not at hcon
          have := mul_pos hcon hs
          linarith
        have a2 : 0 < (p' : ℝ) + o := pos_of_mul_pos_left q2 hs.le
        have b1 : p' + o - 1 ≤ 0 := by exact_mod_cast a1
        have b2 : 0 < p' + o := by exact_mod_cast a2
        omega
    · rw [hx]; push_cast
      have : (1 - (o : ℝ) + o - 1) * s = 0 := by ring
      rw [this]
    · rw [hx]; push_cast
      have : (1 - (o : ℝ) + o) * s = s := by ring
      rw [this]; exact hs.le
  · have hdu := hne hz
    have hG : 2 * W + 4 * s < 2147483645 * |du| := hT.resolve_left hz
    have hres : ∀ p : Int, ((p : ℝ) + o - 1) * s ≤ coord u0 du (c : Int) →
        coord u0 du (c : Int) ≤ ((p : ℝ) + o) * s →
        resolved u0 du (((p : ℝ) + o - 1) * s) (((p : ℝ) + o) * s) := by
      intro p a b
      unfold resolved
      generalize 2147483645 * |du| = G at hG
      rw [abs_le] at w1 w0
      constructor <;> rw [abs_lt] <;> constructor <;> nlinarith
    have hres0 : ∀ p : Int, ((p : ℝ) + o - 1) * s ≤ u0 → u0 < ((p : ℝ) + o) * s →
        resolved u0 du (((p : ℝ) + o - 1) * s) (((p : ℝ) + o) * s) := by
      intro p a b
      unfold resolved
      have hW0 : 0 ≤ W := le_trans (abs_nonneg _) w0
      generalize 2147483645 * |du| = G at hG
      constructor <;> rw [abs_lt] <;> constructor <;> nlinarith
    generalize coord u0 du (c : Int) = x at *
    rcases lt_or_gt_of_ne hdu with hneg | hpos
    · have a1 := Int.ceil_lt_add_one (x / s)
      rw [← sub_lt_iff_lt_add, lt_div_iff₀ hs] at a1
      have a2 := Int.le_ceil (x / s)
      rw [div_le_iff₀ hs] at a2
      have c1 : (((⌈x / s⌉ - o : Int) : ℝ) + o - 1) * s < x := by
        push_cast; linarith
      have c2 : x ≤ (((⌈x / s⌉ - o : Int) : ℝ) + o) * s := by
        push_cast; linarith
      refine ⟨⌈x / s⌉ - o, Or.inr (Or.inl ⟨hres _ c1.le c2, hneg, c1, c2⟩), ?_, c1.le, c2⟩
      intro p' hp'
      rcases hp' with ⟨_, q, _⟩ | ⟨_, _, q1, q2⟩ | ⟨q, q1, q2⟩
      · linarith
      · have : ⌈x / s⌉ = p' + o := by
          rw [Int.ceil_eq_iff, lt_div_iff₀ hs, div_le_iff₀ hs]
          push_cast
          exact ⟨q1, q2⟩
        omega
      · exact absurd (hres0 p' q1 q2) q
    · have a1 := Int.floor_le (x / s)
      rw [le_div_iff₀ hs] at a1
      have a2 := Int.lt_floor_add_one (x / s)
      rw [div_lt_iff₀ hs] at a2
      have c1 : (((⌊x / s⌋ + 1 - o : Int) : ℝ) + o - 1) * s ≤ x := by
        push_cast; linarith
      have c2 : x < (((⌊x / s⌋ + 1 - o : Int) : ℝ) + o) * s := by
        push_cast; linarith
      refine ⟨⌊x / s⌋ + 1 - o, Or.inl ⟨hres _ c1 c2.le, hpos, c1, c2⟩, ?_, c1, c2.le⟩
      intro p' hp'
      rcases hp' with ⟨_, _, q1, q2⟩ | ⟨_, q, _⟩ | ⟨q, q1, q2⟩
      · have : ⌊x / s⌋ = p' + o - 1 := by
          rw [Int.floor_eq_iff, le_div_iff₀ hs, div_lt_iff₀ hs]
          push_cast
          refine ⟨q1, ?_⟩
          linarith
        omega
      · linarith
      · exact absurd (hres0 p' q1 q2) q

/-- The place of each visibility, unique along every axis. -/
theorem spot_exists {su : Setup} (h : su.Ok) (i c : Nat) (hi : i < su.numRows)
    (hc : c < su.numChan) :
    ∃ q : Spot, Near su i c q ∧
      (∀ k : Int, inBox su.cfg su.cfg.dW i 2 k c ↔ k = q.k) ∧
      (∀ k : Int, inBox su.cfg su.cfg.dUv i 0 k c ↔ k = q.a) ∧
      (∀ k : Int, inBox su.cfg su.cfg.dUv i 1 k c ↔ k = q.b) ∧
      (∀ p : Int, OnTower su q.k p i c ↔ p = q.p) := by
  have ok := h.cfgOk
  have hc0 : (0 : Int) ≤ (c : Int) := by omega
  have hc1 : (c : Int) < su.numChan := by omega
  obtain ⟨k, k1, k2, _⟩ := axis_unique ok.dW (h.guardW i hi) (c : Int) hc0 hc1
  obtain ⟨a, a1, a2, _⟩ := axis_unique ok.dUv (h.guardU i hi) (c : Int) hc0 hc1
  obtain ⟨b, b1, b2, _⟩ := axis_unique ok.dUv (h.guardV i hi) (c : Int) hc0 hc1
  obtain ⟨p, p1, p2, p3, p4⟩ := onTower_unique h k i c hi hc
  have kn := sel_near ok.dW (h.guardW i hi) (c : Int) hc0 hc1 k k1
  have an := sel_near ok.dUv (h.guardU i hi) (c : Int) hc0 hc1 a a1
  have bn := sel_near ok.dUv (h.guardV i hi) (c : Int) hc0 hc1 b b1
  rw [coord_at] at kn an bn
  exact ⟨⟨k, a, b, p⟩, ⟨kn, an, bn, p3, p4⟩, fun k' => ⟨k2 k', fun e => by rw [e]; exact k1⟩,
    fun k' => ⟨a2 k', fun e => by rw [e]; exact a1⟩,
    fun k' => ⟨b2 k', fun e => by rw [e]; exact b1⟩,
    fun p' => ⟨p2 p', fun e => by rw [e]; exact p1⟩⟩

/-! ## Kernel calls -/

/-- A visibility in the box of a task, seen from the centre of its sub-grid. -/
theorem box_theta {su : Setup} (h : su.Ok) (j i : Nat) (hi : i < su.numRows) (hj : j = 0 ∨ j = 1)
    (ch : Int) (h0 : 0 ≤ ch) (h1 : ch < su.numChan) (a : Int)
    (hb : inBox su.cfg su.cfg.dUv i j a ch) :
    |su.pl.theta * ((su.f0 + su.df * ch) / su.c0 * su.uvw.get (3 * i + j) -
      ((a * su.eff : Int) : ℝ) / su.pl.theta)| ≤ (su.eff : ℝ) / 2 := by
  have ok := h.cfgOk
  have hg : GuardOk (base su.cfg i j) (step su.cfg i j) su.cfg.dUv su.numChan := by
    rcases hj with rfl | rfl
    · exact h.guardU i hi
    · exact h.guardV i hi
  have n := sel_near ok.dUv hg ch h0 h1 a hb
  have e : coord (base su.cfg i j) (step su.cfg i j) ch =
      (su.f0 + su.df * ch) / su.c0 * su.uvw.get (3 * i + j) := by
    unfold coord base step Setup.cfg; ring
  rw [e] at n
  have e2 : su.cfg.dUv = (su.eff : ℝ) / su.pl.theta := rfl
  rw [e2] at n
  have e3 : ((a * su.eff : Int) : ℝ) / su.pl.theta = a * ((su.eff : ℝ) / su.pl.theta) := by
    push_cast; ring
  rw [e3, abs_mul, abs_of_pos h.theta]
  have := mul_le_mul_of_nonneg_left n h.theta.le
  have e4 : su.pl.theta * ((su.eff : ℝ) / su.pl.theta / 2) = (su.eff : ℝ) / 2 := by
    have := h.theta.ne'
    field_simp
  linarith

theorem edge_ok {su : Setup} (h : su.Ok) (a b : ℝ) (ha : |su.pl.theta * a| ≤ (su.eff : ℝ) / 2)
    (hb : |su.pl.theta * b| ≤ (su.eff : ℝ) / 2) : EdgeOk su.pl a b := by
  have hm := h.margin
  have hev := h.env.even
  have hn : su.pl.n = 2 * (su.pl.n / 2) := by omega
  have hr : (su.eff : ℝ) ≤ 2 * ((su.pl.n / 2 : Nat) : ℝ) - 2 := by
    have : su.eff ≤ 2 * ((su.pl.n / 2 : Nat) : Int) - 2 := by omega
    exact_mod_cast this
  rw [abs_le] at ha hb
  unfold EdgeOk
  generalize su.pl.n / 2 = hf at hr
  constructor
  · rw [Int.le_floor]
    push_cast at hr ⊢
    linarith [ha.1]
  · have : ⌈su.pl.theta * b⌉ ≤ (hf : Int) - 1 := by
      rw [Int.ceil_le]
      push_cast at hr ⊢
      linarith [hb.2]
    omega

/-- In a good call everything on a plane is used. -/
theorem used_iff {su : Setup} (h : su.Ok) (k : Int) (e : Event) (g : GoodCall su.cfg k e) (p : Int)
    (i : Nat) (h1 : e.1.rowStart ≤ i) (h2 : (i : Int) < e.1.rowEnd) (c : Int) :
    Used su.pl (taskObs su k e) p i c ↔ OnPlane su.pl (taskObs su k e) p i c := by
  refine ⟨fun hu => hu.1, fun ho => ⟨ho, ?_⟩⟩
  have hi : i < su.numRows := by
    have := g.stop
    have e2 : su.cfg.numRows = su.numRows := rfl
    rw [e2] at this
    omega
  obtain ⟨a, a1, a2⟩ := Int.exists_least_of_bdd (P := fun d => OnPlane su.pl (taskObs su k e) p i d)
    ⟨e.2.1.get i, fun z hz => hz.1⟩ ⟨c, ho⟩
  obtain ⟨b, b1, b2⟩ := Int.exists_greatest_of_bdd
    (P := fun d => OnPlane su.pl (taskObs su k e) p i d)
    ⟨e.2.2.get i, fun z hz => hz.2.1.le⟩ ⟨c, ho⟩
  obtain ⟨⟨ga1, ga2⟩, _, ga3, ga4⟩ := g.box i h1 h2 a a1.1 a1.2.1
  obtain ⟨⟨gb1, gb2⟩, _, gb3, gb4⟩ := g.box i h1 h2 b b1.1 b1.2.1
  refine ⟨a, b, a1, b1, fun d hd => ⟨a2 d hd, b2 d hd⟩, ?_, ?_⟩
  · exact edge_ok h _ _ (box_theta h 0 i hi (Or.inl rfl) a ga1 ga2 _ ga3)
      (box_theta h 0 i hi (Or.inl rfl) b gb1 gb2 _ gb3)
  · exact edge_ok h _ _ (box_theta h 1 i hi (Or.inr rfl) a ga1 ga2 _ ga4)
      (box_theta h 1 i hi (Or.inr rfl) b gb1 gb2 _ gb4)

/-- What a kernel call needs, and which planes it visits. -/
structure CallOk (su : Setup) (k : Int) (e : Event) (b : MinMax ℝ × MinMax ℝ × MinMax ℝ)
    (fl : Int × Int) : Prop where
  planes : WTower.Planes su.pl (taskObs su k e) su.numRows b fl
  le : fl.1 ≤ fl.2
  call : ∀ p, Call su.pl (taskObs su k e) p su.numRows
    (rowList su.numRows e.1.rowStart e.1.rowEnd)
  cover : ∀ i c : Nat, InCall e i c → ∀ p, OnTower su k p i c → fl.1 ≤ p ∧ p ≤ fl.2

theorem mem_rows (su : Setup) (k : Int) (e : Event) (g : GoodCall su.cfg k e) (i : Nat) :
    i ∈ rowList su.numRows e.1.rowStart e.1.rowEnd ↔ e.1.rowStart ≤ i ∧ (i : Int) < e.1.rowEnd := by
  rw [(C42_rows _ _ _).2]
  have := g.start
  obtain ⟨j, _, hj, _⟩ := g.some_vis
  omega

theorem obs_made (su : Setup) (h : su.Ok) (k : Int) (e : Event) (hv : Valid su.cfg e.2) :
    (taskObs su k e).Made su.numRows where
  uvw := by
    show su.uvw.size = _
    rw [h.uvw, Nat.mul_comm]
  s := hv.1.1
  e := hv.1.2
  lo := fun i hi hlt => (hv.2 i hi hlt).1
  hi := fun i hi hlt => (hv.2 i hi hlt).2

theorem call_ok {su : Setup} (h : su.Ok) (k : Int) (e : Event) (g : GoodCall su.cfg k e) :
    ∃ b fl, CallOk su k e b fl := by
  have hm := obs_made su h k e g.valid
  obtain ⟨b, e1, _, _, ex, _⟩ := C39_bounds_partial su.c0 su.f0 su.df h.c0 h.df.le su.uvw su.numRows
    e.2.1 e.2.2 (by rw [h.uvw]) (by rw [g.valid.1.1]; exact le_rfl)
    (by rw [g.valid.1.2]; exact le_rfl)
  obtain ⟨i0, c0, hrow, hch⟩ := g.some_vis
  have hi0 : i0 < su.numRows := by
    have h1 := g.stop
    have h2 : su.cfg.numRows = su.numRows := rfl
    omega
  have hmem : GridUtil.coords su.c0 su.f0 su.df su.uvw e.2.1 e.2.2 2 (List.range su.numRows)
      (visCoord su.c0 su.f0 su.df (su.uvw.get (3 * i0 + 2)) (c0 : Int)) :=
    ⟨i0, List.mem_range.2 hi0, c0, hch.1, hch.2, rfl⟩
  have lo := ex.lower _ hmem
  have up := ex.upper _ hmem
  have hfl : ∃ fl, planeRange su.pl.wStep (su.offW k) b.2.2 = some fl := by
    rcases hb : b.2.2 with ⟨mn, mx⟩
    rw [hb] at lo up
    cases mn with
    | top => exact absurd lo (by simp)
    | coe lo =>
      cases mx with
      | bot => exact absurd up (by simp)
      | coe hi => exact ⟨_, rfl⟩
  obtain ⟨fl, hfl⟩ := hfl
  have hpl : WTower.Planes su.pl (taskObs su k e) su.numRows b fl := ⟨e1, hfl⟩
  have hcov : ∀ i c : Nat, InCall e i c → ∀ p, OnTower su k p i c → fl.1 ≤ p ∧ p ≤ fl.2 := by
    intro i c hic p hp
    have hi : i < su.numRows := by
      have h1 := g.stop
      have h2 : su.cfg.numRows = su.numRows := rfl
      have := hic.1
      omega
    have hc : c < su.numChan := by
      have h3 := g.valid.2 i hi (by have := hic.2; omega)
      have h2 : su.cfg.numChan = su.numChan := rfl
      have := hic.2
      omega
    obtain ⟨q1, q2⟩ := planes_cover su.pl h.wStep (taskObs su k e) h.c0 h.df.le su.numRows hm b fl hpl i hi
      (c : Int) hic.2.1 hic.2.2
    obtain ⟨p0, o1, o2, o3, o4⟩ := onTower_unique h k i c hi hc
    obtain rfl := o2 p hp
    have ew : wAbs (taskObs su k e) i (c : Int) = su.at 2 i c := by
      unfold wAbs invLambda Setup.at taskObs
      push_cast
      ring
    have eo : (taskObs su k e).offW = su.offW k := rfl
    rw [ew, eo] at q1 q2
    have r1 := lt_of_mul_lt_mul_right (lt_of_lt_of_le q1 o4) h.wStep.le
    have r2 := lt_of_mul_lt_mul_right (lt_of_le_of_lt o3 q2) h.wStep.le
    have s1 : fl.1 < p := by
      have : (fl.1 : ℝ) < p := by linarith
      exact_mod_cast this
    have s2 : p < fl.2 := by
      have : (p : ℝ) < fl.2 := by linarith
      exact_mod_cast this
    omega
  refine ⟨b, fl, hpl, ?_, ?_, hcov⟩
  · have hc0' : c0 < su.numChan := by
      have h3 := g.valid.2 i0 hi0 (by omega)
      have h2 : su.cfg.numChan = su.numChan := rfl
      omega
    obtain ⟨p, hp, _⟩ := onTower_unique h k i0 c0 hi0 hc0'
    have := hcov i0 c0 ⟨hrow, hch⟩ p hp
    omega
  · intro p
    have hd : su.eff.toNat + 2 * ((su.pl.support + 1) / 2) + 2 ≤ su.pl.n := by
      have := h.margin
      have := h.eff
      omega
    have hde : ((su.eff.toNat : Nat) : ℝ) = (su.eff : ℝ) := by
      have : ((su.eff.toNat : Nat) : Int) = su.eff := Int.toNat_of_nonneg h.eff.le
      exact_mod_cast this
    refine (C41_no_fault_partial su.pl h.plan h.env.even h.wStep (taskObs su k e) p su.numRows hm
      (rowList su.numRows e.1.rowStart e.1.rowEnd) ?_ (C42_rows _ _ _).1 su.eff.toNat hd h.chans ?_
      ⟨su.pl.wSupport * (su.pl.n * su.pl.n), fun _ => 0⟩ ⟨su.numRows * su.numChan, fun _ => 0⟩
      rfl rfl).1
    · intro i hi
      rw [mem_rows su k e g] at hi
      have h1 := g.stop
      have h2 : su.cfg.numRows = su.numRows := rfl
      omega
    · intro i hi c hu
      rw [mem_rows su k e g] at hi
      have hi' : i < su.numRows := by
        have h1 := g.stop
        have h2 : su.cfg.numRows = su.numRows := rfl
        omega
      obtain ⟨⟨g1, g2⟩, _, g3, g4⟩ := g.box i hi.1 hi.2 c hu.1.1 hu.1.2.1
      rw [hde]
      exact ⟨box_theta h 0 i hi' (Or.inl rfl) c g1 g2 _ g3,
        box_theta h 1 i hi' (Or.inr rfl) c g1 g2 _ g4⟩

end
end Sdp.Wstack
