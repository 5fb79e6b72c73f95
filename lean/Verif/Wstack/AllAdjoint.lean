import Verif.Wstack.All

/-!
# C89: the two whole calls are adjoint; linearity; an example
-/

namespace Sdp.Wstack

open Sdp.Clamp Sdp.GridUtil Sdp.Fft Sdp.WTower Sdp.GridCorrect Finset

noncomputable section

/-- The centred forward transform is the adjoint of the centred inverse transform. -/
theorem centred_adjoint' (n : Nat) (f g : Nat → Nat → ℂ) :
    ∑ x ∈ range n, ∑ y ∈ range n, star (centred true n n f x y) * g x y =
      ∑ a ∈ range n, ∑ b ∈ range n, star (f a b) * centred false n n g a b := by
  have e := congrArg star (centred_adjoint n g f)
  simp only [star_sum, star_mul', star_star] at e
  rw [sum_congr rfl fun x _ => sum_congr rfl fun y _ => mul_comm _ _, ← e]
  exact sum_congr rfl fun x _ => sum_congr rfl fun y _ => mul_comm _ _

theorem tap_real {su : Setup} (hs : su.Symmetric) (q : Spot) (i c l x y : Nat) :
    star (su.tap q i c l x y) = su.tap q i c l x y := by
  unfold Setup.tap wt wTapAt tapAt
  rw [star_mul', star_mul', hs.kw]
  congr 1
  · congr 1
    split_ifs
    · exact hs.kuv _
    · exact star_zero _
  · split_ifs
    · exact hs.kuv _
    · exact star_zero _

/-- Kernel and tower. -/
theorem sub_adjoint {su : Setup} (hs : su.Symmetric) (q : Spot) (i c : Nat)
    (s : Nat → Nat → ℂ) :
    star (su.degridSub q i c s) =
      ∑ x ∈ range su.pl.n, ∑ y ∈ range su.pl.n, star (s x y) * su.gridSub q i c x y := by
  unfold Setup.degridSub Setup.gridSub
  simp only [star_sum, star_mul', tap_real hs, mul_sum]
  conv_rhs => rw [swap3]
  refine sum_congr rfl fun l _ => ?_
  rw [sum_congr rfl fun x _ => sum_congr rfl fun y _ => mul_comm _ _]
  unfold planeGrid
  rw [centred_adjoint]
  refine sum_congr rfl fun x hx => sum_congr rfl fun y hy => ?_
  have h1 := hs.pat x (mem_range.1 hx) y (mem_range.1 hy)
  have h2 : star (im su.pl.n su.pat x y) = (im su.pl.n su.pat x y)⁻¹ := eq_inv_of_mul_eq_one_left h1
  have h3 : su.pl.wSupport - su.pl.wSupport / 2 = su.pl.wSupport / 2 := by
    have := hs.even
    omega
  rw [star_div₀, star_zpow₀, h2, inv_zpow, div_inv_eq_mul, mul_assoc, h3]

/-- Cutting out and placing. -/
theorem place_adjoint {su : Setup} (h : su.Ok) (a b : Int) (g s : Nat → Nat → ℂ) :
    ∑ x ∈ range su.pl.n, ∑ y ∈ range su.pl.n, star (su.cutOf a b g x y) * s x y =
      ∑ X ∈ range su.size, ∑ Y ∈ range su.size, star (g X Y) * su.placeOf a b s X Y := by
  unfold Setup.placeOf
  simp only [mul_sum]
  have sw : ∀ F : Nat → Nat → Nat → Nat → ℂ,
      ∑ X ∈ range su.size, ∑ Y ∈ range su.size, ∑ x ∈ range su.pl.n, ∑ y ∈ range su.pl.n, F X Y x y =
      ∑ x ∈ range su.pl.n, ∑ y ∈ range su.pl.n, ∑ X ∈ range su.size, ∑ Y ∈ range su.size,
        F X Y x y := by
    intro F
    have := sum_comm (s := range su.size ×ˢ range su.size) (t := range su.pl.n ×ˢ range su.pl.n)
      (f := fun p q => F p.1 p.2 q.1 q.2)
    simpa only [sum_product] using this
  rw [sw]
  refine sum_congr rfl fun x _ => sum_congr rfl fun y _ => ?_
  unfold Setup.cutOf
  rw [Finset.sum_eq_single_of_mem _ (mem_range.2 (pos_lt h.size su.pl.n (a * su.eff) x))]
  · rw [Finset.sum_eq_single_of_mem _ (mem_range.2 (pos_lt h.size su.pl.n (b * su.eff) y))]
    · rw [if_pos ⟨rfl, rfl⟩]
    · intro Y _ hY
      rw [if_neg fun e => hY e.2.symm, mul_zero]
  · intro X _ hX
    apply sum_eq_zero
    intro Y _
    rw [if_neg fun e => hX e.1.symm, mul_zero]

theorem factorAt_star (su : Setup) (k : Int) (x y : Nat) :
    star (su.factorAt (-1) k x y) = su.factorAt 1 k x y := by
  unfold Setup.factorAt
  rw [star_div₀, screen_star]
  congr 1
  · congr 1
    ring
  · exact Complex.conj_ofReal _

/-- One visibility: degridding and gridding are adjoint. -/
theorem at_adjoint {su : Setup} (h : su.Ok) (hs : su.Symmetric) (q : Spot) (i c : Nat)
    (img : Nat → Nat → ℂ) :
    star (su.degridAt q i c img) =
      ∑ x ∈ range su.size, ∑ y ∈ range su.size, star (img x y) * su.gridAt q i c x y := by
  unfold Setup.degridAt
  rw [sub_adjoint hs]
  unfold Setup.subOf
  have e1 : ∀ x y, star (centred true su.pl.n su.pl.n (su.cutOf q.a q.b (su.gridOf q.k img)) x y *
      (1 / ((su.pl.n : ℂ) * (su.pl.n : ℂ)))) * su.gridSub q i c x y =
      star (centred true su.pl.n su.pl.n (su.cutOf q.a q.b (su.gridOf q.k img)) x y) *
        (1 / ((su.pl.n : ℂ) * (su.pl.n : ℂ)) * su.gridSub q i c x y) := by
    intro x y
    rw [star_mul', mul_assoc]
    congr 2
    simp
  simp only [e1]
  rw [centred_adjoint']
  have e2 : ∀ x y, centred false su.pl.n su.pl.n
      (fun x y => 1 / ((su.pl.n : ℂ) * (su.pl.n : ℂ)) * su.gridSub q i c x y) x y =
      1 / ((su.pl.n : ℂ) * (su.pl.n : ℂ)) * centred false su.pl.n su.pl.n (su.gridSub q i c) x y := by
    intro x y
    have := centred_lin false su.pl.n {()} (fun _ => 1 / ((su.pl.n : ℂ) * (su.pl.n : ℂ)))
      (fun _ => su.gridSub q i c) x y
    simpa only [Finset.sum_singleton] using this
  simp only [e2]
  rw [place_adjoint h]
  unfold Setup.gridOf
  rw [centred_adjoint]
  refine sum_congr rfl fun x _ => sum_congr rfl fun y _ => ?_
  rw [star_mul', factorAt_star]
  unfold Setup.gridAt
  have hN : (su.size : ℂ) ≠ 0 := by
    have := h.size
    exact_mod_cast this.ne'
  have hn : (su.pl.n : ℂ) ≠ 0 := by
    have := h.env.pos
    exact_mod_cast this.ne'
  have e3 : ∀ X Y, su.placeOf q.a q.b (fun x y => 1 / ((su.pl.n : ℂ) * (su.pl.n : ℂ)) *
      centred false su.pl.n su.pl.n (su.gridSub q i c) x y) X Y =
      ∑ _t ∈ ({()} : Finset Unit), (1 / ((su.size : ℂ) * (su.size : ℂ))) * su.gridGrid q i c X Y := by
    intro X Y
    unfold Setup.gridGrid
    rw [← placeOf_lin su q.a q.b {()} (fun _ => 1 / ((su.size : ℂ) * (su.size : ℂ)))
      (fun _ x y => centred false su.pl.n su.pl.n (su.gridSub q i c) x y *
        (((su.size : ℂ) / (su.pl.n : ℂ)) ^ 2))]
    apply placeOf_congr
    intro x _ y _
    rw [Finset.sum_singleton]
    field_simp
  have e4 : centred true su.size su.size (su.placeOf q.a q.b
      (fun x y => 1 / ((su.pl.n : ℂ) * (su.pl.n : ℂ)) *
        centred false su.pl.n su.pl.n (su.gridSub q i c) x y)) x y =
      1 / ((su.size : ℂ) * (su.size : ℂ)) * centred true su.size su.size (su.gridGrid q i c) x y := by
    rw [centred_congr true su.size _ _ fun X _ Y _ => e3 X Y]
    rw [centred_lin, Finset.sum_singleton]
  rw [e4]
  ring

/-- **C89 (partial), adjointness.**  With real kernels, a unimodular w pattern and an even number of
w layers, gridding is the adjoint of degridding: every pair of outcomes satisfies
`⟨degrid img, vis⟩ = ⟨img, grid vis⟩`. -/
theorem C89_adjoint_partial (su : Setup) (h : su.Ok) (hs : su.Symmetric) (img vis : Arr ℂ)
    (hi : img.size = su.size * su.size) (hv : vis.size = su.numRows * su.numChan) (o1 o2 : Out Carry)
    (h1 : DegridAll su img o1) (h2 : GridAll su vis o2) :
    ∃ D G : Carry, o1 = .done D ∧ o2 = .done G ∧
      ∑ i ∈ range su.numRows, ∑ c ∈ range su.numChan,
          star (D.data.get (i * su.numChan + c)) * vis.get (i * su.numChan + c) =
        ∑ x ∈ range su.size, ∑ y ∈ range su.size,
          star (im su.size img x y) * im su.size G.data x y := by
  obtain ⟨spot, _, hd, hg⟩ := C89_calls_partial su h
  obtain ⟨D, d1, _, d3⟩ := (hd img hi).2 o1 h1
  obtain ⟨G, g1, _, g3⟩ := (hg vis hv).2 o2 h2
  refine ⟨D, G, d1, g1, ?_⟩
  have L : ∀ i ∈ range su.numRows, ∀ c ∈ range su.numChan,
      star (D.data.get (i * su.numChan + c)) * vis.get (i * su.numChan + c) =
      ∑ x ∈ range su.size, ∑ y ∈ range su.size, star (im su.size img x y) *
        (vis.get (i * su.numChan + c) * su.gridAt (spot i c) i c x y) := by
    intro i hi c hc
    rw [d3 i (mem_range.1 hi) c (mem_range.1 hc), at_adjoint h hs, sum_mul]
    refine sum_congr rfl fun x _ => ?_
    rw [sum_mul]
    refine sum_congr rfl fun y _ => ?_
    ring
  rw [sum_congr rfl fun i hi => sum_congr rfl fun c hc => L i hi c hc]
  have sw : ∀ F : Nat → Nat → Nat → Nat → ℂ,
      ∑ i ∈ range su.numRows, ∑ c ∈ range su.numChan, ∑ x ∈ range su.size, ∑ y ∈ range su.size,
        F i c x y =
      ∑ x ∈ range su.size, ∑ y ∈ range su.size, ∑ i ∈ range su.numRows, ∑ c ∈ range su.numChan,
        F i c x y := by
    intro F
    have := sum_comm (s := range su.numRows ×ˢ range su.numChan) (t := range su.size ×ˢ range su.size)
      (f := fun p q => F p.1 p.2 q.1 q.2)
    simpa only [sum_product] using this
  rw [sw]
  refine sum_congr rfl fun x hx => sum_congr rfl fun y hy => ?_
  rw [g3 x (mem_range.1 hx) y (mem_range.1 hy), mul_sum]
  refine sum_congr rfl fun i _ => ?_
  rw [mul_sum]

/-- **C89 (partial), determinism.**  The results do not depend on the schedule, nor (through
`threads`) on the number of threads. -/
theorem C89_determined_partial (su su' : Setup) (h : su.Ok) (t : Nat) (ht : 0 < t)
    (hsu : su' = { su with threads := t }) :
    (∀ img : Arr ℂ, img.size = su.size * su.size → ∀ o o', DegridAll su img o → DegridAll su' img o' →
      ∃ D D' : Carry, o = .done D ∧ o' = .done D' ∧ ∀ i < su.numRows, ∀ c < su.numChan,
        D.data.get (i * su.numChan + c) = D'.data.get (i * su.numChan + c)) ∧
    (∀ vis : Arr ℂ, vis.size = su.numRows * su.numChan → ∀ o o', GridAll su vis o →
      GridAll su' vis o' → ∃ G G' : Carry, o = .done G ∧ o' = .done G' ∧
        ∀ x < su.size, ∀ y < su.size, im su.size G.data x y = im su.size G'.data x y) := by
  subst hsu
  have h' : Setup.Ok { su with threads := t } := {
    plan := h.plan, env := h.env, even := h.even, size := h.size, theta := h.theta
    wStep := h.wStep, height := h.height, threads := ht, c0 := h.c0, df := h.df, uvw := h.uvw
    rows := h.rows, chan := h.chan, eff := h.eff, margin := h.margin, pswf := h.pswf
    window := h.window, guardU := h.guardU, guardV := h.guardV, guardW := h.guardW
    tower := h.tower, chans := h.chans }
  obtain ⟨spot, hsp⟩ := placed_exists h
  have hsp' : ∀ i < su.numRows, ∀ c < su.numChan,
      Placed { su with threads := t } i c (spot i c) := fun i hi c hc =>
    ⟨⟨(hsp i hi c hc).near.w, (hsp i hi c hc).near.u, (hsp i hi c hc).near.v,
      (hsp i hi c hc).near.lo, (hsp i hi c hc).near.hi⟩,
      (hsp i hi c hc).k, (hsp i hi c hc).a, (hsp i hi c hc).b, (hsp i hi c hc).p⟩
  constructor
  · intro img hi o o' ho ho'
    obtain ⟨iw, iu, iv, st, hidx, e, hs, v⟩ := whole_ok h (degrid_adds h img hi spot hsp) o ho
    obtain ⟨iw', iu', iv', st', hidx', e', hs', v'⟩ :=
      whole_ok h' (degrid_adds h' img hi spot hsp') o' ho'
    refine ⟨st, st', e, e', fun i hi c hc => ?_⟩
    rw [v (i, c) ⟨hi, hc⟩]
    refine Eq.trans ?_ (v' (i, c) ⟨hi, hc⟩).symm
    have : indices su.cfg = some (iw', iu', iv') := hidx'
    rw [hidx] at this
    cases this
    rfl
  · intro vis hv o o' ho ho'
    obtain ⟨iw, iu, iv, st, hidx, e, hs, v⟩ := whole_ok h (grid_adds h vis hv spot hsp) o ho
    obtain ⟨iw', iu', iv', st', hidx', e', hs', v'⟩ :=
      whole_ok h' (grid_adds h' vis hv spot hsp') o' ho'
    refine ⟨st, st', e, e', fun x hx y hy => ?_⟩
    refine (v (x, y) ⟨hx, hy⟩).trans ?_
    refine Eq.trans ?_ (v' (x, y) ⟨hx, hy⟩).symm
    have : indices su.cfg = some (iw', iu', iv') := hidx'
    rw [hidx] at this
    cases this
    rfl

/-! ## An example -/

/-- Two rows, two channels, image of 16 x 16, sub-grids of 8 x 8 with 4 used. -/
def exSetup : Setup where
  pl := ⟨8, 1, 1, 2, 4, 2, 4, ⟨10, fun j => (j : ℂ) + 1⟩, ⟨10, fun j => 2 * (j : ℂ) + 1⟩⟩
  pat := ⟨64, fun j => if j = 5 then -1 else 1⟩
  size := 16
  c0 := 1
  f0 := 1
  df := 1
  uvw := ⟨6, fun j => if j = 0 then 1 else if j = 1 then -2 else if j = 2 then 3 else if j = 4 then 5
    else 0⟩
  numRows := 2
  numChan := 2
  frac := 1 / 2
  height := 2
  hu := 0
  hv := 0
  pswf := ⟨16, fun j => (j : ℝ) + 1⟩
  win := ⟨0, fun _ => 1⟩
  threads := 3

theorem exSetup_eff : exSetup.eff = 4 := by
  unfold Setup.eff exSetup
  norm_num

theorem exGuard (r j : Nat) (d : ℝ) (hd : d = 2 ∨ d = 4) (hr : r < 2) (hj : j < 3) :
    GuardOk (base exSetup.cfg r j) (step exSetup.cfg r j) d 2 := by
  unfold GuardOk step Setup.cfg exSetup
  simp only
  have h1 : r = 0 ∨ r = 1 := by omega
  have h2 : j = 0 ∨ j = 1 ∨ j = 2 := by omega
  rcases hd with rfl | rfl <;> rcases h1 with rfl | rfl <;> rcases h2 with rfl | rfl | rfl <;> norm_num

theorem exSetup_ok : exSetup.Ok where
  plan := ⟨by norm_num [exSetup], by norm_num [exSetup], by norm_num [exSetup], by norm_num [exSetup],
    by norm_num [exSetup]⟩
  env := ⟨by norm_num [exSetup], by norm_num [exSetup], by norm_num [exSetup], by norm_num [exSetup], by
    intro x _ y _
    unfold im exSetup
    simp only
    split_ifs <;> norm_num⟩
  even := by norm_num [exSetup]
  size := by norm_num [exSetup]
  theta := by norm_num [exSetup]
  wStep := by norm_num [exSetup]
  height := by norm_num [exSetup]
  threads := by norm_num [exSetup]
  c0 := by norm_num [exSetup]
  df := by norm_num [exSetup]
  uvw := by norm_num [exSetup]
  rows := by norm_num [exSetup]
  chan := by norm_num [exSetup]
  eff := by rw [exSetup_eff]; norm_num
  margin := by rw [exSetup_eff]; norm_num [exSetup]
  pswf := by norm_num [exSetup]
  window := by
    intro x _ y _
    unfold Setup.window windowAt exSetup
    simp only [le_refl, true_or, if_true, mul_one]
    positivity
  guardU := fun r hr => exGuard r 0 _ (by
    right; show ((exSetup.eff : ℝ) / exSetup.pl.theta) = 4; rw [exSetup_eff]; norm_num [exSetup]) hr
    (by norm_num)
  guardV := fun r hr => exGuard r 1 _ (by
    right; show ((exSetup.eff : ℝ) / exSetup.pl.theta) = 4; rw [exSetup_eff]; norm_num [exSetup]) hr
    (by norm_num)
  guardW := fun r hr => exGuard r 2 _ (by
    left; show exSetup.height * exSetup.pl.wStep = 2; norm_num [exSetup]) hr (by norm_num)
  tower := by
    refine ⟨6, ?_, ?_⟩
    · intro i hi c hc
      have h1 : i = 0 ∨ i = 1 := by
        have : exSetup.numRows = 2 := rfl
        omega
      have h2 : c = 0 ∨ c = 1 := by
        have : exSetup.numChan = 2 := rfl
        omega
      unfold Setup.at exSetup
      rcases h1 with rfl | rfl <;> rcases h2 with rfl | rfl <;> norm_num
    · intro i hi
      have h1 : i = 0 ∨ i = 1 := by
        have : exSetup.numRows = 2 := rfl
        omega
      unfold exSetup
      rcases h1 with rfl | rfl <;> norm_num
  chans := by norm_num [exSetup]

theorem exSetup_symmetric : exSetup.Symmetric where
  kuv := by intro j; simp [exSetup]
  kw := by intro j; simp [exSetup]
  pat := by
    intro x _ y _
    unfold im exSetup
    simp only
    split_ifs <;> simp
  even := rfl

/-- Non-vacuity: the example satisfies all hypotheses, and both calls have outcomes. -/
example (img vis : Arr ℂ) (hi : img.size = 256) (hv : vis.size = 4) :
    exSetup.Ok ∧ exSetup.Symmetric ∧ (∃ o, DegridAll exSetup img o) ∧ (∃ o, GridAll exSetup vis o) := by
  obtain ⟨spot, _, hd, hg⟩ := C89_calls_partial exSetup exSetup_ok
  exact ⟨exSetup_ok, exSetup_symmetric, (hd img (by rw [hi]; rfl)).1, (hg vis (by rw [hv]; rfl)).1⟩

end
end Sdp.Wstack
