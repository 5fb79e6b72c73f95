import Verif.Wstack.TaskOk

/-!
# C89: gridding one task, correcting the image of one w-plane
-/

namespace Sdp.Wstack

open Sdp.Clamp Sdp.GridUtil Sdp.Fft Sdp.WTower Sdp.GridCorrect Finset

noncomputable section

theorem placeOf_congr (su : Setup) (a b : Int) (s t : Nat → Nat → ℂ)
    (h : ∀ x, x < su.pl.n → ∀ y, y < su.pl.n → s x y = t x y) (X Y : Nat) :
    su.placeOf a b s X Y = su.placeOf a b t X Y := by
  unfold Setup.placeOf
  refine sum_congr rfl fun x hx => sum_congr rfl fun y hy => ?_
  rw [h x (mem_range.1 hx) y (mem_range.1 hy)]

/-- Sum over the planes of a call when gridding. -/
theorem grid_planes {su : Setup} (h : su.Ok) (k : Int) (e : Event) (g : GoodCall su.cfg k e)
    (b : MinMax ℝ × MinMax ℝ × MinMax ℝ) (fl : Int × Int) (hk : CallOk su k e b fl)
    (spot : Nat → Nat → Spot)
    (hsp : ∀ i < su.numRows, ∀ c < su.numChan, Placed su i c (spot i c)) (v : Nat → Nat → ℂ)
    (x y : Nat) :
    ∑ p ∈ Finset.Icc fl.1 fl.2, ∑ l ∈ range su.pl.wSupport,
        im su.pl.n su.pat x y ^ (p + l - ((su.pl.wSupport - su.pl.wSupport / 2 : Nat) : Int)) *
          centred true su.pl.n su.pl.n (gridSum su.pl (taskObs su k e) p
            (rowList su.numRows e.1.rowStart e.1.rowEnd) v l) x y =
      ∑ t ∈ visIn su e, v t.1 t.2 * su.gridSub (spot t.1 t.2) t.1 t.2 x y := by
  have e1 : ∀ (p : Int) (l : Nat), centred true su.pl.n su.pl.n (gridSum su.pl (taskObs su k e) p
      (rowList su.numRows e.1.rowStart e.1.rowEnd) v l) x y =
      ∑ t ∈ visIn su e, (if p = (spot t.1 t.2).p then v t.1 t.2 else 0) *
        centred true su.pl.n su.pl.n (su.tap (spot t.1 t.2) t.1 t.2 l) x y := by
    intro p l
    rw [← centred_lin]
    exact centred_congr _ _ _ _ (fun a _ b _ => gridSum_eq h k e g spot hsp v p l a b) _ _
  simp only [e1, mul_sum]
  rw [swap3]
  refine sum_congr rfl fun t ht => ?_
  have hic := (mem_visIn g).1 ht
  obtain ⟨hi, hc, hpl⟩ := inCall_place g hic
  have hq := hsp t.1 hi t.2 hc
  have hk0 := (hpl _ hq).1
  have hmem : (spot t.1 t.2).p ∈ Finset.Icc fl.1 fl.2 :=
    Finset.mem_Icc.2 (hk.cover t.1 t.2 hic _ (by rw [← hk0]; exact (hq.p _).2 rfl))
  rw [Finset.sum_eq_single_of_mem _ hmem]
  · unfold Setup.gridSub
    rw [mul_sum]
    refine sum_congr rfl fun l _ => ?_
    simp only [if_true]
    ring
  · intro p _ hp
    apply sum_eq_zero
    intro l _
    rw [if_neg hp]
    ring

/-- Gridding one task: every visibility of the call adds its grid. -/
theorem gridTask_ok {su : Setup} (h : su.Ok) (k : Int) (e : Event) (g : GoodCall su.cfg k e)
    (ts : TaskSched) (ht : ts.Ok su e) (grid vis : Arr ℂ) (hg : grid.size = su.size * su.size)
    (hv : vis.size = su.numRows * su.numChan) (spot : Nat → Nat → Spot)
    (hsp : ∀ i < su.numRows, ∀ c < su.numChan, Placed su i c (spot i c)) :
    ∃ r, gridTask su k vis grid (ts, e) = some r ∧ r.size = su.size * su.size ∧
      ∀ X < su.size, ∀ Y < su.size, im su.size r X Y = im su.size grid X Y +
        ∑ t ∈ visIn su e, vis.get (t.1 * su.numChan + t.2) *
          su.gridGrid (spot t.1 t.2) t.1 t.2 X Y := by
  obtain ⟨b, fl, hk⟩ := call_ok h k e g
  obtain ⟨s0, s1⟩ := task_sched ht
  have hfx := fixFreq_id h k e
  obtain ⟨s, d1, d2, d3⟩ := C42_grid su.pl (taskObs su k e) su.numRows su.pat vis
    ⟨su.pl.n * su.pl.n, fun _ => 0⟩ h.env rfl e.1.rowStart e.1.rowEnd ts.s0 ts.s1 s0 s1 ts.wImg ts.wTmp
    ht.wImg ht.wTmp hv b fl hk.le (by rw [hfx]; exact hk.planes.1) (by rw [hfx]; exact hk.planes.2)
    (by rw [hfx]; exact fun p _ _ => hk.call p)
  obtain ⟨r, t, f1, f2, f3⟩ := fftN_ok su.pl.n h.env.even h.env.pos ts.o1 ts.o2 ts.ph ht.o1 ht.o2 ht.ph 1
    false s ts.tmp d2 ht.tmp
  obtain ⟨G, a1, a2, a3⟩ := C38_add su.size su.size su.pl.n su.pl.n h.size h.size
    (-e.1.iu * su.eff) (-e.1.iv * su.eff) grid r hg f2 su.factor ts.px ht.px
  refine ⟨G, ?_, a2, fun X hX Y hY => ?_⟩
  · unfold gridTask
    simp only
    rw [d1]
    simp only [Option.bind_some]
    rw [f1]
    simp only [Option.bind_some]
    exact a1
  · unfold im
    rw [Nat.mul_comm X, a3 X Y hX hY]
    congr 1
    have n1 : -(-e.1.iu * su.eff) = e.1.iu * su.eff := by ring
    have n2 : -(-e.1.iv * su.eff) = e.1.iv * su.eff := by ring
    rw [n1, n2]
    have hr : ∀ x, x < su.pl.n → ∀ y, y < su.pl.n → r.get (su.pl.n * x + y) * su.factor =
        ∑ t ∈ visIn su e, vis.get (t.1 * su.numChan + t.2) *
          (centred false su.pl.n su.pl.n (su.gridSub (spot t.1 t.2) t.1 t.2) x y *
            (((su.size : ℂ) / (su.pl.n : ℂ)) ^ 2)) := by
      intro x hx y hy
      have := f3 x hx y hy
      unfold im at this
      rw [Nat.mul_comm su.pl.n, this]
      simp only [decide_true, Bool.not_true, Bool.false_eq_true, if_false, mul_one]
      have hc : centred false su.pl.n su.pl.n (fun x y => s.get (x * su.pl.n + y)) x y =
          centred false su.pl.n su.pl.n (fun a b => ∑ t ∈ visIn su e,
            vis.get (t.1 * su.numChan + t.2) * su.gridSub (spot t.1 t.2) t.1 t.2 a b) x y := by
        apply centred_congr
        intro a ha b' hb
        have := d3 a ha b' hb
        rw [hfx, grid_planes h k e g b fl hk spot hsp] at this
        unfold im at this
        simp only [zero_add] at this
        exact this
      rw [hc, centred_lin, sum_mul]
      refine sum_congr rfl fun t _ => ?_
      unfold Setup.factor
      ring
    have hpl : ∀ t ∈ visIn su e, su.gridGrid (spot t.1 t.2) t.1 t.2 X Y =
        su.placeOf e.1.iu e.1.iv (fun x y => centred false su.pl.n su.pl.n
          (su.gridSub (spot t.1 t.2) t.1 t.2) x y * (((su.size : ℂ) / (su.pl.n : ℂ)) ^ 2)) X Y := by
      intro t ht
      have hic := (mem_visIn g).1 ht
      obtain ⟨hi, hc, hpl⟩ := inCall_place g hic
      obtain ⟨_, qa, qb⟩ := hpl _ (hsp t.1 hi t.2 hc)
      unfold Setup.gridGrid
      rw [qa, qb]
    have hsum : ∑ t ∈ visIn su e, vis.get (t.1 * su.numChan + t.2) *
        su.gridGrid (spot t.1 t.2) t.1 t.2 X Y =
        su.placeOf e.1.iu e.1.iv (fun x y => ∑ t ∈ visIn su e,
          vis.get (t.1 * su.numChan + t.2) * (centred false su.pl.n su.pl.n
          (su.gridSub (spot t.1 t.2) t.1 t.2) x y * (((su.size : ℂ) / (su.pl.n : ℂ)) ^ 2))) X Y := by
      rw [placeOf_lin]
      exact sum_congr rfl fun t ht => by rw [hpl t ht]
    rw [hsum]
    unfold Setup.placeOf
    refine sum_congr rfl fun x hx => sum_congr rfl fun y hy => ?_
    rw [hr x (mem_range.1 hx) y (mem_range.1 hy)]

theorem inside_whole (n : Nat) : Inside n n 0 := by
  intro i hi
  unfold inImage
  omega

theorem correct_ok {su : Setup} (h : su.Ok) (k : Int) (inverse : Bool) (o1 o2 : List (Nat × Nat))
    (h1 : o1.Perm (nest2 su.size su.size)) (h2 : o2.Perm (nest2 su.size su.size)) (a : Arr ℂ)
    (ha : a.size = su.size * su.size) :
    ∃ r, correct su k inverse o1 o2 a = some r ∧ r.size = su.size * su.size ∧
      ∀ x < su.size, ∀ y < su.size, im su.size r x y = im su.size a x y *
        su.factorAt (if inverse then 1 else -1) k x y := by
  obtain ⟨r, e1, e2, e3⟩ := C65_value su.fac su.pswf h.pswf su.win a ha (inside_whole _)
    (inside_whole _) o1 h1
  obtain ⟨r', f1, f2, f3⟩ := C50_value su.fac (su.offW k) inverse r (by rw [e2]; exact ha) o2 h2
  refine ⟨r', ?_, by rw [f2, e2]; exact ha, fun x hx y hy => ?_⟩
  · unfold correct
    rw [e1]
    exact f1
  · have q1 := e3 x hx y hy x y (by unfold inImage Setup.fac; simp)
      (by unfold inImage Setup.fac; simp)
    have q2 := f3 x hx y hy
    unfold im
    rw [Nat.mul_comm x]
    refine q2.trans ?_
    rw [q1]
    unfold Setup.factorAt Setup.window Setup.nAt
    simp only [Setup.fac]
    ring

/-- The grid of a w-plane. -/
theorem planeImage_ok {su : Setup} (h : su.Ok) (sc : ImgSched) (hs : sc.Ok su) (k : Int)
    (img : Arr ℂ) (hi : img.size = su.size * su.size) :
    ∃ g, planeImage su sc k img = some g ∧ g.size = su.size * su.size ∧
      ∀ X < su.size, ∀ Y < su.size, im su.size g X Y = su.gridOf k (im su.size img) X Y := by
  obtain ⟨a, a1, a2, a3⟩ := accumScale_ok su.size sc.px hs.px ⟨su.size * su.size, fun _ => 0⟩ img none 0
    rfl hi (by intro b hb; cases hb)
  obtain ⟨c, c1, c2, c3⟩ := correct_ok h k false sc.c1 sc.c2 hs.c1 hs.c2 a a2
  obtain ⟨r, t, f1, f2, f3⟩ := fftN_ok su.size h.even h.size sc.o1 sc.o2 sc.ph hs.o1 hs.o2 hs.ph 1 false c
    sc.tmp c2 hs.tmp
  refine ⟨r, ?_, f2, fun X hX Y hY => ?_⟩
  · unfold planeImage
    rw [a1]
    simp only [Option.bind_some]
    rw [c1]
    simp only [Option.bind_some]
    rw [f1]
    rfl
  · rw [f3 X hX Y hY]
    simp only [decide_true, Bool.not_true, Bool.false_eq_true, if_false, mul_one]
    unfold Setup.gridOf
    apply centred_congr
    intro x hx y hy
    rw [c3 x hx y hy, a3 x hx y hy]
    simp only [Bool.false_eq_true, if_false]
    unfold im
    simp

/-- Adding a gridded w-plane to the image. -/
theorem planeAdd_ok {su : Setup} (h : su.Ok) (sc : ImgSched) (hs : sc.Ok su) (k : Int)
    (grid img : Arr ℂ) (hg : grid.size = su.size * su.size) (hi : img.size = su.size * su.size) :
    ∃ r, planeAdd su sc k grid img = some r ∧ r.size = su.size * su.size ∧
      ∀ x < su.size, ∀ y < su.size, im su.size r x y = im su.size img x y +
        centred true su.size su.size (im su.size grid) x y *
          (1 / ((su.size : ℂ) * (su.size : ℂ))) * su.factorAt 1 k x y := by
  obtain ⟨f, t, f1, f2, f3⟩ := fftN_ok su.size h.even h.size sc.o1 sc.o2 sc.ph hs.o1 hs.o2 hs.ph 0 true
    grid sc.tmp hg hs.tmp
  obtain ⟨c, c1, c2, c3⟩ := correct_ok h k true sc.c1 sc.c2 hs.c1 hs.c2 f f2
  obtain ⟨a, a1, a2, a3⟩ := accumScale_ok su.size sc.px hs.px img c none 0
    hi c2 (by intro b hb; cases hb)
  refine ⟨a, ?_, a2, fun x hx y hy => ?_⟩
  · unfold planeAdd
    rw [f1]
    simp only [Option.bind_some]
    rw [c1]
    simp only [Option.bind_some]
    exact a1
  · rw [a3 x hx y hy, c3 x hx y hy, f3 x hx y hy]
    simp

end
end Sdp.Wstack
