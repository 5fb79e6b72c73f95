import Verif.Wstack.Place

/-!
# C89: one kernel call, one image correction
-/

namespace Sdp.Wstack

open Sdp.Clamp Sdp.GridUtil Sdp.Fft Sdp.WTower Sdp.GridCorrect Finset

noncomputable section

/-- `q` is where visibility `(i, c)` is handled. -/
structure Placed (su : Setup) (i c : Nat) (q : Spot) : Prop where
  near : Near su i c q
  k : ∀ k : Int, inBox su.cfg su.cfg.dW i 2 k c ↔ k = q.k
  a : ∀ k : Int, inBox su.cfg su.cfg.dUv i 0 k c ↔ k = q.a
  b : ∀ k : Int, inBox su.cfg su.cfg.dUv i 1 k c ↔ k = q.b
  p : ∀ p : Int, OnTower su q.k p i c ↔ p = q.p

theorem placed_exists {su : Setup} (h : su.Ok) : ∃ spot : Nat → Nat → Spot,
    ∀ i < su.numRows, ∀ c < su.numChan, Placed su i c (spot i c) := by
  classical
  have : ∀ i c : Nat, ∃ q : Spot, i < su.numRows → c < su.numChan → Placed su i c q := by
    intro i c
    by_cases hh : i < su.numRows ∧ c < su.numChan
    · obtain ⟨q, h1, h2, h3, h4, h5⟩ := spot_exists h i c hh.1 hh.2
      exact ⟨q, fun _ _ => ⟨h1, h2, h3, h4, h5⟩⟩
    · exact ⟨⟨0, 0, 0, 0⟩, fun a b => absurd ⟨a, b⟩ hh⟩
  choose spot hs using this
  exact ⟨spot, fun i hi c hc => hs i c hi hc⟩

/-- Bounds of a visibility of a call, and its place. -/
theorem inCall_place {su : Setup} {k : Int} {e : Event} (g : GoodCall su.cfg k e) {i c : Nat}
    (hic : InCall e i c) : i < su.numRows ∧ c < su.numChan ∧
      ∀ q, Placed su i c q → q.k = k ∧ q.a = e.1.iu ∧ q.b = e.1.iv := by
  obtain ⟨⟨h1, h2⟩, h3, h4, h5⟩ := g.box i hic.1.1 hic.1.2 c hic.2.1 hic.2.2
  refine ⟨?_, ?_, fun q hq => ⟨((hq.k k).1 h3).symm, ((hq.a _).1 h4).symm, ((hq.b _).1 h5).symm⟩⟩
  · have := g.stop
    have e2 : su.cfg.numRows = su.numRows := rfl
    have := hic.1
    omega
  · have e2 : su.cfg.numChan = su.numChan := rfl
    omega

theorem fixFreq_id {su : Setup} (h : su.Ok) (k : Int) (e : Event) :
    fixFreq (taskObs su k e) = taskObs su k e := by
  unfold fixFreq
  rw [if_neg (show ¬ (taskObs su k e).df = 0 from h.df.ne')]

/-- The transform step with normalisation. -/
theorem fftN_ok (n : Nat) (hn : n % 2 = 0) (h0 : 0 < n) (o1 o2 : List Nat)
    (ph : List (Nat × Nat)) (h1 : o1.Perm (List.range n)) (h2 : o2.Perm (List.range n))
    (h3 : ph.Perm (nest2 n n)) (dir : Int) (nrm : Bool) (d tmp : Arr ℂ) (hd : d.size = n * n)
    (ht : tmp.size = n * n) :
    ∃ r t, execShift n n o1 o2 ph dir nrm d tmp = some (r, t) ∧ r.size = n * n ∧
      ∀ x, x < n → ∀ y, y < n → im n r x y = centred (!(dir = 1)) n n (im n d) x y *
        (if nrm then 1 / ((n : ℂ) * (n : ℂ)) else 1) := by
  obtain ⟨r, t, e1, e2, e3, _⟩ := execShift_spec n n o1 o2 ph h1 h2 h3 dir nrm d tmp hd ht
  obtain ⟨m, rfl⟩ : ∃ m, n = 2 * m := ⟨n / 2, by omega⟩
  obtain ⟨r', t', f1, f2⟩ := C28_shift_centred m m (by omega) (by omega) o1 o2 ph h1 h2 h3 dir nrm d
    tmp hd ht
  rw [e1] at f1
  obtain ⟨rfl, rfl⟩ := Prod.mk.inj (Option.some.inj f1)
  refine ⟨r, t, e1, e2, fun x hx y hy => ?_⟩
  have := f2 x hx y hy
  have e4 : ((-1 : ℂ)) ^ (m + m) = 1 := by rw [pow_add, ← mul_pow]; simp
  rw [e4, one_mul] at this
  exact this

theorem task_sched {su : Setup} {e : Event} {ts : TaskSched} (ht : ts.Ok su e) :
    (∀ j, (ts.s0 j).Ok su.pl.n (rowList su.numRows e.1.rowStart e.1.rowEnd)) ∧
    (∀ j, (ts.s1 j).Ok su.pl.n (rowList su.numRows e.1.rowStart e.1.rowEnd)) :=
  ⟨fun j => ⟨(ht.s0 j).1, (ht.s0 j).2.1, (ht.s0 j).2.2.1, (ht.s0 j).2.2.2⟩,
    fun j => ⟨(ht.s1 j).1, (ht.s1 j).2.1, (ht.s1 j).2.2.1, (ht.s1 j).2.2.2⟩⟩

/-- Sum over the planes of a call: only the plane of the visibility counts. -/
theorem degrid_planes {su : Setup} (h : su.Ok) (k : Int) (e : Event) (g : GoodCall su.cfg k e)
    (b : MinMax ℝ × MinMax ℝ × MinMax ℝ) (fl : Int × Int) (hk : CallOk su k e b fl)
    (s : Nat → Nat → ℂ) (i c : Nat) (h1 : e.1.rowStart ≤ i) (h2 : (i : Int) < e.1.rowEnd) (q : Spot)
    (hq : Placed su i c q) :
    open Classical in
    ∑ p ∈ Finset.Icc fl.1 fl.2, degridSum su.pl (taskObs su k e) p (fun l x y =>
        planeGrid su.pl.n (im su.pl.n su.pat) s (p + l - ((su.pl.wSupport / 2 : Nat) : Int)) x y)
        i c = if InCall e i c then su.degridSub q i c s else 0 := by
  by_cases hic : InCall e i c
  · rw [if_pos hic]
    obtain ⟨hi, hc, hpl⟩ := inCall_place g hic
    obtain ⟨rfl, qa, qb⟩ := hpl q hq
    have hon : ∀ p, OnPlane su.pl (taskObs su q.k e) p i (c : Int) ↔ p = q.p := by
      intro p
      rw [onPlane_task, hq.p p]
      exact ⟨fun x => x.2.2, fun x => ⟨hic.2.1, hic.2.2, x⟩⟩
    rw [Finset.sum_eq_single_of_mem q.p]
    · unfold degridSum
      rw [if_pos ((used_iff h q.k e g q.p i h1 h2 c).2 ((hon q.p).2 rfl))]
      have ht : ∀ l x y, wt su.pl (taskObs su q.k e) q.p i (c : Int) l x y = su.tap q i c l x y := by
        intro l x y
        unfold Setup.tap Setup.obs
        rw [qa, qb]
        rfl
      simp only [ht]
      rfl
    · have := hk.cover i c hic q.p ((hq.p q.p).2 rfl)
      exact Finset.mem_Icc.2 this
    · intro p _ hp
      exact degridSum_off _ _ _ _ _ _ fun ho => hp ((hon p).1 ho)
  · rw [if_neg hic]
    apply Finset.sum_eq_zero
    intro p _
    apply degridSum_off
    intro ho
    exact hic ⟨⟨h1, h2⟩, ho.1, ho.2.1⟩

theorem degridSub_congr (su : Setup) (q : Spot) (i c : Nat) (s t : Nat → Nat → ℂ)
    (h : ∀ x, x < su.pl.n → ∀ y, y < su.pl.n → s x y = t x y) :
    su.degridSub q i c s = su.degridSub q i c t := by
  unfold Setup.degridSub planeGrid
  refine sum_congr rfl fun l _ => sum_congr rfl fun x _ => sum_congr rfl fun y _ => ?_
  congr 1
  exact centred_congr _ _ _ _ (fun a ha b hb => by simp only [h a ha b hb]) _ _

open Classical in
/-- Degridding one task. -/
theorem degridTask_ok {su : Setup} (h : su.Ok) (k : Int) (e : Event) (g : GoodCall su.cfg k e)
    (ts : TaskSched) (ht : ts.Ok su e) (grid vis : Arr ℂ) (hg : grid.size = su.size * su.size)
    (hv : vis.size = su.numRows * su.numChan) (spot : Nat → Nat → Spot)
    (hsp : ∀ i < su.numRows, ∀ c < su.numChan, Placed su i c (spot i c)) :
    ∃ r, degridTask su k grid vis (ts, e) = some r ∧ r.size = vis.size ∧
      ∀ i < su.numRows, ∀ c < su.numChan, r.get (i * su.numChan + c) =
        vis.get (i * su.numChan + c) + if InCall e i c then
          su.degridSub (spot i c) i c (su.subOf (spot i c).a (spot i c).b (im su.size grid)) else 0 := by
  obtain ⟨b, fl, hk⟩ := call_ok h k e g
  obtain ⟨s, c1, c2, c3⟩ := C38_cut su.size su.size su.pl.n su.pl.n h.size h.size
    (e.1.iu * su.eff) (e.1.iv * su.eff) grid ts.sub hg ht.sub ts.px ht.px
  obtain ⟨r, t, f1, f2, f3⟩ := fftN_ok su.pl.n h.env.even h.env.pos ts.o1 ts.o2 ts.ph ht.o1 ht.o2 ht.ph 0
    true s ts.tmp c2 ht.tmp
  obtain ⟨s0, s1⟩ := task_sched ht
  have hfx := fixFreq_id h k e
  obtain ⟨v, d1, d2, d3, d4⟩ := C42_degrid su.pl (taskObs su k e) su.numRows su.pat r h.env f2
    (rowList su.numRows e.1.rowStart e.1.rowEnd) ts.s0 ts.s1 s0 s1 ts.tower ts.wImg ts.wTmp ht.tower
    ht.wImg ht.wTmp vis hv b fl (by rw [hfx]; exact hk.planes.1) (by rw [hfx]; exact hk.planes.2)
    (by rw [hfx]; exact fun p _ _ => hk.call p)
  refine ⟨v, ?_, d2, fun i hi c hc => ?_⟩
  · unfold degridTask
    simp only
    rw [c1]
    simp only [Option.bind_some]
    rw [f1]
    simp only [Option.bind_some]
    rw [d1]
    rfl
  · by_cases hr : i ∈ rowList su.numRows e.1.rowStart e.1.rowEnd
    · have hr' := (mem_rows su k e g i).1 hr
      have := d3 i hr c hc
      rw [hfx, degrid_planes h k e g b fl hk (im su.pl.n r) i c hr'.1 hr'.2 (spot i c)
        (hsp i hi c hc)] at this
      refine this.trans ?_
      congr 1
      by_cases hic : InCall e i c
      · rw [if_pos hic, if_pos hic]
        obtain ⟨_, qa, qb⟩ := (inCall_place g hic).2.2 _ (hsp i hi c hc)
        apply degridSub_congr
        intro x hx y hy
        rw [f3 x hx y hy]
        unfold Setup.subOf
        simp only [if_true]
        congr 1
        simp only [zero_ne_one, decide_false, Bool.not_false]
        apply centred_congr
        intro x' hx' y' hy'
        unfold im Setup.cutOf
        rw [qa, qb, Nat.mul_comm x', c3 x' y' hx' hy', Nat.mul_comm su.size]
      · rw [if_neg hic, if_neg hic]
    · have hni : ¬ InCall e i c := fun hic => hr ((mem_rows su k e g i).2 hic.1)
      rw [if_neg hni, add_zero]
      exact d4 i hi hr c hc

/-! ## Gridding -/

theorem swap3 {ι α β : Type} (A : Finset α) (B : Finset β) (T : Finset ι) (f : α → β → ι → ℂ) :
    ∑ x ∈ A, ∑ y ∈ B, ∑ t ∈ T, f x y t = ∑ t ∈ T, ∑ x ∈ A, ∑ y ∈ B, f x y t := by
  rw [sum_comm (s := T) (t := A)]
  refine sum_congr rfl fun x _ => ?_
  rw [sum_comm]

/-- The transform is linear. -/
theorem centred_lin {ι : Type} (inv : Bool) (n : Nat) (T : Finset ι) (α : ι → ℂ)
    (F : ι → Nat → Nat → ℂ) (x y : Nat) :
    centred inv n n (fun a b => ∑ t ∈ T, α t * F t a b) x y =
      ∑ t ∈ T, α t * centred inv n n (F t) x y := by
  unfold centred
  simp only [mul_sum]
  rw [swap3]
  refine sum_congr rfl fun t _ => sum_congr rfl fun a _ => sum_congr rfl fun b _ => ?_
  ring

theorem rows_sum (su : Setup) (k : Int) (e : Event) (g : GoodCall su.cfg k e) (F : Nat → ℂ) :
    open Classical in
    ((rowList su.numRows e.1.rowStart e.1.rowEnd).map F).sum =
      ∑ i ∈ range su.numRows, if e.1.rowStart ≤ i ∧ (i : Int) < e.1.rowEnd then F i else 0 := by
  classical
  rw [← List.sum_toFinset _ (C42_rows su.numRows e.1.rowStart e.1.rowEnd).1, ← Finset.sum_filter]
  apply sum_congr _ fun _ _ => rfl
  ext i
  rw [List.mem_toFinset, mem_rows su k e g, Finset.mem_filter, Finset.mem_range]
  refine ⟨fun hh => ⟨?_, hh⟩, fun hh => hh.2⟩
  have := g.stop
  have e2 : su.cfg.numRows = su.numRows := rfl
  omega

open Classical in
/-- The visibilities of a call. -/
def visIn (su : Setup) (e : Event) : Finset (Nat × Nat) :=
  (range su.numRows ×ˢ range su.numChan).filter fun t => InCall e t.1 t.2

theorem mem_visIn {su : Setup} {k : Int} {e : Event} (g : GoodCall su.cfg k e) {t : Nat × Nat} :
    t ∈ visIn su e ↔ InCall e t.1 t.2 := by
  classical
  unfold visIn
  rw [Finset.mem_filter, Finset.mem_product, Finset.mem_range, Finset.mem_range]
  exact ⟨fun x => x.2, fun x => ⟨⟨(inCall_place g x).1, (inCall_place g x).2.1⟩, x⟩⟩

/-- What is gridded on one plane. -/
theorem gridSum_eq {su : Setup} (h : su.Ok) (k : Int) (e : Event) (g : GoodCall su.cfg k e)
    (spot : Nat → Nat → Spot)
    (hsp : ∀ i < su.numRows, ∀ c < su.numChan, Placed su i c (spot i c)) (v : Nat → Nat → ℂ)
    (p : Int) (l x y : Nat) :
    gridSum su.pl (taskObs su k e) p (rowList su.numRows e.1.rowStart e.1.rowEnd) v l x y =
      ∑ t ∈ visIn su e, (if p = (spot t.1 t.2).p then v t.1 t.2 else 0) *
        su.tap (spot t.1 t.2) t.1 t.2 l x y := by
  classical
  unfold gridSum
  rw [rows_sum su k e g]
  unfold visIn
  rw [Finset.sum_filter, Finset.sum_product]
  refine sum_congr rfl fun i hi => ?_
  by_cases hr : e.1.rowStart ≤ i ∧ (i : Int) < e.1.rowEnd
  · rw [if_pos hr]
    refine sum_congr rfl fun c hc => ?_
    rw [used_iff h k e g p i hr.1 hr.2 c]
    by_cases hic : InCall e i c
    · rw [if_pos hic]
      have hpl := (inCall_place g hic).2.2 _ (hsp i (mem_range.1 hi) c (mem_range.1 hc))
      have hq := hsp i (mem_range.1 hi) c (mem_range.1 hc)
      simp only
      generalize spot i c = q at *
      obtain ⟨rfl, qa, qb⟩ := hpl
      have hon : OnPlane su.pl (taskObs su q.k e) p i (c : Int) ↔ p = q.p := by
        rw [onPlane_task, hq.p p]
        exact ⟨fun x => x.2.2, fun x => ⟨hic.2.1, hic.2.2, x⟩⟩
      have ht : su.tap q i c l x y = wt su.pl (taskObs su q.k e) q.p i (c : Int) l x y := by
        unfold Setup.tap Setup.obs
        rw [qa, qb]
        rfl
      by_cases hp : p = q.p
      · rw [if_pos (hon.2 hp), if_pos hp, ht, hp, mul_comm]
      · rw [if_neg (fun x => hp (hon.1 x)), if_neg hp, zero_mul]
    · rw [if_neg hic, if_neg]
      intro ho
      exact hic ⟨hr, ho.1, ho.2.1⟩
  · rw [if_neg hr]
    symm
    apply sum_eq_zero
    intro c _
    rw [if_neg]
    intro hic
    exact hr hic.1

theorem placeOf_lin {ι : Type} (su : Setup) (a b : Int) (T : Finset ι) (α : ι → ℂ)
    (F : ι → Nat → Nat → ℂ) (X Y : Nat) :
    su.placeOf a b (fun x y => ∑ t ∈ T, α t * F t x y) X Y =
      ∑ t ∈ T, α t * su.placeOf a b (F t) X Y := by
  unfold Setup.placeOf
  simp only [mul_sum]
  rw [← swap3]
  refine sum_congr rfl fun x _ => sum_congr rfl fun y _ => ?_
  split_ifs
  · rfl
  · simp

end
end Sdp.Wstack
