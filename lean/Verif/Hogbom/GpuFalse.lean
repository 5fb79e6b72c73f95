import Verif.Hogbom.GpuProps
import Mathlib.Tactic.NormNum

set_option linter.unusedSectionVars false

/-!
# C88: where the GPU fails, and examples
-/

namespace Sdp.Hogbom
open Sdp.Race
variable {F : Type} [Field F] [LinearOrder F]

/-- **C88 fails** for most image sizes: with a side of 1000 pixels a thread reads past the end of the
residual. -/
theorem C88_bounds_false (res : Arr F) (hr : res.size = 1000 * 1000) (m : Arr (Cell F)) (hm : m.size = 512) :
    ∃ b < blocks (1000 * 1000) 256, ∃ t < 256, (load res none b t).exec m = none := by
  refine ⟨3906, by decide, 255, by omega, ?_⟩
  by_contra h
  have := (load_ok res none 3906 255 (by omega) (by simp) m hm).1 h
  omega

/-! ## Order of blocks -/

theorem peak_zero {V : Nat → F} (h : ∀ t < 256, V t = 0) : peakV V = 0 := by
  obtain ⟨⟨u, hu, e, -⟩, -⟩ := peak_spec V (fun _ => 0)
  rw [e, h u hu]

theorem zero_blocks (l : List Nat) (hl : ∀ b ∈ l, b < 4) (p : Peaks F) (h1 : p.val.size = 1024)
    (h2 : p.idx.size = 1024) (h3 : ∀ i < 1024, p.val.get i = 0)
    (h4 : ∀ i < 1024, ∃ k : Nat, k < 512 * 512 ∧ p.idx.get i = (k : Int)) :
    ∃ p', Blocks WarpLock none l p p' ∧ p'.val.size = 1024 ∧ p'.idx.size = 1024 ∧ (∀ i < 1024, p'.val.get i = 0) ∧
      ∀ i < 1024, ∃ k : Nat, k < 512 * 512 ∧ p'.idx.get i = (k : Int) := by
  induction l generalizing p with
  | nil => exact ⟨p, .nil, h1, h2, h3, h4⟩
  | cons b l ih =>
    have hb := hl b (by simp)
    have hin := input_later (val := p.val) (idx := p.idx) (b := b) (by omega) (by omega)
    obtain ⟨⟨u, hu, -, e2⟩, -, hrun⟩ := block_lock hin (zero512 (F := F))
    have e1 : peakV (vAt p.val b) = 0 := peak_zero fun t ht => h3 _ (by omega)
    obtain ⟨p', q1, q2⟩ := ih (fun b hb => hl b (by simp [hb]))
      ⟨p.val.put b 0, p.idx.put b (peakJ (vAt p.val b) fun t => p.idx.get (256 * b + t))⟩ h1 h2
      (fun i hi => by
        simp only
        rw [Arr.put_get]
        by_cases c : i = b
        · rw [if_pos c]
        · rw [if_neg c]; exact h3 i hi)
      (fun i hi => by
        simp only
        rw [Arr.put_get]
        by_cases c : i = b
        · rw [if_pos c, e2]; exact h4 _ (by omega)
        · rw [if_neg c]; exact h4 i hi)
    exact ⟨p', .cons (zero512 (F := F)) ((hrun _ _).2 ⟨rfl, rfl⟩) (by rw [Arr.write_nat, if_pos (by omega), e1])
      (by rw [Arr.write_nat, if_pos (by omega)]) q1, q2⟩

/-- **C88 fails** for larger images even in lockstep: from the second launch on, the blocks overwrite what
others have yet to read.  A 512x512 image with one pixel of value 1: when block 1 of the second launch
finishes before block 0 starts, the peak is lost, and the loop ends with the pixel above the threshold. -/
theorem C88_order_false (psf model : Arr ℚ) (hm : model.size = 512 * 512) :
    ∃ res : Arr ℚ, res.size = 512 * 512 ∧ res.get 300 = 1 ∧
      GRun WarpLock psf 512 1024 (1 / 2) (1 / 2) 1 0 ⟨res, model, false⟩ ⟨res, model, true⟩ := by
  let res : Arr ℚ := ⟨512 * 512, fun i => if i = 300 then 1 else 0⟩
  refine ⟨res, rfl, by simp [res], ?_⟩
  have hn : blocks (512 * 512) 256 = 1024 := by decide
  have hn2 : blocks 1024 256 = 4 := by decide
  have hn3 : blocks 4 256 = 1 := by decide
  obtain ⟨⟨p1, hp1⟩, hall⟩ := first_lock (res := res) (n := 1024) (by simp only [res]; omega)
    (p := cleared 1024) rfl rfl
  obtain ⟨s1, s2, s3⟩ := hall p1 hp1
  have z1 : ∀ b < 1024, b ≠ 1 → p1.val.get b = 0 := by
    intro b hb hne
    rw [(s3 b hb).1]
    apply peak_zero
    intro t ht
    simp only [vAt, res]
    rw [if_neg (by omega)]
  have z2 : ∀ b < 1024, ∃ k : Nat, k < 512 * 512 ∧ p1.idx.get b = (k : Int) := by
    intro b hb
    obtain ⟨⟨u, hu, -, e⟩, -⟩ := peak_spec (vAt res b) (fun t => ((256 * b + t : Nat) : Int))
    exact ⟨256 * b + u, by omega, by rw [(s3 b hb).2, e]⟩
  -- block 1 first
  have hin := input_later (val := p1.val) (idx := p1.idx) (b := 1) (by omega) (by omega)
  obtain ⟨⟨u, hu, -, e2⟩, -, hrun⟩ := block_lock hin (zero512 (F := ℚ))
  have e1 : peakV (vAt p1.val 1) = 0 := peak_zero fun t ht => z1 _ (by omega) (by omega)
  obtain ⟨p2, q1, q2, q3, q4, q5⟩ := zero_blocks [0, 2, 3] (by decide)
    ⟨p1.val.put 1 0, p1.idx.put 1 (peakJ (vAt p1.val 1) fun t => p1.idx.get (256 * 1 + t))⟩ s1 s2
    (fun i hi => by
      simp only
      rw [Arr.put_get]
      by_cases c : i = 1
      · rw [if_pos c]
      · rw [if_neg c]; exact z1 i hi c)
    (fun i hi => by
      simp only
      rw [Arr.put_get]
      by_cases c : i = 1
      · rw [if_pos c, e2]; exact z2 _ (by omega)
      · rw [if_neg c]; exact z2 i hi)
  have l2 : Launch WarpLock none 4 p1 p2 :=
    ⟨[1, 0, 2, 3], by decide, .cons (zero512 (F := ℚ)) ((hrun _ _).2 ⟨rfl, rfl⟩)
      (by rw [Arr.write_nat, if_pos (by omega), e1]) (by rw [Arr.write_nat, if_pos (by omega)]) q1⟩
  obtain ⟨p3, r1, r2, r3, r4, r5⟩ := zero_blocks [0] (by decide) p2 q2 q3 q4 q5
  have l3 : Launch WarpLock none 1 p2 p3 := ⟨[0], List.Perm.refl _, r1⟩
  have hred : Reduce WarpLock (some res) 1024 (cleared 1024) p3 := by
    refine .more (by omega) hp1 ?_
    rw [hn2]
    refine .more (by omega) l2 ?_
    rw [hn3]
    exact .final (le_refl _) l3
  obtain ⟨k, hk, ek⟩ := r5 0 (by omega)
  have hv : ¬ (1 / 2 : ℚ) < p3.val.get 0 := by rw [r4 0 (by omega)]; norm_num
  refine .cycle (p := p3) (mf := (model, true)) (res' := res) (by omega) (by rw [hn]; exact hred) (by omega)
    ?_ ?_ (.limit (by omega))
  · rw [addComp_eq _ _ p3 (by omega) (by omega) k ek model (by rw [hm]; exact hk), if_neg fun x => hv x.1]
  · refine Finishes.of_yields (by decide) (yields_nothing _ _ _ fun t _ => ?_)
    have rv : p3.val.read 0 = some (p3.val.get 0) := by
      have := Arr.read_nat p3.val 0
      rw [if_pos (by omega)] at this
      exact this
    unfold subtractAt
    rw [rv]
    simp only [Prog.need]
    rw [if_neg hv]

/-! ## Without lockstep -/

theorem keeps_exec {α : Type} {Q : Nat → α → Prop} {n : Nat} (p : Prog α) (hp : p.Keeps Q n) (a : Arr α)
    (hn : a.size = n) (hq : ∀ i < n, Q i (a.get i)) :
    ∃ r, p.exec a = some r ∧ r.size = n ∧ ∀ i < n, Q i (r.get i) := by
  induction p generalizing a with
  | done => exact ⟨a, rfl, hn, hq⟩
  | fault => exact absurd hp id
  | read i k ih =>
    obtain ⟨h0, h1, h2⟩ := hp
    obtain ⟨j, rfl⟩ := Int.eq_ofNat_of_zero_le h0
    obtain ⟨r, e, h⟩ := ih (a.get j) (h2 _ (hq _ (by omega))) a hn hq
    refine ⟨r, ?_, h⟩
    simp only [Prog.exec]
    rw [Arr.read_nat, if_pos (by omega)]
    exact e
  | write i v k ih =>
    obtain ⟨h0, h1, h2, h3⟩ := hp
    obtain ⟨j, rfl⟩ := Int.eq_ofNat_of_zero_le h0
    obtain ⟨r, e, h⟩ := ih h3 (a.put j v) hn (fun i hi => by
      rw [Arr.put_get]
      by_cases c : i = j
      · rw [if_pos c, c]; exact h2
      · rw [if_neg c]; exact hq i hi)
    refine ⟨r, ?_, h⟩
    simp only [Prog.exec]
    rw [Arr.write_nat, if_pos (by omega)]
    exact e

/-- Values and indices in their places, and slot 0 holds value 0 and index 0. -/
def ZeroFirst (c : Nat) (x : Cell ℚ) : Prop :=
  (c = 0 → x = .inl 0) ∧ (c = 1 → x = .inr 0) ∧ if c % 2 = 0 then ∃ v, x = .inl v else ∃ j, x = .inr j

theorem takeIf_zero {s t : Nat} (h : t + s < 256) (ht : 0 < t) {k : Prog (Cell ℚ)}
    (hk : k.Keeps ZeroFirst 512) : (takeIf s t k).Keeps ZeroFirst 512 := by
  have ev : ∀ (a : Nat) (x : Cell ℚ), ZeroFirst ((2 * a : Nat) : Int).toNat x → ∃ u, x = .inl u := by
    intro a x hx
    have := hx.2.2
    rwa [if_pos (by rw [Int.toNat_natCast]; omega)] at this
  have od : ∀ (a : Nat) (x : Cell ℚ), ZeroFirst ((2 * a + 1 : Nat) : Int).toNat x → ∃ u, x = .inr u := by
    intro a x hx
    have := hx.2.2
    rwa [if_neg (by rw [Int.toNat_natCast]; omega)] at this
  unfold takeIf getVal
  refine ⟨by omega, by omega, fun v hv => ?_⟩
  obtain ⟨u, rfl⟩ := ev _ _ hv
  refine ⟨by omega, by omega, fun w hw => ?_⟩
  obtain ⟨u', rfl⟩ := ev _ _ hw
  simp only [Sum.elim_inl]
  by_cases c : u < u'
  · rw [if_pos c]
    refine ⟨by omega, by omega, fun w hw => ?_⟩
    obtain ⟨u2, rfl⟩ := ev _ _ hw
    simp only [Sum.elim_inl]
    refine ⟨by omega, by omega, ⟨fun h => ?_, fun h => ?_, ?_⟩, by omega, by omega, fun j hj => ?_⟩
    · rw [Int.toNat_natCast] at h; omega
    · rw [Int.toNat_natCast] at h; omega
    · rw [if_pos (by rw [Int.toNat_natCast]; omega)]
      exact ⟨u2, rfl⟩
    · obtain ⟨u3, rfl⟩ := od _ _ hj
      simp only [Sum.elim_inr]
      refine ⟨by omega, by omega, ⟨fun h => ?_, fun h => ?_, ?_⟩, hk⟩
      · rw [Int.toNat_natCast] at h; omega
      · rw [Int.toNat_natCast] at h; omega
      · rw [if_neg (by rw [Int.toNat_natCast]; omega)]
        exact ⟨u3, rfl⟩
  · rw [if_neg c]
    exact hk

/-- Image values of a block of which only element 3 is not zero. -/
def third (t : Nat) : ℚ := if t = 3 then 1 else 0

theorem third_le {s : Nat} (hs : 4 ≤ s) (t : Nat) : ¬ third t < third (t + s) := by
  unfold third
  rw [if_neg (by omega : ¬ t + s = 3)]
  by_cases c : t = 3
  · rw [if_pos c]; norm_num
  · rw [if_neg c]; norm_num

theorem takeV_third {w s : Nat} (hs : 4 ≤ s) : takeV w s third = third := by
  funext t
  unfold takeV
  rw [if_neg]
  rintro ⟨-, h⟩
  exact third_le hs t h

theorem takeJ_third {w s : Nat} (hs : 4 ≤ s) (J : Nat → Int) : takeJ w s third J = J := by
  funext t
  unfold takeJ
  rw [if_neg]
  rintro ⟨-, h⟩
  exact third_le hs t h

theorem keeps_warp (t : Nat) (ht : 0 < t) : (warp t : Prog (Cell ℚ)).Keeps ZeroFirst 512 := by
  unfold warp
  by_cases c : t < 16
  · rw [if_pos c]
    simp only [warpGo]
    exact takeIf_zero (by omega) ht (takeIf_zero (by omega) ht (takeIf_zero (by omega) ht
      (takeIf_zero (by omega) ht (takeIf_zero (by omega) ht trivial))))
  · rw [if_neg c]
    exact trivial

theorem keeps_loop (l : List Nat) (m : Arr (Cell ℚ)) (hl : ∀ t ∈ l, 0 < t) (h1 : m.size = 512)
    (h2 : ∀ i < 512, ZeroFirst i (m.get i)) :
    ∃ r, loop (fun m (t : Nat) => (warp t).exec m) m l = some r ∧ r.size = 512 ∧
      ∀ i < 512, ZeroFirst i (r.get i) := by
  induction l generalizing m with
  | nil => exact ⟨m, rfl, h1, h2⟩
  | cons t l ih =>
    obtain ⟨r, e, f1, f2⟩ := keeps_exec _ (keeps_warp t (hl t (by simp))) m h1 h2
    obtain ⟨r', g1, g2⟩ := ih r (fun t ht => hl t (by simp [ht])) f1 f2
    exact ⟨r', by simp only [loop]; rw [e]; exact g1, g2⟩

theorem finishes_first {α : Type} (n : Nat) (prog : Nat → Prog α) (a r : Arr α) (h0 : (prog 0).exec a = some a)
    (h : loop (fun m (t : Nat) => (prog t).exec m) a ((List.range n).map Nat.succ) = some r) :
    Finishes (n + 1) prog a r := by
  apply Finishes.serial
  rw [List.range_succ_eq_map]
  simp only [loop]
  rw [h0]
  exact h

/-- Thread 0 runs first and changes nothing. -/
theorem warp_first (J : Nat → Int) (m3 : Arr (Cell ℚ)) (i3 : Is m3 third J) : (warp 0).exec m3 = some m3 := by
  have one : ∀ (s : Nat) (k : Prog (Cell ℚ)), s < 256 → s ≠ 3 → (takeIf s 0 k).exec m3 = k.exec m3 := by
    intro s k hs hne
    unfold takeIf
    rw [getVal_exec i3 (by omega), getVal_exec i3 (by omega), if_neg]
    unfold third
    rw [if_neg (by omega), if_neg (by omega)]
    exact lt_irrefl _
  unfold warp
  rw [if_pos (by omega)]
  simp only [warpGo]
  rw [one _ _ (by omega) (by omega), one _ _ (by omega) (by omega), one _ _ (by omega) (by omega),
    one _ _ (by omega) (by omega), one _ _ (by omega) (by omega)]
  rfl

theorem zeroFirst_of (J : Nat → Int) (hJ : J 0 = 0) (m3 : Arr (Cell ℚ)) (i3 : Is m3 third J) :
    ∀ i < 512, ZeroFirst i (m3.get i) := by
  intro i hi
  refine ⟨fun h => ?_, fun h => ?_, ?_⟩
  · subst h
    have := i3.val 0 (by omega)
    simpa [third] using this
  · subst h
    have := i3.idx 0 (by omega)
    rw [hJ] at this
    simpa using this
  · rcases Nat.mod_two_eq_zero_or_one i with e | e
    · rw [if_pos e]
      exact ⟨_, by rw [show i = 2 * (i / 2) by omega]; exact i3.val _ (by omega)⟩
    · rw [if_neg (by omega)]
      exact ⟨_, by rw [show i = 2 * (i / 2) + 1 by omega]; exact i3.idx _ (by omega)⟩

theorem third_warp (J : Nat → Int) (hJ : J 0 = 0) (m3 : Arr (Cell ℚ)) (i3 : Is m3 third J) :
    ∃ m4, WarpAny m3 m4 ∧ m4.get 0 = .inl 0 ∧ m4.get 1 = .inr 0 := by
  obtain ⟨m4, e1, -, e3⟩ := keeps_loop ((List.range 255).map Nat.succ) m3
    (fun t ht => by obtain ⟨i, -, rfl⟩ := List.mem_map.1 ht; omega) i3.size (zeroFirst_of J hJ m3 i3)
  exact ⟨m4, finishes_first 255 warp m3 m4 (warp_first J m3 i3) e1, (e3 0 (by omega)).1 rfl, (e3 1 (by omega)).2.1 rfl⟩

theorem third_block (res : Arr ℚ) (hs : res.size = 16 * 16) (hr : res.get = third) :
    BlockRun WarpAny res none 0 ⟨512, fun _ => .inl 0⟩ 0 0 := by
  have hV : vAt res 0 = third := by funext t; simp [vAt, hr]
  have hin := input_first (res := res) (b := 0) (by rw [hs])
  obtain ⟨m3, i3, -, -, hb⟩ := block_start (last := WarpAny) hin (m := ⟨512, fun _ => .inl 0⟩) rfl
  rw [hV] at i3
  have hv3 : vBlock third = third := by
    unfold vBlock
    rw [takeV_third (by omega), takeV_third (by omega), takeV_third (by omega)]
  have hj3 : jBlock third (fun t => ((256 * 0 + t : Nat) : Int)) = fun t => ((256 * 0 + t : Nat) : Int) := by
    unfold jBlock
    rw [takeV_third (by omega), takeV_third (by omega), takeJ_third (by omega), takeJ_third (by omega),
      takeJ_third (by omega)]
  rw [hv3, hj3] at i3
  exact (hb 0 0).2 (third_warp _ (by simp) m3 i3)

/-- **C88 fails** where the lanes of a warp need not run in lockstep (independent thread scheduling).  A 16x16
image with one pixel of value 1: thread 0 can finish before the others start, and the search returns value 0,
so that the loop ends with the pixel above the threshold. -/
theorem C88_lockstep_false (psf model : Arr ℚ) (hm : model.size = 16 * 16) :
    ∃ res : Arr ℚ, res.size = 16 * 16 ∧ res.get 3 = 1 ∧
      GRun WarpAny psf 16 32 (1 / 2) (1 / 2) 1 0 ⟨res, model, false⟩ ⟨res, model, true⟩ := by
  have hs : (⟨16 * 16, third⟩ : Arr ℚ).size = 16 * 16 := rfl
  have h3 : (⟨16 * 16, third⟩ : Arr ℚ).get = third := rfl
  generalize (⟨16 * 16, third⟩ : Arr ℚ) = res at hs h3
  refine ⟨res, hs, by rw [h3]; rfl, ?_⟩
  have hn : blocks (16 * 16) 256 = 1 := by decide
  have hred : Reduce WarpAny (some res) 1 (cleared 1) ⟨(cleared 1).val.put 0 0, (cleared 1).idx.put 0 0⟩ :=
    .final (le_refl _) (launch_one.2 ⟨⟨512, fun _ => .inl 0⟩, 0, 0, rfl, third_block res hs h3, by simp [cleared],
      by simp [cleared], rfl⟩)
  refine .cycle (mf := (model, true)) (res' := res) (by omega) (by rw [hn]; exact hred) (by omega)
    ?_ ?_ (.limit (by omega))
  · rw [addComp_eq _ _ _ (by simp [cleared]) (by simp [cleared]) 0 (by rw [Arr.put_get, if_pos rfl]; rfl) model (by rw [hm]; omega),
      if_neg fun x => absurd x.1 (by simp only [Arr.put_get, if_true]; norm_num)]
  · refine Finishes.of_yields (by decide) (yields_nothing _ _ _ fun t _ => ?_)
    have rv : ((cleared 1 : Peaks ℚ).val.put 0 0).read 0 = some 0 := by
      have := Arr.read_nat ((cleared 1 : Peaks ℚ).val.put 0 0) 0
      rw [if_pos (by simp [cleared])] at this
      rw [Arr.put_get, if_pos rfl] at this
      exact this
    unfold subtractAt
    simp only
    rw [rv]
    simp only [Prog.need]
    rw [if_neg (by norm_num)]

/-! ## Old contents of the model -/

/-- PSF of side 32 with one pixel. -/
def deltaPsf : Arr ℚ := ⟨(2 * 16) * (2 * 16), fun i => if i = 2 * 16 * 16 + 16 then 1 else 0⟩

/-- Outputs of side 16; the model array holds a component at pixel 0. -/
def onesOut : Out ℚ := ⟨⟨16 * 16, fun p => if p = 0 then 1 else 0⟩, ⟨16 * 16, fun _ => 0⟩, ⟨16 * 16, fun _ => 0⟩⟩

theorem onesGood (dirty : Arr ℚ) (h : dirty.size = 16 * 16) : GoodGpu idConv dirty deltaPsf 16 onesOut :=
  ⟨h, rfl, rfl, rfl, rfl, fun c hc => ⟨c, rfl, hc⟩⟩

/-- **C88 fails** on an array that is not zero: the components are added to what the model array held (on the
CPU they replace it).  The dirty image is zero, and residual plus convolved model is not. -/
theorem C88_model_false : ∃ o', CleanGpu WarpLock idConv ⟨16 * 16, fun _ => 0⟩ deltaPsf 16 32 (1 / 2) (1 / 2) 1 onesOut o' ∧
    o'.res.get 0 + modelAt deltaPsf.get o'.model.get 16 0 0 ≠ 0 := by
  have g := onesGood ⟨16 * 16, fun _ => 0⟩ rfl
  obtain ⟨o', ho'⟩ := (C88_clean_partial (Or.inl rfl) g (1 / 2) (1 / 2) 1).1
  refine ⟨o', ho', ?_⟩
  have := C88_flux_partial (Or.inl rfl) g (1 / 2) (1 / 2) 1 ho' 0 (by omega) 0 (by omega)
  simp only [Nat.mul_zero, Nat.add_zero] at this
  rw [this, modelAt_add deltaPsf.get (fun _ => 0) 16 0 0 0 1 (by omega) _ (fun p _ => by simp [onesOut])]
  simp [modelAt, psfAt, deltaPsf]

/-- The hypotheses are met, and a cycle does take place: a dirty image with one pixel of value 8. -/
example : ∃ o', CleanGpu WarpLock idConv ⟨16 * 16, fun i => if i = 5 then 8 else 0⟩ deltaPsf 16 32 (1 / 2) 1 1 onesOut o' ∧
    PeakMinors deltaPsf.get 16 (1 / 2) 1 1 (fun i => if i = 5 then 8 else 0) onesOut.model.get o'.res.get o'.model.get := by
  have g := onesGood ⟨16 * 16, fun i => if i = 5 then 8 else 0⟩ rfl
  obtain ⟨⟨o', ho'⟩, hall⟩ := C88_clean_partial (Or.inl rfl) g (1 / 2) 1 1
  obtain ⟨k, -, -, h1, h2, h3, -⟩ := hall o' ho'
  refine ⟨o', ho', ?_⟩
  have hk : k = 1 := by
    by_contra hne
    have hk0 : k = 0 := by omega
    subst hk0
    cases h2 with
    | nil hr hc =>
      have a := h3 (by omega) 5 (by omega)
      rw [hr 5 (by omega)] at a
      norm_num at a
  subst hk
  exact h2

end Sdp.Hogbom
