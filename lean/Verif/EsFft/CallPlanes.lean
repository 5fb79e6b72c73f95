import Verif.EsFft.CallProps

/-!
# C101: one plane of the ES gridder
-/

set_option linter.unusedSectionVars false

namespace Sdp.EsFft
open Finset Race
noncomputable section

theorem fft_at (sg : ℝ) (n : Nat) (g : Arr (ℝ × ℝ)) (X Y : Nat) (hY : Y < n) :
    toC ((fft sg n g).get (n * X + Y)) = ∑ x ∈ range n, ∑ y ∈ range n, toC (g.get (n * x + y)) *
      Complex.exp (sg * ((2 * Real.pi * ((x : ℝ) * X + y * Y) / n : ℝ) : ℂ) * Complex.I) := by
  have h1 : (n * X + Y) / n = X := by
    rw [Nat.mul_add_div (by omega), Nat.div_eq_of_lt hY, Nat.add_zero]
  have h2 : (n * X + Y) % n = Y := by
    rw [Nat.mul_add_mod, Nat.mod_eq_of_lt hY]
  unfold fft
  simp only [toC_ofC]
  rw [h1, h2]

theorem swap4 (a b c d : Nat) (f : Nat → Nat → Nat → Nat → ℂ) :
    ∑ i ∈ range a, ∑ j ∈ range b, ∑ k ∈ range c, ∑ l ∈ range d, f i j k l =
      ∑ k ∈ range c, ∑ l ∈ range d, ∑ i ∈ range a, ∑ j ∈ range b, f i j k l := by
  have h1 : ∀ i, ∑ j ∈ range b, ∑ k ∈ range c, ∑ l ∈ range d, f i j k l =
      ∑ k ∈ range c, ∑ l ∈ range d, ∑ j ∈ range b, f i j k l := by
    intro i
    rw [sum_comm]
    exact sum_congr rfl fun k _ => sum_comm
  simp only [h1]
  rw [sum_comm]
  exact sum_congr rfl fun k _ => sum_comm

/-- What plane `b` adds to a pixel. -/
theorem plane_pixel (P : Plan) (d : Data) (h : P.Ready d) (b : Nat) (g : Arr (ℝ × ℝ))
    (hg : ∀ x y, x < P.grid → y < P.grid → toC (g.get (P.grid * x + y)) = P.onGrid d b x y) {row col : Nat}
    (hr : row < P.even) (hc : col < P.even) :
    (sgn (offset P.image row col) : ℝ) * ∑ p ∈ range 1, reMul ((fft 1 P.grid g).get
        (P.grid * P.grid * p + gridCell P.grid (offset P.image row col)))
      (P.screen (-1) b (offset P.image row col).2.natAbs (offset P.image row col).1.natAbs) =
    ∑ r ∈ range P.rows, ∑ c ∈ range P.chans, d.weight.get (P.chans * r + c) *
      (P.mirror d r (P.visAt d.vis r c) * P.part d r c row col b).re := by
  have hl := h.larger
  have hr' := hr
  have hc' := hc
  unfold Plan.even at hr' hc' hl
  rw [sum_range_one, reMul_toC, ← Complex.re_ofReal_mul, Nat.mul_zero, Nat.zero_add, cell_off P d h hr hc,
    fft_at _ _ _ _ _ (by omega)]
  have hs : toC (P.screen (-1) b (offset P.image row col).2.natAbs (offset P.image row col).1.natAbs) = P.layer b row col :=
    screen_eq P b row col fun hw => n_pos P d h hr hc hw
  rw [hs]
  have hR : (∑ r ∈ range P.rows, ∑ c ∈ range P.chans, d.weight.get (P.chans * r + c) *
      (P.mirror d r (P.visAt d.vis r c) * P.part d r c row col b).re) =
      (∑ r ∈ range P.rows, ∑ c ∈ range P.chans, (d.weight.get (P.chans * r + c) : ℂ) *
        (P.mirror d r (P.visAt d.vis r c) * P.part d r c row col b)).re := by
    rw [Complex.re_sum]
    refine sum_congr rfl fun r _ => ?_
    rw [Complex.re_sum]
    exact sum_congr rfl fun c _ => (Complex.re_ofReal_mul _ _).symm
  rw [hR]
  congr 1
  rw [sum_mul, mul_sum]
  have lhs : ∀ x ∈ range P.grid, (sgn (offset P.image row col) : ℝ) * ((∑ y ∈ range P.grid, toC (g.get (P.grid * x + y)) *
      Complex.exp (((1 : ℝ) : ℂ) * ((2 * Real.pi * ((x : ℝ) * (P.grid / 2 - P.image / 2 + row : Nat) +
        y * (P.grid / 2 - P.image / 2 + col : Nat)) / (P.grid : ℝ) : ℝ) : ℂ) * Complex.I)) * P.layer b row col) =
      ∑ y ∈ range P.grid, ∑ r ∈ range P.rows, ∑ c ∈ range P.chans, (P.three d r c b x y * d.weight.get (P.chans * r + c) : ℝ) *
        P.mirror d r (P.visAt d.vis r c) *
        Complex.exp (2 * Real.pi * (P.gridOff x * P.off row + P.gridOff y * P.off col) / P.grid * Complex.I) *
          P.layer b row col := by
    intro x hx
    rw [sum_mul, mul_sum]
    refine sum_congr rfl fun y hy => ?_
    rw [hg x y (mem_range.1 hx) (mem_range.1 hy), ← sign_phase P d h hr hc x y]
    unfold Plan.onGrid
    generalize Complex.exp _ = E
    have : ∀ (s t S L : ℂ), t * (s * S * E * L) = S * (s * t * E * L) := by intro s t S L; ring
    rw [this, sum_mul]
    refine sum_congr rfl fun r _ => ?_
    rw [sum_mul]
    refine sum_congr rfl fun c _ => ?_
    ring
  rw [sum_congr rfl lhs, swap4]
  refine sum_congr rfl fun r _ => sum_congr rfl fun c _ => ?_
  unfold Plan.part
  rw [mul_sum, mul_sum]
  refine sum_congr rfl fun x _ => ?_
  rw [mul_sum, mul_sum]
  refine sum_congr rfl fun y _ => ?_
  push_cast
  ring

/-- The launches of the image kernels for a plan's own image. -/
theorem imageRun_ok {α : Type} (npix : Nat) (h0 : 0 < npix) (body : Arr α → Nat × Nat → Option (Arr α)) (s : Arr α)
    (hid : ∀ g ij, ¬ (ij.1 ≤ npix / 2 ∧ ij.2 ≤ npix / 2) → body g ij = some g) :
    (∀ o, ImageRun npix body s o → ∃ order, order.Perm (nest2 (npix / 2 + 1) (npix / 2 + 1)) ∧ o = loop body s order) ∧
    ∃ o, ImageRun npix body s o := by
  have ht : 0 < imageThreads npix := by unfold imageThreads; omega
  unfold ImageRun imageLaunch
  rw [if_neg (by omega)]
  have hle := le_blocks (npix / 2 + 1) (imageThreads npix) ht
  refine ⟨?_, ⟨_, _, List.Perm.refl _, rfl⟩⟩
  rintro o ⟨order, ho, rfl⟩
  refine ⟨_, launch2 hle hle ho, ?_⟩
  rw [← loop_filter]
  apply loop_congr
  intro ij _ g
  by_cases hij : ij.1 < npix / 2 + 1 ∧ ij.2 < npix / 2 + 1
  · rw [if_pos (by simpa using hij)]
  · rw [if_neg (by simpa using hij)]
    exact hid g ij (by omega)

/-- A step with one good outcome for each of its executions, followed by another. -/
theorem then_ok {α β : Type} {R : Option α → Prop} {k : α → Option β → Prop} {Q : α → Prop} {S : β → Prop}
    (h1 : (∀ o, R o → ∃ a, o = some a ∧ Q a) ∧ ∃ o, R o)
    (h2 : ∀ a, Q a → (∀ o, k a o → ∃ b, o = some b ∧ S b) ∧ ∃ o, k a o) :
    (∀ o, Then R k o → ∃ b, o = some b ∧ S b) ∧ ∃ o, Then R k o := by
  constructor
  · rintro o (⟨h, -⟩ | ⟨a, h, hk⟩)
    · obtain ⟨a, ha, -⟩ := h1.1 _ h
      cases ha
    · obtain ⟨a', ha, hq⟩ := h1.1 _ h
      cases ha
      exact (h2 a hq).1 o hk
  · obtain ⟨o, ho⟩ := h1.2
    obtain ⟨a, rfl, hq⟩ := h1.1 o ho
    obtain ⟨o', ho'⟩ := (h2 a hq).2
    exact ⟨o', Or.inr ⟨a, ho, ho'⟩⟩

theorem just_ok {β : Type} {S : β → Prop} {b : β} (h : S b) :
    (∀ o, o = some b → ∃ b, o = some b ∧ S b) ∧ ∃ o, o = some b :=
  ⟨fun o ho => ⟨b, ho, h⟩, _, rfl⟩

/-- A loop keeps an invariant if every step does. -/
theorem steps_ok {α : Type} (R : Nat → α → Option α → Prop) (Inv : Nat → α → Prop) (n : Nat)
    (hstep : ∀ b, b < n → ∀ s, Inv b s → (∀ o, R b s o → ∃ s', o = some s' ∧ Inv (b + 1) s') ∧ ∃ o, R b s o) (s : α)
    (h0 : Inv 0 s) :
    (∀ o, Steps R (List.range n) s o → ∃ s', o = some s' ∧ Inv n s') ∧ ∃ o, Steps R (List.range n) s o := by
  have gen : ∀ m k s, k + m = n → Inv k s → (∀ o, Steps R (List.range' k m) s o → ∃ s', o = some s' ∧ Inv n s') ∧
      ∃ o, Steps R (List.range' k m) s o := by
    intro m
    induction m with
    | zero =>
      intro k s hk hi
      have : k = n := by omega
      subst this
      exact just_ok (S := fun s => Inv k s) hi
    | succ m ih =>
      intro k s hk hi
      rw [List.range'_succ]
      exact then_ok (hstep k (by omega) s hi) fun s' hs' => ih (k + 1) s' (by omega) hs'
  rw [List.range_eq_range']
  exact gen n 0 s (by omega) h0

/-- **One plane when gridding.** -/
theorem gridPlane_ok (P : Plan) (d : Data) (h : P.Ready d) (b : Nat) (img : Arr ℝ) (hi : img.size = P.image * P.image) :
    (∀ o, gridPlane P P.image true d b (.success, img) o → ∃ s, o = some s ∧ s.1 = .success ∧ s.2.size = P.image * P.image ∧
      (∀ row col, row < P.even → col < P.even → P.pix s.2 row col = P.pix img row col +
        ∑ r ∈ range P.rows, ∑ c ∈ range P.chans, d.weight.get (P.chans * r + c) *
          (P.mirror d r (P.visAt d.vis r c) * P.part d r c row col b).re) ∧
      (∀ row col, row < P.image → col < P.image → ¬ (row < P.even ∧ col < P.even) → P.pix s.2 row col = P.pix img row col)) ∧
    ∃ o, gridPlane P P.image true d b (.success, img) o := by
  have ht : imageThreads P.image ≠ 0 := by have := h.image; unfold imageThreads; omega
  have e : gridPlane P P.image true d b (.success, img) = Then (GridRun (P.kargs b) d P.clear) (fun g =>
    Then (ImageRun P.image (sumThread P.image P.grid 1 (fft 1 P.grid g) fun _ => P.screen (-1) b) img) fun img o =>
      o = some (.success, img)) := by
    have hrc : ¬ (P.rows = 0 ∨ P.chans = 0) := by
      have := h.rows
      have := h.chans
      omega
    funext o
    unfold gridPlane
    rw [if_neg (by simp), if_neg ht, if_neg (by simp), if_neg hrc]
  rw [e]
  refine then_ok (gridRun_ok P d h b) fun g hg => ?_
  obtain ⟨hsz, hgv⟩ := hg
  obtain ⟨i1, i2⟩ := imageRun_ok P.image h.image (sumThread P.image P.grid 1 (fft 1 P.grid g) fun _ => P.screen (-1) b) img
    (fun g ij hij => by unfold sumThread; rw [if_neg hij])
  refine then_ok (Q := fun r => r.size = P.image * P.image ∧
      (∀ row col, row < P.even → col < P.even → P.pix r row col = P.pix img row col +
        ∑ r ∈ range P.rows, ∑ c ∈ range P.chans, d.weight.get (P.chans * r + c) *
          (P.mirror d r (P.visAt d.vis r c) * P.part d r c row col b).re) ∧
      (∀ row col, row < P.image → col < P.image → ¬ (row < P.even ∧ col < P.even) → P.pix r row col = P.pix img row col))
    ⟨fun o ho => ?_, i2⟩ fun r hr => just_ok ⟨rfl, hr⟩
  obtain ⟨order, hp, rfl⟩ := i1 o ho
  obtain ⟨r, r1, r2, r3, r4⟩ := C73_sum P.image P.grid 1 (fft 1 P.grid g) (fun _ => P.screen (-1) b)
    (by have := h.larger; unfold Plan.even at this; omega) (by rw [one_mul]; exact hsz) img hi order hp
  refine ⟨r, r1, r2.trans hi, fun row col hr hc => ?_, r4⟩
  have := r3 row col hr hc
  rw [plane_pixel P d h b g hgv hr hc] at this
  exact this

/-- **Correction of the image.** -/
theorem scalePart_ok (P : Plan) (d : Data) (h : P.Ready d) (img : Arr ℝ) (hi : img.size = P.image * P.image) :
    (∀ o, scalePart P P.image true (.success, img) o → ∃ s, o = some s ∧ s.1 = .success ∧ s.2.size = P.image * P.image ∧
      (∀ row col, row < P.even → col < P.even → P.corr row col * P.pix s.2 row col = P.pix img row col) ∧
      (∀ row col, row < P.image → col < P.image → ¬ (row < P.even ∧ col < P.even) → P.pix s.2 row col = P.pix img row col)) ∧
    ∃ o, scalePart P P.image true (.success, img) o := by
  have ht : imageThreads P.image ≠ 0 := by have := h.image; unfold imageThreads; omega
  have e : scalePart P P.image true (.success, img) = Then (ImageRun P.image (scaleThread P.image P.kern P.nConv) img)
      (fun img o => o = some (.success, img)) := by
    funext o
    unfold scalePart
    rw [if_neg ht, if_neg (by simp), if_neg (by simp)]
  rw [e]
  obtain ⟨i1, i2⟩ := imageRun_ok P.image h.image (scaleThread P.image P.kern P.nConv) img
    (fun g ij hij => by unfold scaleThread; rw [if_neg hij])
  refine then_ok (Q := fun r => r.size = P.image * P.image ∧
      (∀ row col, row < P.even → col < P.even → P.corr row col * P.pix r row col = P.pix img row col) ∧
      (∀ row col, row < P.image → col < P.image → ¬ (row < P.even ∧ col < P.even) → P.pix r row col = P.pix img row col))
    ⟨fun o ho => ?_, i2⟩ fun r hr => just_ok ⟨rfl, hr⟩
  obtain ⟨order, hp, rfl⟩ := i1 o ho
  obtain ⟨r, r1, r2, r3, r4⟩ := C73_scale P.image P.kern h.kern P.nConv img hi order hp
  refine ⟨r, r1, r2.trans hi, fun row col hr hc => ?_, r4⟩
  have h1 := r3 row col hr hc
  have hcorr := h.corr row col hr hc
  have e : P.corr row col = P.kern.get (offset P.image row col).2.natAbs * P.kern.get (offset P.image row col).1.natAbs *
      P.nConv (offset P.image row col).2.natAbs (offset P.image row col).1.natAbs := by
    unfold Plan.corr offset
    ring
  rw [← e] at h1
  unfold Plan.pix
  rw [h1, mul_comm, div_mul_cancel₀ _ hcorr]

end
end Sdp.EsFft
