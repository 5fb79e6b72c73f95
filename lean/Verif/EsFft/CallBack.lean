import Verif.EsFft.CallPlanes

/-!
# C101: one plane when degridding
-/

set_option linter.unusedSectionVars false

namespace Sdp.EsFft
open Finset Race
noncomputable section

theorem sum_window (n s e : Nat) (hse : s + e ≤ n) (f : Nat → ℂ) (h : ∀ X, X < n → ¬ (s ≤ X ∧ X < s + e) → f X = 0) :
    ∑ X ∈ range n, f X = ∑ k ∈ range e, f (s + k) := by
  have h1 : ∑ X ∈ Ico s (s + e), f X = ∑ X ∈ range n, f X := by
    apply sum_subset
    · intro X hX
      rw [mem_Ico] at hX
      rw [mem_range]
      omega
    · intro X hX hn
      rw [mem_range] at hX
      rw [mem_Ico] at hn
      exact h X hX hn
  rw [← h1, sum_Ico_eq_sum_range]
  congr 2
  omega

theorem sum_window2 (n s e : Nat) (hse : s + e ≤ n) (f : Nat → Nat → ℂ)
    (h : ∀ X Y, X < n → Y < n → ¬ (s ≤ X ∧ X < s + e ∧ s ≤ Y ∧ Y < s + e) → f X Y = 0) :
    ∑ X ∈ range n, ∑ Y ∈ range n, f X Y = ∑ k ∈ range e, ∑ l ∈ range e, f (s + k) (s + l) := by
  rw [sum_window n s e hse]
  · refine sum_congr rfl fun k hk => ?_
    rw [mem_range] at hk
    exact sum_window n s e hse _ fun Y hY hn => h _ Y (by omega) hY (by omega)
  · intro X hX hn
    refine sum_eq_zero fun Y hY => ?_
    exact h X Y hX (mem_range.1 hY) (by omega)

/-- The plane spread from a corrected image: at the grid point of each pixel, its value, sign and layer. -/
structure Plan.Spread (P : Plan) (img : Arr ℝ) (b : Nat) (g : Arr (ℝ × ℝ)) : Prop where
  size : g.size = P.grid * P.grid
  inside : ∀ row col, row < P.even → col < P.even →
    toC (g.get (P.grid * (P.grid / 2 - P.image / 2 + row) + (P.grid / 2 - P.image / 2 + col))) =
      ((sgn (offset P.image row col) : ℝ) : ℂ) * P.pix img row col * (starRingEnd ℂ) (P.layer b row col)
  outside : ∀ X Y, X < P.grid → Y < P.grid → ¬ (P.grid / 2 - P.image / 2 ≤ X ∧ X < P.grid / 2 - P.image / 2 + P.even ∧
    P.grid / 2 - P.image / 2 ≤ Y ∧ Y < P.grid / 2 - P.image / 2 + P.even) → toC (g.get (P.grid * X + Y)) = 0

theorem reverse_ok (P : Plan) (d : Data) (h : P.Ready d) (img : Arr ℝ) (hi : img.size = P.image * P.image) (b : Nat) :
    (∀ o, ImageRun P.image (reverseThread P.image P.grid 1 img fun _ => P.screen 1 b) P.clear o →
      ∃ g, o = some g ∧ P.Spread img b g) ∧
    ∃ o, ImageRun P.image (reverseThread P.image P.grid 1 img fun _ => P.screen 1 b) P.clear o := by
  obtain ⟨i1, i2⟩ := imageRun_ok P.image h.image (reverseThread P.image P.grid 1 img fun _ => P.screen 1 b) P.clear
    (fun g ij hij => by unfold reverseThread; rw [if_neg hij])
  refine ⟨fun o ho => ?_, i2⟩
  obtain ⟨order, hp, rfl⟩ := i1 o ho
  have hl := h.larger
  obtain ⟨r, r1, r2, r3, r4⟩ := C73_reverse P.image P.grid 1 h.image img hi (fun _ => P.screen 1 b)
    (by unfold Plan.even at hl; omega) P.clear (by rw [one_mul]; rfl) order hp
  refine ⟨r, r1, r2, fun row col hr hc => ?_, fun X Y hX hY hn => ?_⟩
  · have := r3 0 row col Nat.one_pos hr hc
    rw [Nat.mul_zero, Nat.zero_add, cell_off P d h hr hc] at this
    rw [this, toC_smul, screen_conj]
    have hs : toC (P.screen (-1) b (offset P.image row col).2.natAbs (offset P.image row col).1.natAbs) = P.layer b row col :=
      screen_eq P b row col fun hw => n_pos P d h hr hc hw
    rw [hs]
    unfold Plan.pix
    push_cast
    rfl
  · rw [r4]
    · rfl
    · intro p row col hp' hr hc e
      have hp0 : p = 0 := by omega
      subst hp0
      rw [Nat.mul_zero, Nat.zero_add, cell_off P d h hr hc] at e
      have hr' := hr
      have hc' := hc
      unfold Plan.even at hr' hc' hl
      obtain ⟨e1, e2⟩ := flat_inj hY (by omega) e
      apply hn
      unfold Plan.even
      omega

/-- What plane `b` adds to a visibility. -/
theorem predicted_eq (P : Plan) (d : Data) (h : P.Ready d) (img : Arr ℝ) (b : Nat) (g : Arr (ℝ × ℝ)) (hg : P.Spread img b g)
    (r c : Nat) :
    toC (predicted (P.kargs b) d.uvw d.freq (fft (-1) P.grid g) r c) = P.mirror d r
      (∑ row ∈ range P.even, ∑ col ∈ range P.even, (P.pix img row col : ℂ) * (starRingEnd ℂ) (P.part d r c row col b)) := by
  have hl := h.larger
  unfold predicted
  rw [flip_eq]
  congr 1
  have e0 : (∑ k ∈ range (P.kargs b).numW, ∑ x ∈ range (P.kargs b).gridSize, ∑ y ∈ range (P.kargs b).gridSize,
      weightAt (P.kargs b) (posOf (P.kargs b) d.uvw d.freq r c) (signed (P.kargs b) k x y).1 (signed (P.kargs b) k x y).2.1
        (signed (P.kargs b) k x y).2.2 • (fft (-1) P.grid g).get (flatCell (P.kargs b) k x y)) =
      ∑ x ∈ range P.grid, ∑ y ∈ range P.grid,
        weightAt (P.kargs b) (posOf (P.kargs b) d.uvw d.freq r c) (signed (P.kargs b) 0 x y).1 (signed (P.kargs b) 0 x y).2.1
          (signed (P.kargs b) 0 x y).2.2 • (fft (-1) P.grid g).get (flatCell (P.kargs b) 0 x y) := sum_range_one _
  rw [e0, toC_sum]
  have lhs : ∀ x ∈ range P.grid, toC (∑ y ∈ range P.grid, weightAt (P.kargs b) (posOf (P.kargs b) d.uvw d.freq r c)
      (signed (P.kargs b) 0 x y).1 (signed (P.kargs b) 0 x y).2.1 (signed (P.kargs b) 0 x y).2.2 •
        (fft (-1) P.grid g).get (flatCell (P.kargs b) 0 x y)) =
      ∑ y ∈ range P.grid, ∑ row ∈ range P.even, ∑ col ∈ range P.even, (P.three d r c b x y : ℂ) * P.pix img row col *
        (starRingEnd ℂ) (P.layer b row col) * (starRingEnd ℂ)
          (Complex.exp (2 * Real.pi * (P.gridOff x * P.off row + P.gridOff y * P.off col) / P.grid * Complex.I)) := by
    intro x _
    rw [toC_sum]
    refine sum_congr rfl fun y hy => ?_
    rw [toC_smul, weight_eq, flat0, fft_at _ _ _ _ _ (mem_range.1 hy),
      sum_window2 P.grid (P.grid / 2 - P.image / 2) P.even (by unfold Plan.even at *; omega) _ (fun X Y hX hY hn => by
        rw [hg.outside X Y hX hY hn, zero_mul]), mul_sum]
    refine sum_congr rfl fun row hr => ?_
    rw [mul_sum]
    refine sum_congr rfl fun col hc => ?_
    rw [mem_range] at hr hc
    rw [hg.inside row col hr hc, ← sign_phase P d h hr hc x y, map_mul, map_mul, Complex.conj_ofReal, Complex.conj_ofReal,
      ← Complex.exp_conj, map_mul, map_mul, Complex.conj_ofReal, Complex.conj_ofReal, Complex.conj_I]
    have ex : (((-1 : ℝ) : ℂ) * ((2 * Real.pi * (((P.grid / 2 - P.image / 2 + row : Nat) : ℝ) * x +
        ((P.grid / 2 - P.image / 2 + col : Nat) : ℝ) * y) / (P.grid : ℝ) : ℝ) : ℂ) * Complex.I : ℂ) =
        ((1 : ℝ) : ℂ) * ((2 * Real.pi * ((x : ℝ) * (P.grid / 2 - P.image / 2 + row : Nat) +
        y * (P.grid / 2 - P.image / 2 + col : Nat)) / (P.grid : ℝ) : ℝ) : ℂ) * -Complex.I := by
      push_cast
      ring
    rw [ex]
    generalize Complex.exp _ = E
    push_cast
    ring
  rw [sum_congr rfl lhs, swap4]
  refine sum_congr rfl fun row _ => sum_congr rfl fun col _ => ?_
  unfold Plan.part
  rw [map_sum, mul_sum]
  refine sum_congr rfl fun x _ => ?_
  rw [map_sum, mul_sum]
  refine sum_congr rfl fun y _ => ?_
  rw [map_mul, map_mul, Complex.conj_ofReal]
  ring

theorem degrid_threads (P : Plan) (d : Data) (h : P.Ready d) (b : Nat) (g vis : Arr (ℝ × ℝ)) (hg : g.size = P.grid * P.grid)
    (hv : vis.size = P.rows * P.chans) :
    (∀ o, Threads (degridGuard (P.kargs b) d g) (blocks P.rows 256 * 256) (blocks P.chans 1 * 1) vis o →
      ∃ v, o = some v ∧ v.size = P.rows * P.chans ∧ ∀ r c, r < P.rows → c < P.chans →
        v.get (P.chans * r + c) = vis.get (P.chans * r + c) + predicted (P.kargs b) d.uvw d.freq g r c) ∧
    ∃ o, Threads (degridGuard (P.kargs b) d g) (blocks P.rows 256 * 256) (blocks P.chans 1 * 1) vis o := by
  refine ⟨?_, ⟨_, _, List.Perm.refl _, rfl⟩⟩
  rintro o ⟨order, ho, rfl⟩
  have hp := launch2 (le_blocks P.rows 256 (by omega)) (le_blocks P.chans 1 (by omega)) ho
  obtain ⟨v, v1, v2, v3⟩ := C72_degrid_partial (P.kargs b) d.uvw d.freq vis g (launch_ok P d h b vis g hv hg) _ hp
  refine ⟨v, ?_, v2.trans hv, v3⟩
  rw [← v1, ← loop_filter]
  apply loop_congr
  intro rc _ s
  unfold degridGuard
  show (if rc.1 < P.rows ∧ rc.2 < P.chans then _ else _) = _
  by_cases hrc : rc.1 < P.rows ∧ rc.2 < P.chans
  · rw [if_pos hrc, if_pos (by simpa using hrc)]
  · rw [if_neg hrc, if_neg (by simpa using hrc)]

/-- **One plane when degridding.** -/
theorem degridPlane_ok (P : Plan) (d : Data) (h : P.Ready d) (b : Nat) (img : Arr ℝ) (hi : img.size = P.image * P.image)
    (vis : Arr (ℝ × ℝ)) (hv : vis.size = P.rows * P.chans) :
    (∀ o, degridPlane P P.image true d img b (.success, vis) o → ∃ s, o = some s ∧ s.1 = .success ∧
      s.2.size = P.rows * P.chans ∧ ∀ r c, r < P.rows → c < P.chans → P.visAt s.2 r c = P.visAt vis r c + P.mirror d r
        (∑ row ∈ range P.even, ∑ col ∈ range P.even, (P.pix img row col : ℂ) * (starRingEnd ℂ) (P.part d r c row col b))) ∧
    ∃ o, degridPlane P P.image true d img b (.success, vis) o := by
  have ht : imageThreads P.image ≠ 0 := by have := h.image; unfold imageThreads; omega
  have hrc : ¬ (P.rows = 0 ∨ P.chans = 0) := by
    have := h.rows
    have := h.chans
    omega
  have e : degridPlane P P.image true d img b (.success, vis) =
      Then (ImageRun P.image (reverseThread P.image P.grid 1 img fun _ => P.screen 1 b) P.clear) (fun g =>
        Then (Threads (degridGuard (P.kargs b) d (fft (-1) P.grid g)) (blocks P.rows 256 * 256) (blocks P.chans 1 * 1) vis)
          (fun vis o => o = some (.success, vis))) := by
    funext o
    unfold degridPlane
    rw [if_neg (by simp), if_neg ht, if_neg (by simp)]
    simp only [if_neg hrc]
  rw [e]
  refine then_ok (reverse_ok P d h img hi b) fun g hg => ?_
  refine then_ok (degrid_threads P d h b (fft (-1) P.grid g) vis hg.size hv) fun v hv' => just_ok ⟨rfl, hv'.1, ?_⟩
  intro r c hr hc
  unfold Plan.visAt
  rw [hv'.2 r c hr hc, toC_add, predicted_eq P d h img b g hg r c]

end
end Sdp.EsFft
