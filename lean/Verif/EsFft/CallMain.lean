import Verif.EsFft.CallBack

/-!
# C101: what whole calls of the ES gridder compute
-/

set_option linter.unusedSectionVars false

namespace Sdp.EsFft
open Finset Race
noncomputable section

/-- What a gridding call leaves in the image: times its correction every pixel is the old pixel and the sum over the
visibilities of weight times real part of visibility times `wave`; a last row and column of an odd image stay. -/
structure Plan.Gridded (P : Plan) (d : Data) (out : Arr ℝ) : Prop where
  size : out.size = P.image * P.image
  pixel : ∀ row col, row < P.even → col < P.even → P.corr row col * P.pix out row col = P.pix d.img row col +
    ∑ r ∈ range P.rows, ∑ c ∈ range P.chans, d.weight.get (P.chans * r + c) *
      (P.mirror d r (P.visAt d.vis r c) * P.wave d r c row col).re
  rest : ∀ row col, row < P.image → col < P.image → ¬ (row < P.even ∧ col < P.even) → P.pix out row col = P.pix d.img row col

/-- What a degridding call leaves: the image divided by its correction, and every visibility with the sum over the pixels of
this image times the conjugate of `wave` added. -/
structure Plan.Degridded (P : Plan) (d : Data) (img : Arr ℝ) (out : Arr (ℝ × ℝ)) : Prop where
  isize : img.size = P.image * P.image
  pixel : ∀ row col, row < P.even → col < P.even → P.corr row col * P.pix img row col = P.pix d.img row col
  rest : ∀ row col, row < P.image → col < P.image → ¬ (row < P.even ∧ col < P.even) → P.pix img row col = P.pix d.img row col
  vsize : out.size = P.rows * P.chans
  vis : ∀ r c, r < P.rows → c < P.chans → P.visAt out r c = P.visAt d.vis r c + P.mirror d r
    (∑ row ∈ range P.even, ∑ col ∈ range P.even, (P.pix img row col : ℂ) * (starRingEnd ℂ) (P.wave d r c row col))

theorem planes_grid (P : Plan) (d : Data) (h : P.Ready d) :
    (∀ o, Steps (gridPlane P P.image true d) (List.range P.planes) (.success, d.img) o → ∃ s, o = some s ∧
      (s.1 = .success ∧ s.2.size = P.image * P.image ∧
      (∀ row col, row < P.even → col < P.even → P.pix s.2 row col = P.pix d.img row col +
        ∑ r ∈ range P.rows, ∑ c ∈ range P.chans, d.weight.get (P.chans * r + c) *
          (P.mirror d r (P.visAt d.vis r c) * P.wave d r c row col).re) ∧
      (∀ row col, row < P.image → col < P.image → ¬ (row < P.even ∧ col < P.even) →
        P.pix s.2 row col = P.pix d.img row col))) ∧
    ∃ o, Steps (gridPlane P P.image true d) (List.range P.planes) (.success, d.img) o := by
  refine steps_ok (gridPlane P P.image true d) (fun n s => s.1 = .success ∧ s.2.size = P.image * P.image ∧
    (∀ row col, row < P.even → col < P.even → P.pix s.2 row col = P.pix d.img row col +
      ∑ r ∈ range P.rows, ∑ c ∈ range P.chans, d.weight.get (P.chans * r + c) *
        (P.mirror d r (P.visAt d.vis r c) * ∑ b ∈ range n, P.part d r c row col b).re) ∧
    (∀ row col, row < P.image → col < P.image → ¬ (row < P.even ∧ col < P.even) →
      P.pix s.2 row col = P.pix d.img row col)) P.planes ?_ (.success, d.img) ⟨rfl, h.img, ?_, fun _ _ _ _ _ => rfl⟩
  · rintro b - ⟨st, img⟩ ⟨h1, h2, h3, h4⟩
    replace h1 : st = .success := h1
    subst h1
    obtain ⟨g1, g2⟩ := gridPlane_ok P d h b img h2
    refine ⟨fun o ho => ?_, g2⟩
    obtain ⟨s, rfl, s1, s2, s3, s4⟩ := g1 o ho
    refine ⟨s, rfl, s1, s2, fun row col hr hc => ?_, fun row col hr hc hn => (s4 row col hr hc hn).trans (h4 row col hr hc hn)⟩
    rw [s3 row col hr hc, h3 row col hr hc, add_assoc, ← sum_add_distrib]
    congr 1
    refine sum_congr rfl fun r _ => ?_
    rw [← sum_add_distrib]
    refine sum_congr rfl fun c _ => ?_
    rw [sum_range_succ, mul_add (P.mirror d r _), Complex.add_re]
    ring
  · intro row col _ _
    simp

/-- **C101 (gridding).** Every outcome of a gridding call with a plan and buffers that go together is a success and leaves
the same image, whatever the order of the additions and threads. -/
theorem C101_grid_partial (P : Plan) (d : Data) (h : P.Ready d) (uvw freq vis weight img : Mem)
    (ha : Accepted P uvw freq vis weight img false) :
    (∀ o, gridCall (some P) uvw freq vis weight img d .success o → ∃ out, o = some (.success, out) ∧ P.Gridded d out) ∧
    ∃ o, gridCall (some P) uvw freq vis weight img d .success o := by
  have e : gridCall (some P) uvw freq vis weight img d .success =
      Then (Steps (gridPlane P P.image true d) (List.range P.planes) (.success, d.img)) (scalePart P P.image true) := by
    funext o
    unfold gridCall
    simp only [ha.check, ha.gpu, ha.side, ne_eq, not_true_eq_false, if_false, decide_true, Int.toNat_natCast]
  rw [e]
  have key := then_ok (S := fun s : Status × Arr ℝ => s.1 = .success ∧ P.Gridded d s.2) (planes_grid P d h)
    (k := scalePart P P.image true) (fun s hs => by
      obtain ⟨st, im⟩ := s
      obtain ⟨h1, h2, h3, h4⟩ := hs
      replace h1 : st = .success := h1
      subst h1
      obtain ⟨g1, g2⟩ := scalePart_ok P d h im h2
      refine ⟨fun o ho => ?_, g2⟩
      obtain ⟨s, rfl, s1, s2, s3, s4⟩ := g1 o ho
      refine ⟨s, rfl, s1, s2, fun row col hr hc => (s3 row col hr hc).trans (h3 row col hr hc),
        fun row col hr hc hn => (s4 row col hr hc hn).trans (h4 row col hr hc hn)⟩)
  refine ⟨fun o ho => ?_, key.2⟩
  obtain ⟨s, rfl, s1, s2⟩ := key.1 o ho
  exact ⟨s.2, by rw [← s1], s2⟩

theorem planes_degrid (P : Plan) (d : Data) (h : P.Ready d) (img : Arr ℝ) (hi : img.size = P.image * P.image) :
    (∀ o, Steps (degridPlane P P.image true d img) (List.range P.planes) (.success, d.vis) o → ∃ s, o = some s ∧
      (s.1 = .success ∧ s.2.size = P.rows * P.chans ∧ ∀ r c, r < P.rows → c < P.chans →
        P.visAt s.2 r c = P.visAt d.vis r c + P.mirror d r (∑ row ∈ range P.even, ∑ col ∈ range P.even,
          (P.pix img row col : ℂ) * (starRingEnd ℂ) (P.wave d r c row col)))) ∧
    ∃ o, Steps (degridPlane P P.image true d img) (List.range P.planes) (.success, d.vis) o := by
  have m0 : ∀ r, P.mirror d r 0 = 0 := by
    intro r
    unfold Plan.mirror
    split_ifs <;> simp
  have madd : ∀ r x y, P.mirror d r (x + y) = P.mirror d r x + P.mirror d r y := by
    intro r x y
    unfold Plan.mirror
    split_ifs <;> simp
  refine steps_ok (degridPlane P P.image true d img) (fun n s => s.1 = .success ∧ s.2.size = P.rows * P.chans ∧
    ∀ r c, r < P.rows → c < P.chans → P.visAt s.2 r c = P.visAt d.vis r c + P.mirror d r (∑ row ∈ range P.even,
      ∑ col ∈ range P.even, (P.pix img row col : ℂ) * (starRingEnd ℂ) (∑ b ∈ range n, P.part d r c row col b))) P.planes ?_
      (.success, d.vis) ⟨rfl, h.vis, ?_⟩
  · rintro b - ⟨st, v⟩ ⟨h1, h2, h3⟩
    replace h1 : st = .success := h1
    subst h1
    obtain ⟨g1, g2⟩ := degridPlane_ok P d h b img hi v h2
    refine ⟨fun o ho => ?_, g2⟩
    obtain ⟨s, rfl, s1, s2, s3⟩ := g1 o ho
    refine ⟨s, rfl, s1, s2, fun r c hr hc => ?_⟩
    rw [s3 r c hr hc, h3 r c hr hc, add_assoc, ← madd, ← sum_add_distrib]
    congr 2
    refine sum_congr rfl fun row _ => ?_
    rw [← sum_add_distrib]
    refine sum_congr rfl fun col _ => ?_
    rw [sum_range_succ, map_add, mul_add]
  · intro r c _ _
    simp [m0]

/-- **C101 (degridding).** Every outcome of a degridding call with a plan and buffers that go together is a success, divides
the image by its correction and adds to each visibility the sum over the pixels. -/
theorem C101_degrid_partial (P : Plan) (d : Data) (h : P.Ready d) (uvw freq vis weight img : Mem)
    (ha : Accepted P uvw freq vis weight img true) :
    (∀ o, degridCall (some P) uvw freq vis weight img d .success o →
      ∃ i v, o = some (.success, i, v) ∧ P.Degridded d i v) ∧
    ∃ o, degridCall (some P) uvw freq vis weight img d .success o := by
  have e : degridCall (some P) uvw freq vis weight img d .success =
      Then (scalePart P P.image true (.success, d.img)) (fun s =>
        Then (Steps (degridPlane P P.image true d s.2) (List.range P.planes) (s.1, d.vis))
          (fun t o => o = some (t.1, s.2, t.2))) := by
    funext o
    unfold degridCall
    simp only [ha.check, ha.gpu, ha.side, ne_eq, not_true_eq_false, if_false, decide_true, Int.toNat_natCast]
  rw [e]
  have key := then_ok (S := fun s : Status × Arr ℝ × Arr (ℝ × ℝ) => s.1 = .success ∧ P.Degridded d s.2.1 s.2.2)
    (scalePart_ok P d h d.img h.img) (k := fun s => Then (Steps (degridPlane P P.image true d s.2) (List.range P.planes)
      (s.1, d.vis)) (fun t o => o = some (t.1, s.2, t.2))) (fun s hs => by
      obtain ⟨st, im⟩ := s
      obtain ⟨h1, h2, h3, h4⟩ := hs
      replace h1 : st = .success := h1
      subst h1
      exact then_ok (planes_degrid P d h im h2) fun t ht => just_ok ⟨ht.1, h2, h3, h4, ht.2.1, ht.2.2⟩)
  refine ⟨fun o ho => ?_, key.2⟩
  obtain ⟨s, rfl, s1, s2⟩ := key.1 o ho
  exact ⟨s.2.1, s.2.2, by rw [← s1], s2⟩

theorem mirror_conj (P : Plan) (d : Data) (r : Nat) (a b : ℂ) :
    (P.mirror d r a * (starRingEnd ℂ) b).re = (a * (starRingEnd ℂ) (P.mirror d r b)).re := by
  unfold Plan.mirror
  split_ifs
  · simp [Complex.mul_re]
  · rfl

/-- The adjoint property of what the two calls leave. -/
theorem adjoint_of (P : Plan) (d : Data) (sky : Arr ℝ) (blank : Arr (ℝ × ℝ)) (out img : Arr ℝ) (pred : Arr (ℝ × ℝ))
    (h0 : ∀ row col, P.pix d.img row col = 0) (n0 : ∀ r c, P.visAt blank r c = 0) (hg : P.Gridded d out)
    (hd : P.Degridded { d with img := sky, vis := blank } img pred) :
    ∑ row ∈ range P.even, ∑ col ∈ range P.even, P.pix out row col * P.pix sky row col =
      ∑ r ∈ range P.rows, ∑ c ∈ range P.chans, d.weight.get (P.chans * r + c) *
        (P.visAt d.vis r c * (starRingEnd ℂ) (P.visAt pred r c)).re := by
  have hl : ∀ row ∈ range P.even, ∀ col ∈ range P.even, P.pix out row col * P.pix sky row col =
      ∑ r ∈ range P.rows, ∑ c ∈ range P.chans, d.weight.get (P.chans * r + c) *
        (P.pix img row col * (P.mirror d r (P.visAt d.vis r c) * P.wave d r c row col).re) := by
    intro row hr col hcl
    rw [mem_range] at hr hcl
    have e1 := hg.pixel row col hr hcl
    have e2 := hd.pixel row col hr hcl
    replace e2 : P.corr row col * P.pix img row col = P.pix sky row col := e2
    rw [h0, zero_add] at e1
    have : P.pix out row col * P.pix sky row col = P.pix img row col * (P.corr row col * P.pix out row col) := by
      rw [← e2]
      ring
    rw [this, e1, mul_sum]
    refine sum_congr rfl fun r _ => ?_
    rw [mul_sum]
    refine sum_congr rfl fun c _ => ?_
    ring
  have hr : ∀ r ∈ range P.rows, ∀ c ∈ range P.chans, d.weight.get (P.chans * r + c) *
        (P.visAt d.vis r c * (starRingEnd ℂ) (P.visAt pred r c)).re =
      ∑ row ∈ range P.even, ∑ col ∈ range P.even, d.weight.get (P.chans * r + c) *
        (P.pix img row col * (P.mirror d r (P.visAt d.vis r c) * P.wave d r c row col).re) := by
    intro r hr c hcl
    rw [mem_range] at hr hcl
    have e1 := hd.vis r c hr hcl
    replace e1 : P.visAt pred r c = P.visAt blank r c + P.mirror d r (∑ row ∈ range P.even, ∑ col ∈ range P.even,
      (P.pix img row col : ℂ) * (starRingEnd ℂ) (P.wave d r c row col)) := e1
    rw [n0, zero_add] at e1
    rw [e1, ← mirror_conj, map_sum, mul_sum, Complex.re_sum, mul_sum]
    refine sum_congr rfl fun row _ => ?_
    rw [map_sum, mul_sum, Complex.re_sum, mul_sum]
    refine sum_congr rfl fun col _ => ?_
    rw [map_mul, Complex.conj_ofReal, Complex.conj_conj, mul_left_comm, Complex.re_ofReal_mul]
  rw [sum_congr rfl fun row h => sum_congr rfl (hl row h), sum_congr rfl fun r h => sum_congr rfl (hr r h)]
  have flip : ∀ f : Nat → Nat → Nat → Nat → ℝ, ∑ i ∈ range P.even, ∑ j ∈ range P.even, ∑ k ∈ range P.rows,
      ∑ l ∈ range P.chans, f i j k l = ∑ k ∈ range P.rows, ∑ l ∈ range P.chans, ∑ i ∈ range P.even, ∑ j ∈ range P.even, f i j k l := by
    intro f
    have h1 : ∀ i, ∑ j ∈ range P.even, ∑ k ∈ range P.rows, ∑ l ∈ range P.chans, f i j k l =
        ∑ k ∈ range P.rows, ∑ l ∈ range P.chans, ∑ j ∈ range P.even, f i j k l := by
      intro i
      rw [sum_comm]
      exact sum_congr rfl fun k _ => sum_comm
    simp only [h1]
    rw [sum_comm]
    exact sum_congr rfl fun k _ => sum_comm
  exact flip _

/-- **C101 (adjoint).** Gridding to an empty image and degridding to empty visibilities are each other's adjoint: the sum
over the pixels of the dirty image times a sky is the sum over the visibilities of weight times real part of visibility times
conjugate of the visibility predicted from that sky. -/
theorem C101_adjoint_partial (P : Plan) (d : Data) (sky : Arr ℝ) (blank : Arr (ℝ × ℝ)) (h : P.Ready d)
    (h' : P.Ready { d with img := sky, vis := blank }) (uvw freq vis weight img : Mem)
    (ha : Accepted P uvw freq vis weight img false) (ha' : Accepted P uvw freq vis weight img true)
    (h0 : ∀ row col, P.pix d.img row col = 0) (n0 : ∀ r c, P.visAt blank r c = 0)
    (o : Option (Status × Arr ℝ)) (ho : gridCall (some P) uvw freq vis weight img d .success o)
    (o' : Option (Status × Arr ℝ × Arr (ℝ × ℝ)))
    (ho' : degridCall (some P) uvw freq vis weight img { d with img := sky, vis := blank } .success o') :
    ∃ dirty i pred, o = some (.success, dirty) ∧ o' = some (.success, i, pred) ∧
      ∑ row ∈ range P.even, ∑ col ∈ range P.even, P.pix dirty row col * P.pix sky row col =
        ∑ r ∈ range P.rows, ∑ c ∈ range P.chans, d.weight.get (P.chans * r + c) *
          (P.visAt d.vis r c * (starRingEnd ℂ) (P.visAt pred r c)).re := by
  obtain ⟨dirty, rfl, g⟩ := (C101_grid_partial P d h uvw freq vis weight img ha).1 o ho
  obtain ⟨i, pred, rfl, g'⟩ := (C101_degrid_partial P _ h' uvw freq vis weight img ha').1 o' ho'
  exact ⟨dirty, i, pred, rfl, rfl, adjoint_of P d sky blank dirty i pred h0 n0 g g'⟩

/-- **C101 (accuracy).** If at a pixel `wave` divided by the correction is within `eps` of some exact `kernel` for every
visibility, then a dirty image made from an empty one is there within `eps` times the sum of the absolute weighted
visibilities of the exact sum. -/
theorem C101_error_partial (P : Plan) (d : Data) (out : Arr ℝ) (hg : P.Gridded d out) (row col : Nat) (hr : row < P.even)
    (hcl : col < P.even) (hc : P.corr row col ≠ 0) (h0 : P.pix d.img row col = 0) (kernel : Nat → Nat → ℂ) (eps : ℝ)
    (hk : ∀ r c, r < P.rows → c < P.chans → ‖P.wave d r c row col / P.corr row col - kernel r c‖ ≤ eps) :
    |P.pix out row col - ∑ r ∈ range P.rows, ∑ c ∈ range P.chans, d.weight.get (P.chans * r + c) *
        (P.mirror d r (P.visAt d.vis r c) * kernel r c).re| ≤
      eps * ∑ r ∈ range P.rows, ∑ c ∈ range P.chans, |d.weight.get (P.chans * r + c)| * ‖P.visAt d.vis r c‖ := by
  have e1 := hg.pixel row col hr hcl
  rw [h0, zero_add] at e1
  have e2 : P.pix out row col = ∑ r ∈ range P.rows, ∑ c ∈ range P.chans, d.weight.get (P.chans * r + c) *
      (P.mirror d r (P.visAt d.vis r c) * (P.wave d r c row col / P.corr row col)).re := by
    apply mul_left_cancel₀ hc
    rw [e1, mul_sum]
    refine sum_congr rfl fun r _ => ?_
    rw [mul_sum]
    refine sum_congr rfl fun c _ => ?_
    rw [mul_div_assoc', Complex.div_ofReal_re]
    field_simp
  rw [e2, ← sum_sub_distrib, mul_sum]
  refine (abs_sum_le_sum_abs _ _).trans (sum_le_sum fun r hr' => ?_)
  rw [← sum_sub_distrib, mul_sum]
  refine (abs_sum_le_sum_abs _ _).trans (sum_le_sum fun c hc' => ?_)
  rw [mem_range] at hr' hc'
  rw [← mul_sub, ← Complex.sub_re, ← mul_sub, abs_mul, mul_left_comm]
  refine mul_le_mul_of_nonneg_left ?_ (abs_nonneg _)
  refine (Complex.abs_re_le_norm _).trans ?_
  rw [norm_mul, mul_comm]
  refine mul_le_mul (hk r c hr' hc') (le_of_eq ?_) (norm_nonneg _) ((norm_nonneg _).trans (hk r c hr' hc'))
  unfold Plan.mirror
  split_ifs
  · rw [RCLike.norm_conj]
  · rfl

/-- **C101 (refusals).** With the status set, without a plan, or with buffers that fail the checks, nothing is written and the
status is the one found; without a plan the status stays success. -/
theorem C101_refused (plan : Option Plan) (uvw freq vis weight img : Mem) (d : Data) (status : Status) (deg : Bool)
    (h : status ≠ .success ∨ plan = none ∨ checkBuffers uvw freq vis weight img deg status ≠ .success) :
    (deg = false → ∀ o, gridCall plan uvw freq vis weight img d status o ↔ o = some
      (if status ≠ .success ∨ plan = none then status else checkBuffers uvw freq vis weight img deg status, d.img)) ∧
    (deg = true → ∀ o, degridCall plan uvw freq vis weight img d status o ↔ o = some
      (if status ≠ .success ∨ plan = none then status else checkBuffers uvw freq vis weight img deg status, d.img, d.vis)) := by
  have hc : ∀ P, status = .success → plan = some P → checkBuffers uvw freq vis weight img deg status ≠ .success := by
    rintro P hs hp
    rcases h with h | h | h
    · exact absurd hs h
    · rw [h] at hp
      cases hp
    · exact h
  constructor
  · rintro rfl o
    unfold gridCall
    by_cases hs : status = .success
    · cases plan with
      | none => simp [hs]
      | some P =>
        rw [if_neg (not_not.2 hs)]
        simp only
        rw [if_pos (hc P hs rfl)]
        simp [hs]
    · simp [hs]
  · rintro rfl o
    unfold degridCall
    by_cases hs : status = .success
    · cases plan with
      | none => simp [hs]
      | some P =>
        rw [if_neg (not_not.2 hs)]
        simp only
        rw [if_pos (hc P hs rfl)]
        simp [hs]
    · simp [hs]

end
end Sdp.EsFft
