import Verif.MsClean.CallProps

/-!
# C98: refused calls, and where the property fails
-/

namespace Sdp.MsClean
open Sdp.FftConv Sdp.Hogbom
noncomputable section

/-- **C98** (refused).  A call that is refused reports an error and changes nothing; an error already set is
kept. -/
theorem C98_refused (cuda : Bool) (dm pm bm lm mm rm sm : Mem) (st : Status) (dirty psf det : Arr ℝ)
    (scales : Arr Int) (o : Out ℝ) (gain thr : ℝ) (limit : Int)
    (h : st ≠ .success ∨ sm.data = none ∨ sm.isReadOnly = true ∨ dm.location ≠ sm.location ∨ dm.type ≠ pm.type ∨
      lm.type ≠ .int ∨ dm.type ≠ sm.type ∨ mm.shapeDim 0 ≠ dm.shapeDim 0 ∨ rm.shapeDim 0 ≠ dm.shapeDim 0 ∨
      sm.shapeDim 0 ≠ dm.shapeDim 0 ∨ bm.shapeDim 0 ≠ 4) :
    ∃ s, s ≠ .success ∧ (st ≠ .success → s = st) ∧
      ∀ r, MsCall cuda dm pm bm lm mm rm sm st dirty psf det scales gain thr limit o r ↔ r = some (s, o) := by
  have key : checkMs dm pm bm lm mm rm sm st ≠ .success ∧
      (st ≠ .success → checkMs dm pm bm lm mm rm sm st = st) := by
    unfold checkMs
    by_cases c0 : st ≠ .success
    · rw [if_pos c0]; exact ⟨c0, fun _ => rfl⟩
    · refine ⟨?_, fun c => absurd c c0⟩
      rw [if_neg c0]
      refine ite_ne (by decide) fun c1 => ite_ne (by decide) fun c2 => ite_ne (by decide) fun c3 =>
        ite_ne (by decide) fun c4 => ite_ne (by decide) fun c5 => ite_ne (by decide) fun c6 =>
        ite_ne (by decide) fun c7 => ite_ne (by decide) fun c8 => ite_ne (by decide) fun c9 => ?_
      exfalso
      rw [not_or] at c1
      rcases h with h | h | h | h | h | h | h | h | h | h | h
      · exact c0 h
      · exact c1.1 h
      · exact c1.2 h
      · exact c2 h
      · exact c3 h
      · exact c4 h
      · exact c5 h
      · exact c6 h
      · exact c7 h
      · exact c8 h
      · exact c9 h
  refine ⟨_, key.1, key.2, fun r => ?_⟩
  unfold MsCall
  simp only
  rw [if_pos key.1]

/-- **C98 is false** in GPU memory: the call reports success, but model and sky model are left as they were; only
the residual changes, into a copy of the dirty image. -/
theorem C98_gpu_false (dm pm bm lm mm rm sm : Mem) (S D : Nat) (dirty psf det : Arr ℝ) (scales : Arr Int) (o : Out ℝ)
    (gain thr : ℝ) (limit : Int) (h : MsArgs .gpu dm pm bm lm mm rm sm S D dirty psf det scales o)
    (r : Option (Status × Out ℝ))
    (hr : MsCall true dm pm bm lm mm rm sm .success dirty psf det scales gain thr limit o r) :
    ∃ out, r = some (.success, out) ∧ out.model = o.model ∧ out.sky = o.sky ∧
      ∀ p < D * D, out.res.get p = dirty.get p := by
  have d1 := (shapeDim_of h.dshape).1
  unfold MsCall at hr
  simp only [h.check, d1, Int.toNat_natCast, h.dloc] at hr
  rw [if_neg (by simp), if_neg (by simp)] at hr
  obtain ⟨res0, c1, c2, c3⟩ := copyN_spec dirty o.res (D * D) (square_size h.ddata h.dshape).ge
    (square_size h.rdata h.rshape).ge
  rw [c1] at hr
  exact ⟨_, hr, rfl, rfl, c3⟩

/-- **C98 is false** on the CPU for *every* image with an odd side: the convolution leaves its arrays. -/
theorem C98_odd_image_false (cuda : Bool) (dm pm bm lm mm rm sm : Mem) (S D : Nat) (dirty psf det : Arr ℝ)
    (scales : Arr Int) (o : Out ℝ) (gain thr : ℝ) (limit : Int)
    (h : MsArgs .cpu dm pm bm lm mm rm sm S D dirty psf det scales o) (hD : D % 2 = 1) (r : Option (Status × Out ℝ))
    (hr : MsCall cuda dm pm bm lm mm rm sm .success dirty psf det scales gain thr limit o r) : r = none := by
  obtain ⟨r', hr', rfl⟩ := (h.cpu gain thr limit cuda r).1 hr
  have hp := h.pos
  have f1 := h.fits.1
  have f2 := h.fits.2
  obtain ⟨res0, c1, -, -⟩ := copyN_spec dirty o.res (D * D) (square_size h.ddata h.dshape).ge
    (square_size h.rdata h.rshape).ge
  unfold MsRun at hr'
  simp only [c1] at hr'
  rw [if_neg (by omega)] at hr'
  obtain ⟨conv, hc, hx⟩ := hr'
  have hset : ∀ kern, setup conv ⟨S, D, 2 * D⟩ psf ⟨D * D, res0.get⟩ kern = none := by
    intro kern
    have hn : ∀ k1, conv ⟨D * D, res0.get⟩ k1 = none := by
      intro k1
      obtain ⟨o1, o2, -, -, e⟩ := hc ⟨D * D, res0.get⟩ k1
      simp only [if_true] at e
      rw [e, C25_odd_output_false o1 o2 D (2 * D) (by omega) hD _ _ (zeros D) rfl (by omega)]
      rfl
    unfold setup
    refine loop_none (fun _ => True) _ (fun _ _ _ _ _ => trivial) 0 ?_ _ _ trivial (List.mem_range.2 h.some)
    intro s _
    simp only [hn]
    cases getBlock kern 0 (2 * D * (2 * D)) with
    | none => rfl
    | some k1 =>
      simp only [Option.bind_some]
      cases scalePsf conv ⟨S, D, 2 * D⟩ psf kern k1 0 s.1 <;> rfl
  rcases hx with hx | ⟨kern, su, cpl, -, e, -⟩
  · rw [hx]
    unfold clean
    simp only [hset]
    cases createBeam det (2 * D) (zeros (2 * D)) <;> cases createKern scales S (2 * D) ⟨S * (2 * D * (2 * D)), fun _ => 0⟩ <;> rfl
  · rw [hset] at e
    cases e

/-! ## A point source -/

/-- Convolution with the kernel of scale 0 moves the image by one pixel along both axes. -/
theorem smear_point {D n : Nat} (hn : 1 ≤ n) (m : Nat → Nat → ℝ) {i j : Nat} (hi : i < D) (hj : j < D) :
    smear D n (blob 0) 1 m i j = if 1 ≤ i ∧ 1 ≤ j then m (i - 1) (j - 1) else 0 := by
  have hv : ∀ s t : Nat, cutTo n (blob 0) ((i : Int) - s - 1) ((j : Int) - t - 1) =
      if s + 1 = i ∧ t + 1 = j then 1 else 0 := by
    intro s t
    unfold cutTo blob
    simp only [if_true]
    by_cases c : s + 1 = i ∧ t + 1 = j
    · rw [if_pos c, if_pos (by omega), if_pos (by omega)]
    · rw [if_neg c]
      split
      · rw [if_neg (by omega)]
      · rfl
  unfold smear
  simp only [hv]
  by_cases c : 1 ≤ i ∧ 1 ≤ j
  · rw [if_pos c, Finset.sum_eq_single_of_mem (i - 1) (Finset.mem_range.2 (by omega)),
      Finset.sum_eq_single_of_mem (j - 1) (Finset.mem_range.2 (by omega)), if_pos (by omega), mul_one]
    · intro t _ ht
      rw [if_neg (by omega), mul_zero]
    · intro s _ hs
      refine Finset.sum_eq_zero fun t _ => ?_
      rw [if_neg (by omega), mul_zero]
  · rw [if_neg c]
    refine Finset.sum_eq_zero fun s _ => Finset.sum_eq_zero fun t _ => ?_
    rw [if_neg (by omega), mul_zero]

theorem dirtyAt_point {D : Nat} (dirty : Nat → Nat → ℝ) {i j : Nat} (hi : i < D) (hj : j < D) :
    dirtyAt D 1 0 dirty i j = if 1 ≤ i ∧ 1 ≤ j then dirty (i - 1) (j - 1) else 0 :=
  smear_point (by omega) dirty hi hj

theorem psfAt_point {D : Nat} (psf : Nat → Nat → ℝ) {i j : Nat} (hi : i < 2 * D) (hj : j < 2 * D) :
    psfAt D 1 0 0 psf i j = if 2 ≤ i ∧ 2 ≤ j then psf (i - 2) (j - 2) else 0 := by
  unfold psfAt
  rw [smear_point (by omega) _ hi hj]
  by_cases c : 1 ≤ i ∧ 1 ≤ j
  · rw [if_pos c, smear_point (by omega) _ (by omega) (by omega)]
    by_cases c2 : 2 ≤ i ∧ 2 ≤ j
    · rw [if_pos c2, if_pos (by omega)]
      congr 1
    · rw [if_neg c2, if_neg (by omega)]
  · rw [if_neg c, if_neg (by omega)]

/-- **C98 is false**: with the single scale 0 and nothing above the threshold (or no cycle allowed), the residual
should be the dirty image; it is the dirty image moved by one pixel along both axes, with zeros in the first row
and column. -/
theorem C98_shift_false (cuda : Bool) (dm pm bm lm mm rm sm : Mem) (D : Nat) (dirty psf det : Arr ℝ)
    (scales : Arr Int) (o : Out ℝ) (gain thr : ℝ) (limit : Int)
    (h : MsArgs .cpu dm pm bm lm mm rm sm 1 D dirty psf det scales o) (hD : D % 2 = 0) (h0 : scales.get 0 = 0)
    (hpos : ∃ i < 2 * D - 2, ∃ j < 2 * D - 2, 0 < psf.get (2 * D * i + j))
    (ht : limit ≤ 0 ∨ 0 < thr ∧ ∀ p < D * D, dirty.get p < thr) (r : Option (Status × Out ℝ))
    (hr : MsCall cuda dm pm bm lm mm rm sm .success dirty psf det scales gain thr limit o r) :
    ∃ out, r = some (.success, out) ∧ ∀ i < D, ∀ j < D, out.model.get (D * i + j) = 0 ∧
      out.res.get (D * i + j) = if 1 ≤ i ∧ 1 ≤ j then dirty.get (D * (i - 1) + (j - 1)) else 0 := by
  obtain ⟨out, rfl, hc⟩ := (C98_call_partial cuda dm pm bm lm mm rm sm 1 D dirty psf det scales o gain thr limit h hD
    (by
      intro s hs
      obtain rfl : s = 0 := by omega
      obtain ⟨i, hi, j, hj, hp⟩ := hpos
      refine ⟨i + 2, by omega, j + 2, by omega, ?_⟩
      rw [h0, psfAt_point _ (by omega) (by omega), if_pos (by omega)]
      exact hp)).2 r hr
  obtain ⟨l, w, m1, m2, m3, m4, m5, m6⟩ := hc.run
  have hl : l = [] := by
    cases l with
    | nil => rfl
    | cons c l =>
      exfalso
      have hc := m3 0 (by simp)
      simp only [List.take_zero, List.getElem_cons_zero] at hc
      obtain ⟨⟨b1, b2, b3, -⟩, b4⟩ := hc
      have e : left D 1 scales.get gain (fun i j => dirty.get (D * i + j)) (fun i j => psf.get (2 * D * i + j)) [] c.s
          c.x c.y = if 1 ≤ c.x ∧ 1 ≤ c.y then dirty.get (D * (c.x - 1) + (c.y - 1)) else 0 := by
        have hs : c.s = 0 := by omega
        unfold left
        rw [hs, h0, dirtyAt_point _ b2 b3]
        simp
      rw [e] at b4
      rcases ht with ht | ⟨t1, t2⟩
      · have : limit.toNat = 0 := by omega
        rw [this] at m1
        simp at m1
      · by_cases q : 1 ≤ c.x ∧ 1 ≤ c.y
        · rw [if_pos q] at b4
          exact absurd (t2 _ (flat_lt (show c.x - 1 < D by omega) (show c.y - 1 < D by omega))) (not_lt.2 b4)
        · rw [if_neg q] at b4
          exact absurd t1 (not_lt.2 b4)
  subst hl
  refine ⟨out, rfl, fun i hi j hj => ⟨by rw [m5 i hi j hj]; simp, ?_⟩⟩
  rw [m6 i hi j hj]
  unfold left
  rw [h0, dirtyAt_point _ hi hj]
  simp

/-- **C98 is false**: the PSF is taken away two pixels beyond the component it was found for, so for a point source
seen with a perfect PSF (one pixel of value 1 at its centre) the residual never decreases: every cycle finds the
same pixel with the same value `v`, adds to the model, and digs a hole two pixels further on, until the cycle limit
is reached. -/
theorem C98_diverges_false (cuda : Bool) (dm pm bm lm mm rm sm : Mem) (D : Nat) (dirty psf det : Arr ℝ)
    (scales : Arr Int) (o : Out ℝ) (gain thr v : ℝ) (limit : Nat) (x y : Nat)
    (h : MsArgs .cpu dm pm bm lm mm rm sm 1 D dirty psf det scales o) (hD : D % 2 = 0) (h0 : scales.get 0 = 0)
    (hx : x + 3 < D) (hy : y + 3 < D) (hd : ∀ i < D, ∀ j < D, dirty.get (D * i + j) = if i = x ∧ j = y then v else 0)
    (hp : ∀ i < 2 * D, ∀ j < 2 * D, psf.get (2 * D * i + j) = if i = D ∧ j = D then 1 else 0)
    (hv : 0 < v) (hg : 0 < gain) (ht : thr ≤ v) (r : Option (Status × Out ℝ))
    (hr : MsCall cuda dm pm bm lm mm rm sm .success dirty psf det scales gain thr limit o r) :
    ∃ out, r = some (.success, out) ∧ out.res.get (D * (x + 1) + (y + 1)) = v ∧
      (∀ i < D, ∀ j < D, out.model.get (D * i + j) = if i = x + 1 ∧ j = y + 1 then limit * (gain * v) else 0) ∧
      out.res.get (D * (x + 3) + (y + 3)) = -(limit * (gain * v)) := by
  have hps : ∀ i < 2 * D, ∀ j < 2 * D, psfAt D 1 0 0 (fun i j => psf.get (2 * D * i + j)) i j =
      if i = D + 2 ∧ j = D + 2 then 1 else 0 := by
    intro i hi j hj
    rw [psfAt_point _ hi hj]
    by_cases c : 2 ≤ i ∧ 2 ≤ j
    · rw [if_pos c, hp _ (by omega) _ (by omega)]
      by_cases c2 : i = D + 2 ∧ j = D + 2
      · rw [if_pos c2, if_pos (by omega)]
      · rw [if_neg c2, if_neg (by omega)]
    · rw [if_neg c, if_neg (by omega)]
  have hdt : ∀ i < D, ∀ j < D, dirtyAt D 1 0 (fun i j => dirty.get (D * i + j)) i j =
      if i = x + 1 ∧ j = y + 1 then v else 0 := by
    intro i hi j hj
    rw [dirtyAt_point _ hi hj]
    by_cases c : 1 ≤ i ∧ 1 ≤ j
    · rw [if_pos c, hd _ (by omega) _ (by omega)]
      by_cases c2 : i = x + 1 ∧ j = y + 1
      · rw [if_pos c2, if_pos (by omega)]
      · rw [if_neg c2, if_neg (by omega)]
    · rw [if_neg c, if_neg (by omega)]
  obtain ⟨out, rfl, hc⟩ := (C98_call_partial cuda dm pm bm lm mm rm sm 1 D dirty psf det scales o gain thr limit h hD
    (by
      intro s hs
      obtain rfl : s = 0 := by omega
      refine ⟨D + 2, by omega, D + 2, by omega, ?_⟩
      rw [h0, hps _ (by omega) _ (by omega), if_pos ⟨rfl, rfl⟩]
      exact one_pos)).2 r hr
  rw [Int.toNat_natCast] at hc
  obtain ⟨l, w, m1, m2, m3, m4, m5, m6⟩ := hc.run
  have hw : w 0 = 1 := by
    obtain ⟨p1, p2, p3⟩ := m2 0 (by omega)
    rw [h0] at p2 p3
    have q := p2 (D + 2) (by omega) (D + 2) (by omega)
    rw [hps _ (by omega) _ (by omega), if_pos ⟨rfl, rfl⟩] at q
    rcases p3 with p3 | ⟨i, hi, j, hj, p3⟩
    · rw [p3] at q; exact absurd q (by norm_num)
    · rw [hps i hi j hj] at p3
      split at p3
      · exact p3
      · rw [p3] at q; exact absurd q (by norm_num)
  have hleft : ∀ l' : List Piece, (∀ c ∈ l', c = ⟨0, x + 1, y + 1, v⟩) → ∀ i < D, ∀ j < D,
      left D 1 scales.get gain (fun i j => dirty.get (D * i + j)) (fun i j => psf.get (2 * D * i + j)) l' 0 i j =
        (if i = x + 1 ∧ j = y + 1 then v else 0) - if i = x + 3 ∧ j = y + 3 then l'.length * (gain * v) else 0 := by
    intro l' hl' i hi j hj
    unfold left
    rw [h0, hdt i hi j hj]
    congr 1
    have e : (l'.map fun c => gain * c.amp * psfAt D 1 0 (scales.get c.s) (fun i j => psf.get (2 * D * i + j))
        (D + i - c.x) (D + j - c.y)) = l'.map fun _ => if i = x + 3 ∧ j = y + 3 then gain * v else 0 := by
      refine List.map_congr_left fun c hc => ?_
      rw [hl' c hc]
      simp only
      rw [h0, hps _ (by omega) _ (by omega)]
      by_cases c2 : i = x + 3 ∧ j = y + 3
      · rw [if_pos c2, if_pos (by omega), mul_one]
      · rw [if_neg c2, if_neg (by omega), mul_zero]
    rw [e, List.map_const', List.sum_replicate, nsmul_eq_mul]
    split <;> simp
  have huniq : ∀ l' : List Piece, (∀ c ∈ l', c = ⟨0, x + 1, y + 1, v⟩) → ∀ c,
      Best 1 D w (left D 1 scales.get gain (fun i j => dirty.get (D * i + j)) (fun i j => psf.get (2 * D * i + j)) l') c →
      c = ⟨0, x + 1, y + 1, v⟩ := by
    rintro l' hl' ⟨s, a, b, amp⟩ ⟨b1, b2, b3, b4, b5, b6⟩
    simp only at b1 b2 b3 b4 b5 b6
    obtain rfl : s = 0 := by omega
    have q := b6 0 (by omega) (x + 1) (by omega) (y + 1) (by omega)
    rw [hw, div_one, hleft l' hl' _ (by omega) _ (by omega), if_pos ⟨rfl, rfl⟩, if_neg (by omega), sub_zero] at q
    have e := b5 (lt_of_lt_of_le hv q)
    rw [hw, div_one, hleft l' hl' _ b2 _ b3] at e
    have hnn : 0 ≤ (l'.length : ℝ) * (gain * v) := mul_nonneg (Nat.cast_nonneg _) (mul_pos hg hv).le
    by_cases c : a = x + 1 ∧ b = y + 1
    · obtain ⟨rfl, rfl⟩ := c
      rw [if_pos ⟨rfl, rfl⟩, if_neg (by omega), sub_zero] at e
      rw [e]
    · exfalso
      rw [if_neg c] at e
      split at e <;> linarith
  have hall : ∀ k ≤ l.length, ∀ c ∈ l.take k, c = ⟨0, x + 1, y + 1, v⟩ := by
    intro k
    induction k with
    | zero => intro _ c hc; simp at hc
    | succ k ih =>
      intro hk c hc
      have ih := ih (by omega)
      rw [List.take_add_one, List.mem_append] at hc
      rcases hc with hc | hc
      · exact ih c hc
      · rw [List.getElem?_eq_getElem (show k < l.length by omega)] at hc
        simp only [Option.toList_some, List.mem_singleton] at hc
        rw [hc]
        exact huniq _ ih _ (m3 k (by omega)).1
  have hl : ∀ c ∈ l, c = ⟨0, x + 1, y + 1, v⟩ := by
    have := hall l.length le_rfl
    rwa [List.take_length] at this
  have hlen : l.length = limit := by
    by_contra hne
    obtain ⟨c, q1, q2⟩ := m4 (by omega)
    rw [huniq l hl c q1] at q2
    simp only at q2
    rw [hleft l hl _ (by omega) _ (by omega), if_pos ⟨rfl, rfl⟩, if_neg (by omega), sub_zero] at q2
    exact absurd ht (not_le.2 q2)
  refine ⟨out, rfl, ?_, ?_, ?_⟩
  · rw [m6 _ (by omega) _ (by omega), hleft l hl _ (by omega) _ (by omega), if_pos ⟨rfl, rfl⟩, if_neg (by omega),
      sub_zero]
  · intro i hi j hj
    rw [m5 i hi j hj]
    have e : (l.map fun c => gain * c.amp * blob (scales.get c.s) ((i : Int) - c.x) ((j : Int) - c.y)) =
        l.map fun _ => if i = x + 1 ∧ j = y + 1 then gain * v else 0 := by
      refine List.map_congr_left fun c hc => ?_
      rw [hl c hc]
      simp only
      rw [h0]
      unfold blob
      rw [if_pos rfl]
      by_cases c2 : i = x + 1 ∧ j = y + 1
      · rw [if_pos c2, if_pos (by omega), mul_one]
      · rw [if_neg c2, if_neg (by omega), mul_zero]
    rw [e, List.map_const', List.sum_replicate, nsmul_eq_mul, hlen]
    split <;> simp
  · rw [m6 _ (by omega) _ (by omega), hleft l hl _ (by omega) _ (by omega), if_neg (by omega), if_pos ⟨rfl, rfl⟩, hlen,
      zero_sub]

/-- **C98 is false**: the size of the clean beam (the last of the four parameters) is not used.  Whatever size is
asked for, the beam of the only component reaches every pixel of the sky model. -/
theorem C98_size_false (cuda : Bool) (dm pm bm lm mm rm sm : Mem) (D : Nat) (dirty psf det : Arr ℝ)
    (scales : Arr Int) (o : Out ℝ) (gain thr v : ℝ) (x y : Nat)
    (h : MsArgs .cpu dm pm bm lm mm rm sm 1 D dirty psf det scales o) (hD : D % 2 = 0) (h0 : scales.get 0 = 0)
    (hx : x + 3 < D) (hy : y + 3 < D) (hd : ∀ i < D, ∀ j < D, dirty.get (D * i + j) = if i = x ∧ j = y then v else 0)
    (hp : ∀ i < 2 * D, ∀ j < 2 * D, psf.get (2 * D * i + j) = if i = D ∧ j = D then 1 else 0)
    (hv : 0 < v) (hg : 0 < gain) (ht : thr ≤ v) (r : Option (Status × Out ℝ))
    (hr : MsCall cuda dm pm bm lm mm rm sm .success dirty psf det scales gain thr 1 o r) :
    ∃ out, r = some (.success, out) ∧ (∀ i < D, ∀ j < D, (i ≠ x + 1 ∨ j ≠ y + 1) → out.model.get (D * i + j) = 0) ∧
      ∀ i < D, ∀ j < D, out.res.get (D * i + j) < out.sky.get (D * i + j) := by
  obtain ⟨out, rfl, -, hm, -⟩ := C98_diverges_false cuda dm pm bm lm mm rm sm D dirty psf det scales o gain thr v 1 x y h
    hD h0 hx hy hd hp hv hg ht r (by exact_mod_cast hr)
  obtain ⟨out', e, hc⟩ := (C98_call_partial cuda dm pm bm lm mm rm sm 1 D dirty psf det scales o gain thr 1 h hD
    (by
      intro s hs
      obtain rfl : s = 0 := by omega
      refine ⟨D + 2, by omega, D + 2, by omega, ?_⟩
      rw [h0, psfAt_point _ (by omega) (by omega), if_pos (by omega), hp _ (by omega) _ (by omega), if_pos (by omega)]
      exact one_pos)).2 _ hr
  cases e
  refine ⟨out, rfl, fun i hi j hj hne => by rw [hm i hi j hj, if_neg (by omega)], fun i hi j hj => ?_⟩
  rw [hc.sky i hi j hj]
  have hm' : ∀ q < D * D, out.model.get q = if q = D * (x + 1) + (y + 1) then gain * v else 0 := by
    intro q hq
    have hD0 : 0 < D := by omega
    have e := hm (q / D) (Nat.div_lt_of_lt_mul hq) (q % D) (Nat.mod_lt _ hD0)
    rw [Nat.div_add_mod] at e
    rw [e]
    by_cases c : q = D * (x + 1) + (y + 1)
    · have e1 : q / D = x + 1 := by
        rw [c, Nat.mul_add_div hD0, Nat.div_eq_of_lt (by omega), Nat.add_zero]
      have e2 : q % D = y + 1 := by rw [c, Nat.mul_add_mod, Nat.mod_eq_of_lt (by omega)]
      rw [if_pos ⟨e1, e2⟩, if_pos c]
      simp
    · rw [if_neg c, if_neg]
      rintro ⟨e1, e2⟩
      apply c
      rw [← e1, ← e2, Nat.div_add_mod]
  rw [restored_one (by omega) (by omega) hm']
  have hst : 0 < stamp (2 * D) (det.get 0) (det.get 1) (det.get 2) ((i : Int) - (x + 1 : Nat) - 1)
      ((j : Int) - (y + 1 : Nat) - 1) := by
    unfold stamp
    rw [if_pos (by omega)]
    exact Real.exp_pos _
  have := mul_pos (mul_pos hg hv) hst
  linarith

/-! ## The hypotheses are met -/

/-- A point source in an image of 6 by 6 pixels, one scale. -/
theorem exMs : MsArgs .cpu (wrap .double [6, 6]) (wrap .double [12, 12]) (wrap .double [4]) (wrap .int [1])
    (wrap .double [6, 6]) (wrap .double [6, 6]) (wrap .double [6, 6]) 1 6
    ⟨36, fun i => if i = 7 then 8 else 0⟩ ⟨144, fun i => if i = 78 then 1 else 0⟩ ⟨4, fun _ => 2⟩
    ⟨1, fun _ => 0⟩ ⟨⟨36, fun _ => 0⟩, ⟨36, fun _ => 0⟩, ⟨36, fun _ => 0⟩⟩ where
  pos := by decide
  some := by decide
  fits := by decide
  dshape := ⟨by decide, by decide⟩
  pshape := ⟨by decide, by decide⟩
  bshape := ⟨by decide, by decide⟩
  lshape := ⟨by decide, by decide⟩
  mshape := ⟨by decide, by decide⟩
  rshape := ⟨by decide, by decide⟩
  sshape := ⟨by decide, by decide⟩
  ddata := ⟨by decide, by decide, by decide⟩
  pdata := ⟨by decide, by decide, by decide⟩
  bdata := ⟨by decide, by decide, by decide⟩
  ldata := ⟨by decide, by decide, by decide⟩
  mdata := ⟨by decide, by decide, by decide⟩
  rdata := ⟨by decide, by decide, by decide⟩
  sdata := ⟨by decide, by decide, by decide⟩
  dloc := by decide
  ploc := by decide
  bloc := by decide
  lloc := by decide
  mloc := by decide
  rloc := by decide
  sloc := by decide
  dtype := .inl (by decide)
  ptype := by decide
  stype := by decide
  ltype := by decide
  writable := ⟨by decide, by decide⟩
  widths := by simp

/-- The same with the images in GPU memory. -/
theorem exMsGpu : MsArgs .gpu { wrap .float [6, 6] with location := .gpu }
    { wrap .float [12, 12] with location := .gpu } (wrap .float [4]) (wrap .int [1]) { wrap .float [6, 6] with location := .gpu }
    { wrap .float [6, 6] with location := .gpu } { wrap .float [6, 6] with location := .gpu } 1 6
    ⟨36, fun i => if i = 7 then 8 else 0⟩ ⟨144, fun i => if i = 78 then 1 else 0⟩ ⟨4, fun _ => 2⟩
    ⟨1, fun _ => 0⟩ ⟨⟨36, fun _ => 0⟩, ⟨36, fun _ => 0⟩, ⟨36, fun _ => 0⟩⟩ where
  pos := by decide
  some := by decide
  fits := by decide
  dshape := ⟨by decide, by decide⟩
  pshape := ⟨by decide, by decide⟩
  bshape := ⟨by decide, by decide⟩
  lshape := ⟨by decide, by decide⟩
  mshape := ⟨by decide, by decide⟩
  rshape := ⟨by decide, by decide⟩
  sshape := ⟨by decide, by decide⟩
  ddata := ⟨by decide, by decide, by decide⟩
  pdata := ⟨by decide, by decide, by decide⟩
  bdata := ⟨by decide, by decide, by decide⟩
  ldata := ⟨by decide, by decide, by decide⟩
  mdata := ⟨by decide, by decide, by decide⟩
  rdata := ⟨by decide, by decide, by decide⟩
  sdata := ⟨by decide, by decide, by decide⟩
  dloc := by decide
  ploc := by decide
  bloc := by decide
  lloc := by decide
  mloc := by decide
  rloc := by decide
  sloc := by decide
  dtype := .inr (by decide)
  ptype := by decide
  stype := by decide
  ltype := by decide
  writable := ⟨by decide, by decide⟩
  widths := by simp

/-- An image with an odd side and two scales. -/
theorem exMsOdd : MsArgs .cpu (wrap .double [3, 3]) (wrap .double [6, 6]) (wrap .double [4]) (wrap .int [2])
    (wrap .double [3, 3]) (wrap .double [3, 3]) (wrap .double [3, 3]) 2 3
    ⟨9, fun i => if i = 7 then 8 else 0⟩ ⟨36, fun i => if i = 21 then 1 else 0⟩ ⟨4, fun _ => 2⟩
    ⟨2, fun i => 3 * i⟩ ⟨⟨9, fun _ => 0⟩, ⟨9, fun _ => 0⟩, ⟨9, fun _ => 0⟩⟩ where
  pos := by decide
  some := by decide
  fits := by decide
  dshape := ⟨by decide, by decide⟩
  pshape := ⟨by decide, by decide⟩
  bshape := ⟨by decide, by decide⟩
  lshape := ⟨by decide, by decide⟩
  mshape := ⟨by decide, by decide⟩
  rshape := ⟨by decide, by decide⟩
  sshape := ⟨by decide, by decide⟩
  ddata := ⟨by decide, by decide, by decide⟩
  pdata := ⟨by decide, by decide, by decide⟩
  bdata := ⟨by decide, by decide, by decide⟩
  ldata := ⟨by decide, by decide, by decide⟩
  mdata := ⟨by decide, by decide, by decide⟩
  rdata := ⟨by decide, by decide, by decide⟩
  sdata := ⟨by decide, by decide, by decide⟩
  dloc := by decide
  ploc := by decide
  bloc := by decide
  lloc := by decide
  mloc := by decide
  rloc := by decide
  sloc := by decide
  dtype := .inl (by decide)
  ptype := by decide
  stype := by decide
  ltype := by decide
  writable := ⟨by decide, by decide⟩
  widths := by simp

/-- A call that takes no component, for `C98_shift_false`. -/
example : ∃ out, MsCall false (wrap .double [6, 6]) (wrap .double [12, 12]) (wrap .double [4]) (wrap .int [1])
    (wrap .double [6, 6]) (wrap .double [6, 6]) (wrap .double [6, 6]) .success
    ⟨36, fun i => if i = 7 then 8 else 0⟩ ⟨144, fun i => if i = 78 then 1 else 0⟩ ⟨4, fun _ => 2⟩
    ⟨1, fun _ => 0⟩ (1 / 2) 9 100 ⟨⟨36, fun _ => 0⟩, ⟨36, fun _ => 0⟩, ⟨36, fun _ => 0⟩⟩ (some (.success, out)) ∧
    out.res.get 7 = 0 ∧ out.res.get 14 = 8 := by
  obtain ⟨r, hr⟩ := (C98_call_partial false _ _ _ _ _ _ _ 1 6 _ _ _ _ _ (1 / 2) 9 100 exMs (by decide)
    (by
      intro s hs
      obtain rfl : s = 0 := by omega
      refine ⟨8, by decide, 8, by decide, ?_⟩
      show 0 < psfAt 6 1 0 0 _ 8 8
      rw [psfAt_point _ (by decide) (by decide), if_pos (by decide)]
      simp)).1
  obtain ⟨out, rfl, h⟩ := C98_shift_false false _ _ _ _ _ _ _ 6 _ _ _ _ _ (1 / 2) 9 100 exMs (by decide) rfl
    ⟨6, by decide, 6, by decide, by simp⟩ (.inr ⟨by norm_num, fun p _ => by
      show (if p = 7 then (8 : ℝ) else 0) < 9
      split <;> norm_num⟩) r hr
  refine ⟨out, hr, ?_, ?_⟩
  · have := (h 1 (by decide) 1 (by decide)).2
    rw [show (7 : Nat) = 6 * 1 + 1 from rfl, this]
    simp
  · have := (h 2 (by decide) 2 (by decide)).2
    rw [show (14 : Nat) = 6 * 2 + 2 from rfl, this]
    simp

theorem exDirtyAt : ∀ i < 6, ∀ j < 6, (if 6 * i + j = 7 then (8 : ℝ) else 0) = if i = 1 ∧ j = 1 then 8 else 0 := by
  intro i hi j hj
  by_cases c : i = 1 ∧ j = 1
  · rw [if_pos c, if_pos (by omega)]
  · rw [if_neg c, if_neg (by omega)]

theorem exPsfAt : ∀ i < 2 * 6, ∀ j < 2 * 6, (if 2 * 6 * i + j = 78 then (1 : ℝ) else 0) =
    if i = 6 ∧ j = 6 then 1 else 0 := by
  intro i hi j hj
  by_cases c : i = 6 ∧ j = 6
  · rw [if_pos c, if_pos (by omega)]
  · rw [if_neg c, if_neg (by omega)]

/-- After 100 cycles the residual of 8 is still there. -/
example : ∃ out, MsCall false (wrap .double [6, 6]) (wrap .double [12, 12]) (wrap .double [4]) (wrap .int [1])
    (wrap .double [6, 6]) (wrap .double [6, 6]) (wrap .double [6, 6]) .success
    ⟨36, fun i => if i = 7 then 8 else 0⟩ ⟨144, fun i => if i = 78 then 1 else 0⟩ ⟨4, fun _ => 2⟩
    ⟨1, fun _ => 0⟩ (1 / 2) 1 100 ⟨⟨36, fun _ => 0⟩, ⟨36, fun _ => 0⟩, ⟨36, fun _ => 0⟩⟩ (some (.success, out)) ∧
    out.res.get 14 = 8 ∧ out.model.get 14 = 400 ∧ out.res.get 28 = -400 := by
  obtain ⟨r, hr⟩ := (C98_call_partial false _ _ _ _ _ _ _ 1 6 _ _ _ _ _ (1 / 2) 1 100 exMs (by decide)
    (by
      intro s hs
      obtain rfl : s = 0 := by omega
      refine ⟨8, by decide, 8, by decide, ?_⟩
      show 0 < psfAt 6 1 0 0 _ 8 8
      rw [psfAt_point _ (by decide) (by decide), if_pos (by decide)]
      simp)).1
  obtain ⟨out, rfl, h1, h2, h3⟩ := C98_diverges_false false _ _ _ _ _ _ _ 6 _ _ _ _ _ (1 / 2) 1 8 100 1 1 exMs (by decide)
    rfl (by decide) (by decide) exDirtyAt exPsfAt (by norm_num) (by norm_num) (by norm_num) r hr
  refine ⟨out, hr, h1, ?_, ?_⟩
  · rw [show (14 : Nat) = 6 * 2 + 2 from rfl, h2 2 (by decide) 2 (by decide)]; norm_num
  · rw [show (28 : Nat) = 6 * (1 + 3) + (1 + 3) from rfl, h3]; norm_num

end
end Sdp.MsClean
