import Verif.Hogbom.CallProps
import Mathlib.Tactic.NormNum
import Mathlib.Tactic.Linarith

/-!
# C97: calls that are refused, and where the property is false
-/

namespace Sdp.Hogbom
open Sdp.FftConv
noncomputable section

theorem ite_ne {c : Prop} [Decidable c] {a x s : Status} (ha : a ≠ s) (hx : ¬ c → x ≠ s) :
    (if c then a else x) ≠ s := by
  by_cases h : c
  · rw [if_pos h]; exact ha
  · rw [if_neg h]; exact hx h

/-- **C97** (refused).  A call that is refused reports an error and changes nothing; an error already set is
kept. -/
theorem C97_refused (cuda : Bool) (last : Arr (Cell ℝ) → Arr (Cell ℝ) → Prop) (dm pm bm mm rm sm : Mem)
    (st : Status) (dirty psf det : Arr ℝ) (o : Out ℝ) (gain thr : ℝ) (limit : Int)
    (h : st ≠ .success ∨ sm.data = none ∨ sm.isReadOnly = true ∨ dm.location ≠ sm.location ∨ dm.type ≠ pm.type ∨
      dm.type ≠ sm.type ∨ mm.shapeDim 0 ≠ dm.shapeDim 0 ∨ rm.shapeDim 0 ≠ dm.shapeDim 0 ∨
      sm.shapeDim 0 ≠ dm.shapeDim 0 ∨ bm.shapeDim 0 ≠ 4 ∨ dm.shapeDim 0 ≠ dm.shapeDim 1 ∨
      pm.shapeDim 0 ≠ pm.shapeDim 1 ∨ pm.shapeDim 0 ≠ 2 * dm.shapeDim 0 ∨ limit < 1 ∨ gain ≤ 0) :
    ∃ s, s ≠ .success ∧ (st ≠ .success → s = st) ∧
      ∀ r, CleanCall cuda last dm pm bm mm rm sm st dirty psf det gain thr limit o r ↔ r = some (s, o) := by
  have key : checkClean dm pm bm mm rm sm gain limit st ≠ .success ∧
      (st ≠ .success → checkClean dm pm bm mm rm sm gain limit st = st) := by
    unfold checkClean
    by_cases c0 : st ≠ .success
    · rw [if_pos c0]; exact ⟨c0, fun _ => rfl⟩
    · refine ⟨?_, fun c => absurd c c0⟩
      rw [if_neg c0]
      refine ite_ne (by decide) fun c1 => ite_ne (by decide) fun c2 => ite_ne (by decide) fun c3 =>
        ite_ne (by decide) fun c4 => ite_ne (by decide) fun c5 => ite_ne (by decide) fun c6 =>
        ite_ne (by decide) fun c7 => ite_ne (by decide) fun c8 => ite_ne (by decide) fun c9 =>
        ite_ne (by decide) fun c10 => ite_ne (by decide) fun c11 => ite_ne (by decide) fun c12 =>
        ite_ne (by decide) fun c13 => ?_
      exfalso
      rw [not_or] at c1
      rw [mul_comm] at c11
      rcases h with h | h | h | h | h | h | h | h | h | h | h | h | h | h | h
      · exact c0 h
      · exact c1.1 h
      · exact c1.2 h
      · exact c2 h
      · exact c3 h
      · exact c4 h
      · exact c5 h
      · exact c6 h
      · exact c7 h
      · exact c8 h
      · exact c9 h
      · exact c10 h
      · exact c11 h
      · exact c12 h
      · exact c13 h
  refine ⟨_, key.1, key.2, fun r => ?_⟩
  unfold CleanCall
  simp only
  rw [if_pos key.1]

/-! ## One component -/

theorem firstMax_unique {F : Type} [LinearOrder F] {f : Nat → F} {n a b : Nat} (ha : FirstMax f n a)
    (hb : FirstMax f n b) : a = b := by
  rcases lt_trichotomy a b with c | c | c
  · exact absurd (hb.2.2 a c) (not_lt.2 (ha.2.1 b hb.1))
  · exact c
  · exact absurd (ha.2.2 b c) (not_lt.2 (hb.2.1 a ha.1))

/-- With a limit of one cycle and a peak above the threshold, the model is that one component. -/
theorem one_component {psf dirty res model : Nat → ℝ} {D : Nat} {gain thr : ℝ} {p : Nat}
    (hp : FirstMax dirty (D * D) p) (ht : thr ≤ dirty p)
    (h : ∃ k ≤ 1, Minors psf D gain thr k dirty (fun _ => 0) res model ∧
      (k < 1 → ∀ q < D * D, res q < thr)) :
    ∀ q < D * D, model q = if q = p then gain * dirty p else 0 := by
  obtain ⟨k, hk, hm, hstop⟩ := h
  cases hm with
  | nil hr hc =>
    have := hstop (by omega) p hp.1
    rw [hr p hp.1] at this
    exact absurd ht (not_le.2 this)
  | cons hm h' =>
    cases h' with
    | nil hr hc =>
      obtain ⟨q, hq, -, hc', -⟩ := hm
      obtain rfl := firstMax_unique hp hq
      intro i hi
      rw [hc i hi, hc' i hi, zero_add]
    | cons _ _ => omega

theorem restored_one {D n : Nat} {sx sy rot : ℝ} {d : Int} {m : Nat → ℝ} {x y : Nat} {v : ℝ} (hx : x < D) (hy : y < D)
    (hm : ∀ q < D * D, m q = if q = D * x + y then v else 0) (i j : Nat) :
    restored D n sx sy rot d m i j = v * stamp n sx sy rot ((i : Int) - x - d) ((j : Int) - y - d) := by
  unfold restored
  rw [Finset.sum_eq_single_of_mem x (Finset.mem_range.2 hx), Finset.sum_eq_single_of_mem y (Finset.mem_range.2 hy),
    hm _ (flat_lt hx hy), if_pos rfl]
  · intro t ht hne
    have ht := Finset.mem_range.1 ht
    rw [hm _ (flat_lt hx ht), if_neg (by omega), zero_mul]
  · intro s hs hne
    have hs := Finset.mem_range.1 hs
    refine Finset.sum_eq_zero fun t ht => ?_
    have ht := Finset.mem_range.1 ht
    rw [hm _ (flat_lt hs ht), if_neg (fun e => hne (flat_inj ht hy e).1), zero_mul]

theorem gauss_zero (sx sy rot : ℝ) : gauss sx sy rot 0 0 = 1 := by
  unfold gauss
  simp

theorem gauss_lt_one {sx sy : ℝ} (hx : sx ≠ 0) (hy : sy ≠ 0) (rot u v : ℝ) (h : u ≠ 0 ∨ v ≠ 0) :
    gauss sx sy rot u v < 1 := by
  unfold gauss
  simp only
  rw [Real.exp_lt_one_iff]
  generalize ht : Real.pi / 180 * rot = t
  have h1 := Real.sin_sq_add_cos_sq t
  have pos : 0 < ((u * Real.cos t + v * Real.sin t) / sx) ^ 2 + ((v * Real.cos t - u * Real.sin t) / sy) ^ 2 := by
    by_contra hc
    have a1 := sq_nonneg ((u * Real.cos t + v * Real.sin t) / sx)
    have a2 := sq_nonneg ((v * Real.cos t - u * Real.sin t) / sy)
    have z1 : (u * Real.cos t + v * Real.sin t) / sx = 0 := pow_eq_zero_iff (two_ne_zero) |>.1 (by linarith)
    have z2 : (v * Real.cos t - u * Real.sin t) / sy = 0 := pow_eq_zero_iff (two_ne_zero) |>.1 (by linarith)
    rw [div_eq_zero_iff, or_iff_left hx] at z1
    rw [div_eq_zero_iff, or_iff_left hy] at z2
    rcases h with h | h
    · apply h
      have : u = u * (Real.sin t ^ 2 + Real.cos t ^ 2) := by rw [h1, mul_one]
      rw [this]
      linear_combination Real.cos t * z1 - Real.sin t * z2
    · apply h
      have : v = v * (Real.sin t ^ 2 + Real.cos t ^ 2) := by rw [h1, mul_one]
      rw [this]
      linear_combination Real.sin t * z1 + Real.cos t * z2
  linarith

/-- **C97 is false** on the CPU for *every* call with an even image and an even beam: the beam is centred one
pixel beyond the component along both axes.  With one component, at pixel `(x, y)`, what the sky model adds to
the residual is the component's flux at `(x + 1, y + 1)` and less at `(x, y)`. -/
theorem C97_shift_false (cuda : Bool) (last : Arr (Cell ℝ) → Arr (Cell ℝ) → Prop) (dm pm bm mm rm sm : Mem)
    (D n : Nat) (dirty psf det : Arr ℝ) (o : Out ℝ) (gain thr : ℝ)
    (h : CleanArgs .cpu dm pm bm mm rm sm D n dirty psf det o) (hD : D % 2 = 0) (hn : n % 2 = 0) (hg : 0 < gain)
    (x y : Nat) (hx : x + 1 < D) (hy : y + 1 < D) (hp : FirstMax dirty.get (D * D) (D * x + y))
    (ht : thr ≤ dirty.get (D * x + y)) (h0 : 0 < dirty.get (D * x + y)) (r : Option (Status × Out ℝ))
    (hr : CleanCall cuda last dm pm bm mm rm sm .success dirty psf det gain thr 1 o r) :
    ∃ out, r = some (.success, out) ∧ out.model.get (D * x + y) = gain * dirty.get (D * x + y) ∧
      out.sky.get (D * (x + 1) + (y + 1)) - out.res.get (D * (x + 1) + (y + 1)) = out.model.get (D * x + y) ∧
      out.sky.get (D * x + y) - out.res.get (D * x + y) < out.model.get (D * x + y) := by
  obtain ⟨out, rfl, hc⟩ := (C97_cpu_partial cuda last dm pm bm mm rm sm D n dirty psf det o gain thr 1 h hD hn hg
    (le_refl _)).2 r hr
  have hm := one_component hp ht hc.cycles
  have hx' : x < D := by omega
  have hy' : y < D := by omega
  have hb := h.beam.2.1
  have m0 : out.model.get (D * x + y) = gain * dirty.get (D * x + y) := by rw [hm _ (flat_lt hx' hy'), if_pos rfl]
  have pos : 0 < gain * dirty.get (D * x + y) := mul_pos hg h0
  refine ⟨out, rfl, m0, ?_, ?_⟩
  · rw [hc.sky _ hx _ hy, restored_one hx' hy' hm, m0, add_sub_cancel_left]
    have e1 : ((x + 1 : Nat) : Int) - x - 1 = 0 := by omega
    have e2 : ((y + 1 : Nat) : Int) - y - 1 = 0 := by omega
    rw [e1, e2]
    unfold stamp
    rw [if_pos (by omega)]
    simp only [Int.cast_zero]
    rw [gauss_zero, mul_one]
  · rw [hc.sky _ hx' _ hy', restored_one hx' hy' hm, m0, add_sub_cancel_left]
    have e1 : (x : Int) - x - 1 = -1 := by omega
    have e2 : (y : Int) - y - 1 = -1 := by omega
    rw [e1, e2]
    unfold stamp
    rw [if_pos (by omega)]
    have := gauss_lt_one h.widths.1 h.widths.2 (det.get 2) (((-1 : Int) : Int) : ℝ) (((-1 : Int) : Int) : ℝ)
      (.inl (by norm_num))
    calc _ < gain * dirty.get (D * x + y) * 1 := mul_lt_mul_of_pos_left this pos
      _ = _ := mul_one _

/-- **C97 is false** on the CPU for *every* image with an odd side: the convolution leaves its arrays. -/
theorem C97_odd_image_false (cuda : Bool) (last : Arr (Cell ℝ) → Arr (Cell ℝ) → Prop) (dm pm bm mm rm sm : Mem)
    (D n : Nat) (dirty psf det : Arr ℝ) (o : Out ℝ) (gain thr : ℝ) (limit : Int)
    (h : CleanArgs .cpu dm pm bm mm rm sm D n dirty psf det o) (hD : D % 2 = 1) (hg : 0 < gain) (hl : 1 ≤ limit)
    (r : Option (Status × Out ℝ))
    (hr : CleanCall cuda last dm pm bm mm rm sm .success dirty psf det gain thr limit o r) : r = none := by
  obtain ⟨o1, o2, -, -, rfl⟩ := (h.cpu hg hl thr cuda last r).1 hr
  have hb := h.beam.2.1
  have hp := h.pos
  have key : ∀ beam comps, restoreCpu o1 o2 beam D n comps = none := by
    intro beam comps
    unfold restoreCpu
    by_cases c : 1 < D + n - 1
    · rw [C25_odd_output_false o1 o2 D n hb hD _ _ (zeros D) rfl c]; rfl
    · obtain rfl : D = 1 := by omega
      obtain rfl : n = 1 := by omega
      rw [C25_one_pixel_false]; rfl
  have kk : ∀ beam, restoreCpu o1 o2 beam D n = fun _ => none := fun beam => funext fun c => key beam c
  have nn : ∀ (beam : Arr ℂ) (q : Out ℝ),
      cleanCpu (restoreCpu o1 o2 beam D n) psf D (2 * D) gain thr limit.toNat q = none := by
    intro beam q
    rw [kk]
    unfold cleanCpu
    simp
  simp only [nn]
  cases copyN dirty (D * D) o.res with
  | none => rfl
  | some res0 => cases createBeam det n (zeros n) <;> rfl

/-- An image of odd side is padded with rows one element too short. -/
theorem pad_short_rows (data : Arr ℂ) (n e P : Nat) (hd : n * n ≤ data.size) (he : n + 2 * e + 1 = P) :
    ∃ r, pad data n e (zeros P) = some r ∧ r.size = P * P ∧
      ∀ k, (∀ x < n, ∀ y < n, (x + e) * (n + 2 * e) + (y + e) ≠ k) → r.get k = 0 := by
  have hlt : ∀ i j, i < n + 2 * e → j < n + 2 * e → i * (n + 2 * e) + j < P * P := by
    intro i j hi hj
    have := flat_lt hi hj
    have h2 : (n + 2 * e) * (n + 2 * e) ≤ P * P := Nat.mul_le_mul (by omega) (by omega)
    rw [Nat.mul_comm i]; omega
  have hc : pad data n e (zeros P) = loop (fun padded (p : Nat × Nat) =>
      padded.write (((p.1 + e) * (n + 2 * e) + (p.2 + e) : Nat) : Int) (data.get (p.1 * n + p.2)))
      (zeros P) (nest2 n n) := by
    unfold pad
    apply loop_congr
    intro p hp d
    have hp := mem_nest2.1 hp
    have := flat_lt hp.1 hp.2
    rw [Arr.read_nat, if_pos (by rw [Nat.mul_comm p.1]; omega)]
    rfl
  obtain ⟨r, h1, h2, h3, h4⟩ := Arr.store_spec (nest2 n n)
    (fun p : Nat × Nat => (((p.1 + e) * (n + 2 * e) + (p.2 + e) : Nat) : Int))
    (fun p => data.get (p.1 * n + p.2)) (by
      refine List.Nodup.map_on ?_ (nest2_nodup n n)
      rintro ⟨i, j⟩ h ⟨i', j'⟩ h' hh
      have h := mem_nest2.1 h
      have h' := mem_nest2.1 h'
      simp only at h h' hh
      have := flat_inj (b := n + 2 * e) (i := i + e) (j := j + e) (i' := i' + e) (j' := j' + e)
        (by omega) (by omega) (by rw [Nat.mul_comm (n + 2 * e), Nat.mul_comm (n + 2 * e)]; exact_mod_cast hh)
      exact Prod.ext (by simp only; omega) (by simp only; omega)) (zeros P) (by
      intro p hp
      have hp := mem_nest2.1 hp
      have := hlt (p.1 + e) (p.2 + e) (by omega) (by omega)
      simp only [zeros]; omega)
  refine ⟨r, by rw [hc]; exact h1, by rw [h2]; rfl, fun k hk => ?_⟩
  rw [h4 k]
  · rfl
  · intro p hp he'
    have hp := mem_nest2.1 hp
    exact hk p.1 hp.1 p.2 hp.2 (by exact_mod_cast he')

/-- The convolution with a beam of odd side, of an image of even side of at least 4, puts nothing of a pixel on
that pixel. -/
theorem convolve_odd (o1 o2 : List Nat) (D n : Nat) (hD : D % 2 = 0) (hD4 : 4 ≤ D) (hn : n % 2 = 1) (hn3 : 3 ≤ n)
    (ho1 : o1.Perm (List.range (padDim D n))) (ho2 : o2.Perm (List.range (padDim D n))) (a b : Arr ℂ)
    (ha : a.size = D * D) (hb : b.size = n * n) :
    ∃ r, convolve o1 o2 a b D n (zeros D) = some r ∧ r.size = D * D ∧
      ∀ x < D, ∀ y < D, (∀ k < D * D, k ≠ D * x + y → a.get k = 0) → r.get (D * x + y) = 0 := by
  obtain ⟨h, hP, h0⟩ := padDim_even D n (by omega) (by omega) (by omega)
  have hge := (C25_pad_dim D n (by omega) (by omega)).2.1
  rw [hP] at ho1 ho2 hge
  obtain ⟨e1, he1⟩ : ∃ e1, D + 2 * e1 = 2 * h := ⟨(2 * h - D) / 2, by omega⟩
  obtain ⟨e2, he2⟩ : ∃ e2, n + 2 * e2 + 1 = 2 * h := ⟨(2 * h - n) / 2, by omega⟩
  have hee : (2 * h - n) / 2 = e2 := by omega
  obtain ⟨p, b1, b2, b3⟩ := pad_short_rows b n e2 (2 * h) (by omega) he2
  obtain ⟨r, r1, r2, r3, -⟩ := convolve_core o1 o2 h ho1 ho2 a b D n e1 hP he1 (by omega)
    (by omega) p b2 (by rw [hee]; exact b1) (zeros D) (by simp [zeros])
  refine ⟨r, r1, r2, fun x hx y hy hz => ?_⟩
  rw [Nat.mul_comm D x, r3 x hx y hy]
  refine Finset.sum_eq_zero fun s hs => Finset.sum_eq_zero fun t ht => ?_
  have hs := Finset.mem_range.1 hs
  have ht := Finset.mem_range.1 ht
  by_cases c : D * s + t = D * x + y
  · obtain ⟨rfl, rfl⟩ := flat_inj ht hy c
    have m1 : ∀ z : Nat, (z + 3 * h - 1 - z) % (2 * h) = h - 1 := by
      intro z
      rw [show z + 3 * h - 1 - z = h - 1 + 2 * h by omega, Nat.add_mod_right, Nat.mod_eq_of_lt (by omega)]
    rw [m1, m1, b3, mul_zero]
    intro u hu v hv e
    obtain ⟨g, rfl⟩ : ∃ g, h = g + 1 := ⟨h - 1, by omega⟩
    have hB : n + 2 * e2 = 2 * g + 1 := by omega
    have e' : (n + 2 * e2) * (u + e2) + (v + e2) = (n + 2 * e2) * g + 2 * g := by
      rw [Nat.mul_comm, e, hB]
      simp only [Nat.add_sub_cancel]
      ring
    have := (flat_inj (b := n + 2 * e2) (by omega) (by omega) e').2
    omega
  · have : a.get (s * D + t) = 0 := by
      rw [Nat.mul_comm s D]
      exact hz _ (flat_lt hs ht) c
    rw [this, zero_mul]

/-- **C97 is false** on the CPU for *every* image with an even side of at least 4 and *every* beam of odd side:
the beam is sheared, and a component contributes nothing to its own pixel of the sky model. -/
theorem C97_odd_beam_false (cuda : Bool) (last : Arr (Cell ℝ) → Arr (Cell ℝ) → Prop) (dm pm bm mm rm sm : Mem)
    (D n : Nat) (dirty psf det : Arr ℝ) (o : Out ℝ) (gain thr : ℝ)
    (h : CleanArgs .cpu dm pm bm mm rm sm D n dirty psf det o) (hD : D % 2 = 0) (hD4 : 4 ≤ D) (hn : n % 2 = 1)
    (hn3 : 3 ≤ n) (hg : 0 < gain)
    (x y : Nat) (hx : x < D) (hy : y < D) (hp : FirstMax dirty.get (D * D) (D * x + y))
    (ht : thr ≤ dirty.get (D * x + y)) (h0 : 0 < dirty.get (D * x + y)) (r : Option (Status × Out ℝ))
    (hr : CleanCall cuda last dm pm bm mm rm sm .success dirty psf det gain thr 1 o r) :
    ∃ out, r = some (.success, out) ∧ out.model.get (D * x + y) = gain * dirty.get (D * x + y) ∧
      0 < out.model.get (D * x + y) ∧ out.sky.get (D * x + y) = out.res.get (D * x + y) := by
  obtain ⟨o1, o2, p1, p2, rfl⟩ := (h.cpu hg (le_refl 1) thr cuda last r).1 hr
  obtain ⟨beam, b1, b2, -⟩ := createBeam_spec det h.detSize n h.widths.1 h.widths.2
  simp only [b1, Option.bind_some]
  have hcv : ∀ c : Arr ℝ, c.size = D * D → ∃ q, restoreCpu o1 o2 beam D n c = some q ∧ q.size = D * D ∧
      ∀ x < D, ∀ y < D, (∀ k < D * D, k ≠ D * x + y → c.get k = 0) → q.get (D * x + y) = 0 := by
    intro c hc
    obtain ⟨q, q1, q2, q3⟩ := convolve_odd o1 o2 D n hD hD4 hn hn3 p1 p2 (complexOf c) beam hc b2
    refine ⟨realOf q, by unfold restoreCpu; rw [q1]; rfl, q2, fun x hx y hy hz => ?_⟩
    show (q.get (D * x + y)).re = 0
    rw [q3 x hx y hy (fun k hk hne => by show ((c.get k : ℝ) : ℂ) = 0; rw [hz k hk hne]; rfl)]
    rfl
  obtain ⟨out, k, comps, cc, q1, q2, q3, q4, q5, q6, q7, q8⟩ := h.loop hg (le_refl 1) thr
    (restoreCpu o1 o2 beam D n) (fun c hc => by
      obtain ⟨q, c1, c2, -⟩ := hcv c hc
      exact ⟨q, c1, c2⟩)
  have hm := one_component hp ht ⟨k, by omega, q5, fun hk => q6 (by omega)⟩
  have m0 : out.model.get (D * x + y) = gain * dirty.get (D * x + y) := by
    rw [q7 _ (flat_lt hx hy), hm _ (flat_lt hx hy), if_pos rfl]
  refine ⟨out, by rw [q1]; rfl, m0, by rw [m0]; exact mul_pos hg h0, ?_⟩
  obtain ⟨q, c1, -, c3⟩ := hcv comps q3
  rw [q4] at c1
  cases c1
  rw [q8 _ (flat_lt hx hy), c3 x hx y hy (fun k hk hne => by rw [hm k hk, if_neg hne]), zero_add]

/-- **C97 is false** for a beam of 32768 pixels or more: undefined behaviour on the CPU, whatever the image. -/
theorem C97_large_beam_false (cuda : Bool) (last : Arr (Cell ℝ) → Arr (Cell ℝ) → Prop) (dm pm bm mm rm sm : Mem)
    (D n : Nat) (dirty psf det det' : Arr ℝ) (o : Out ℝ) (gain thr : ℝ) (limit : Int)
    (h : CleanArgs .cpu dm pm bm mm rm sm D n dirty psf det o) (hg : 0 < gain) (hl : 1 ≤ limit)
    (hs : det'.size = 4) (hb : 32768 ≤ det'.get 3) (r : Option (Status × Out ℝ))
    (hr : CleanCall cuda last dm pm bm mm rm sm .success dirty psf det' gain thr limit o r) : r = none := by
  have d1 := (shapeDim_of h.dshape).1
  have d2 := (shapeDim_of h.pshape).1
  obtain ⟨res0, c1, -, -⟩ := copyN_spec dirty o.res (D * D) (square_size h.ddata h.dshape).ge
    (square_size h.rdata h.rshape).ge
  have e3 : det'.read 3 = some (det'.get 3) := by
    have := Arr.read_nat det' 3; rw [if_pos (by omega)] at this; exact this
  have t : 32767 < trunc (det'.get 3) := by
    unfold trunc
    rw [if_pos (by linarith)]
    have : (32768 : Int) ≤ ⌊det'.get 3⌋ := Int.le_floor.2 (by exact_mod_cast hb)
    omega
  unfold CleanCall at hr
  simp only [h.check hg hl, d1, d2, Int.toNat_natCast, h.dloc, onHost, h.ploc, h.bloc, h.mloc, h.rloc, if_true] at hr
  rw [if_neg (by simp), if_pos h.dtype] at hr
  obtain ⟨r', hr, rfl⟩ := hr
  unfold CpuRun at hr
  simp only [c1, e3] at hr
  rw [if_pos t] at hr
  rw [hr]
  rfl

/-- **C97 is false** for images on the GPU with the beam parameters also there, which is not refused: the host
reads them through a device address. -/
theorem C97_gpu_details_false (cuda : Bool) (last : Arr (Cell ℝ) → Arr (Cell ℝ) → Prop) (dm pm bm bm' mm rm sm : Mem)
    (D n : Nat) (dirty psf det : Arr ℝ) (o : Out ℝ) (gain thr : ℝ) (limit : Int)
    (h : CleanArgs .gpu dm pm bm mm rm sm D n dirty psf det o) (hg : 0 < gain) (hl : 1 ≤ limit)
    (hs : bm' = { bm with location := .gpu }) (r : Option (Status × Out ℝ)) :
    CleanCall cuda last dm pm bm' mm rm sm .success dirty psf det gain thr limit o r ↔ r = none := by
  have hc : checkClean dm pm bm' mm rm sm gain limit .success = .success := by
    have := h.check hg hl
    rw [hs]
    exact this
  unfold CleanCall
  simp only [hc, h.dloc]
  rw [if_neg (by simp), if_pos h.dtype, if_pos (by rw [hs]; simp)]

/-! ## An example -/

/-- A 4 by 4 image with one source, its PSF, and a beam of 2 by 2 pixels: the hypotheses are met. -/
theorem exCall : CleanArgs .cpu (wrap .double [4, 4]) (wrap .double [8, 8]) (wrap .double [4]) (wrap .double [4, 4])
    (wrap .double [4, 4]) (wrap .double [4, 4]) 4 2 ⟨16, fun i => if i = 5 then 8 else 0⟩
    ⟨64, fun i => if i = 36 then 1 else 0⟩ ⟨4, fun i => if i = 3 then 2 else 1⟩
    ⟨⟨16, fun _ => 0⟩, ⟨16, fun _ => 0⟩, ⟨16, fun _ => 0⟩⟩ where
  pos := by decide
  dshape := ⟨by decide, by decide⟩
  pshape := ⟨by decide, by decide⟩
  bshape := ⟨by decide, by decide⟩
  mshape := ⟨by decide, by decide⟩
  rshape := ⟨by decide, by decide⟩
  sshape := ⟨by decide, by decide⟩
  ddata := ⟨by decide, by decide, by decide⟩
  pdata := ⟨by decide, by decide, by decide⟩
  bdata := ⟨by decide, by decide, by decide⟩
  mdata := ⟨by decide, by decide, by decide⟩
  rdata := ⟨by decide, by decide, by decide⟩
  sdata := ⟨by decide, by decide, by decide⟩
  dloc := by decide
  ploc := by decide
  bloc := by decide
  mloc := by decide
  rloc := by decide
  sloc := by decide
  dtype := .inl (by decide)
  ptype := by decide
  stype := by decide
  writable := ⟨by decide, by decide⟩
  widths := by simp
  beam := by
    refine ⟨?_, by decide, by decide⟩
    unfold trunc
    simp

example : ∃ out, CleanCall false WarpAny (wrap .double [4, 4]) (wrap .double [8, 8]) (wrap .double [4])
    (wrap .double [4, 4]) (wrap .double [4, 4]) (wrap .double [4, 4]) .success ⟨16, fun i => if i = 5 then 8 else 0⟩
    ⟨64, fun i => if i = 36 then 1 else 0⟩ ⟨4, fun i => if i = 3 then 2 else 1⟩ (1 / 2) 1 1
    ⟨⟨16, fun _ => 0⟩, ⟨16, fun _ => 0⟩, ⟨16, fun _ => 0⟩⟩ (some (.success, out)) ∧ out.model.get 5 = 4 ∧
    out.sky.get 10 - out.res.get 10 = 4 ∧ out.sky.get 5 - out.res.get 5 < 4 := by
  obtain ⟨r, hr⟩ := (C97_cpu_partial false WarpAny _ _ _ _ _ _ 4 2 _ _ _ _ (1 / 2) 1 1 exCall (by decide) (by decide)
    (by norm_num) (by norm_num)).1
  have hp : FirstMax (fun i : Nat => if i = 5 then (8 : ℝ) else 0) (4 * 4) (4 * 1 + 1) := by
    refine ⟨by decide, fun j _ => ?_, fun j hj => ?_⟩
    · show (if j = 5 then (8 : ℝ) else 0) ≤ if 5 = 5 then 8 else 0
      rw [if_pos rfl]; split <;> norm_num
    · show (if j = 5 then (8 : ℝ) else 0) < if 5 = 5 then 8 else 0
      rw [if_pos rfl, if_neg (by omega)]; norm_num
  obtain ⟨out, rfl, h1, h2, h3⟩ := C97_shift_false false WarpAny _ _ _ _ _ _ 4 2 _ _ _ _ (1 / 2) 1 exCall (by decide)
    (by decide) (by norm_num) 1 1 (by decide) (by decide) hp (by simp) (by simp) r hr
  rw [h1] at h2 h3
  refine ⟨out, hr, by rw [show (5 : Nat) = 4 * 1 + 1 from rfl, h1]; norm_num, ?_, ?_⟩
  · rw [show (10 : Nat) = 4 * (1 + 1) + (1 + 1) from rfl, h2]; norm_num
  · rw [show (5 : Nat) = 4 * 1 + 1 from rfl]
    refine lt_of_lt_of_le h3 ?_
    norm_num

/-- The same in GPU memory, 16 by 16 pixels, with a beam of 3 by 3. -/
theorem exGpu : CleanArgs .gpu { wrap .float [16, 16] with location := .gpu }
    { wrap .float [32, 32] with location := .gpu } (wrap .float [4]) { wrap .float [16, 16] with location := .gpu }
    { wrap .float [16, 16] with location := .gpu } { wrap .float [16, 16] with location := .gpu } 16 3
    ⟨256, fun i => if i = 5 then 8 else 0⟩ ⟨1024, fun i => if i = 528 then 1 else 0⟩
    ⟨4, fun i => if i = 3 then 3 else 1⟩ ⟨⟨256, fun _ => 0⟩, ⟨256, fun _ => 0⟩, ⟨256, fun _ => 0⟩⟩ where
  pos := by decide
  dshape := ⟨by decide, by decide⟩
  pshape := ⟨by decide, by decide⟩
  bshape := ⟨by decide, by decide⟩
  mshape := ⟨by decide, by decide⟩
  rshape := ⟨by decide, by decide⟩
  sshape := ⟨by decide, by decide⟩
  ddata := ⟨by decide, by decide, by decide⟩
  pdata := ⟨by decide, by decide, by decide⟩
  bdata := ⟨by decide, by decide, by decide⟩
  mdata := ⟨by decide, by decide, by decide⟩
  rdata := ⟨by decide, by decide, by decide⟩
  sdata := ⟨by decide, by decide, by decide⟩
  dloc := by decide
  ploc := by decide
  bloc := by decide
  mloc := by decide
  rloc := by decide
  sloc := by decide
  dtype := .inr (by decide)
  ptype := by decide
  stype := by decide
  writable := ⟨by decide, by decide⟩
  widths := by simp
  beam := by
    refine ⟨?_, by decide, by decide⟩
    unfold trunc
    simp

example : ∃ out, GpuRun WarpLock ⟨256, fun i => if i = 5 then 8 else 0⟩ ⟨1024, fun i => if i = 528 then 1 else 0⟩
    ⟨4, fun i => if i = 3 then 3 else 1⟩ 16 32 (1 / 2) 1 7
    ⟨⟨256, fun _ => 0⟩, ⟨256, fun _ => 0⟩, ⟨256, fun _ => 0⟩⟩ out :=
  (C97_gpu_partial _ _ _ _ _ _ 16 3 _ _ _ _ (1 / 2) 1 7 exGpu (.inl rfl) (by decide)).1

end
end Sdp.Hogbom
