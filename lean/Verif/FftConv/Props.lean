import Verif.FftConv.Spec

/-!
# C25: FFT convolution is the linear convolution
-/

namespace Sdp.FftConv
open Sdp.Fft
noncomputable section

/-- Specification: an `n` by `n` image, zero outside. -/
def at0 (n : Nat) (b : Nat → Nat → ℂ) (x y : Int) : ℂ :=
  if 0 ≤ x ∧ x < n ∧ 0 ≤ y ∧ y < n then b x.toNat y.toNat else 0

/-- Specification: linear convolution of an `n1` by `n1` image with an `n2` by `n2` one, the
origin of the second being at pixel `(c1, c2)`. -/
def linConv (n1 n2 : Nat) (a b : Nat → Nat → ℂ) (c1 c2 : Int) (i j : Nat) : ℂ :=
  ∑ s ∈ Finset.range n1, ∑ t ∈ Finset.range n1, a s t * at0 n2 b (i + c1 - s) (j + c2 - t)

/-- `padDim` is a power of two, at least `n1 + n2 - 1`, and the smallest such. -/
theorem C25_pad_dim (n1 n2 : Nat) (h1 : 0 < n1) (h2 : 0 < n2) :
    (∃ k, padDim n1 n2 = 2 ^ k) ∧ n1 + n2 - 1 ≤ padDim n1 n2 ∧
      ∀ k, n1 + n2 - 1 ≤ 2 ^ k → padDim n1 n2 ≤ 2 ^ k := by
  have h : padDim n1 n2 = 2 ^ Nat.clog 2 (n1 + n2 - 1) := nextPow2_spec _ (by omega)
  rw [h]
  refine ⟨⟨_, rfl⟩, Nat.le_pow_clog (by norm_num) _, fun k hk => ?_⟩
  exact Nat.pow_le_pow_right (by norm_num) ((Nat.clog_le_iff_le_pow (by norm_num)).2 hk)

theorem padDim_even (n1 n2 : Nat) (h1 : 0 < n1) (h2 : 0 < n2) (h : 3 ≤ n1 + n2) :
    ∃ k, padDim n1 n2 = 2 * k ∧ 0 < k := by
  obtain ⟨⟨k, hk⟩, hge, _⟩ := C25_pad_dim n1 n2 h1 h2
  cases k with
  | zero => rw [hk] at hge; norm_num at hge; omega
  | succ k => exact ⟨2 ^ k, by rw [hk, pow_succ]; ring, by positivity⟩

theorem window_sum (n e : Nat) (f : Nat → ℂ) (h1 : ∀ s < e, f s = 0)
    (h2 : ∀ s, e + n ≤ s → s < n + 2 * e → f s = 0) :
    ∑ s ∈ Finset.range (n + 2 * e), f s = ∑ s ∈ Finset.range n, f (e + s) := by
  rw [show n + 2 * e = (e + n) + e by omega, Finset.sum_range_add, Finset.sum_range_add,
    Finset.sum_eq_zero (s := Finset.range e), Finset.sum_eq_zero (s := Finset.range e)]
  · simp
  · intro x hx; have := Finset.mem_range.1 hx; exact h2 _ (by omega) (by omega)
  · intro x hx; exact h1 _ (Finset.mem_range.1 hx)

/-- Everything after the padding of the second input. -/
theorem convolve_core (o1 o2 : List Nat) (h : Nat)
    (ho1 : o1.Perm (List.range (2 * h))) (ho2 : o2.Perm (List.range (2 * h)))
    (in1 in2 : Arr ℂ) (n1 n2 e1 : Nat) (hP : padDim n1 n2 = 2 * h) (hn1 : n1 + 2 * e1 = 2 * h)
    (he1 : 0 < e1) (hi1 : n1 * n1 ≤ in1.size) (b : Arr ℂ) (hb : b.size = 2 * h * (2 * h))
    (hpad : pad in2 n2 ((2 * h - n2) / 2) (zeros (2 * h)) = some b)
    (out : Arr ℂ) (ho : n1 * n1 ≤ out.size) :
    ∃ r, convolve o1 o2 in1 in2 n1 n2 out = some r ∧ r.size = out.size ∧
      (∀ i < n1, ∀ j < n1, r.get (i * n1 + j) =
        ∑ s ∈ Finset.range n1, ∑ t ∈ Finset.range n1, in1.get (s * n1 + t) *
          b.get ((i + 3 * h - 1 - s) % (2 * h) * (2 * h) + (j + 3 * h - 1 - t) % (2 * h))) ∧
      ∀ k, n1 * n1 ≤ k → r.get k = out.get k := by
  have hee : (2 * h - n1) / 2 = e1 := by omega
  obtain ⟨a, ha1, ha2, ha3⟩ := pad_spec in1 n1 e1 (2 * h) hi1 hn1
  have hz : (zeros (2 * h)).size = 2 * h * (2 * h) * 1 := by simp [zeros]
  obtain ⟨fa, fa1, fa2, fa3, fa4⟩ := exec2_spec (2 * h) (2 * h) 1 o1 o2 ho1 ho2 1 true a a
    (zeros (2 * h)) (fun _ i j => a.get (i * (2 * h) + j)) (by omega) (by omega) hz
    (by intro f hf i _ j _; have : f = 0 := by omega
        subst this; simp) (fun _ => rfl)
  obtain ⟨fb, fb1, fb2, fb3, fb4⟩ := exec2_spec (2 * h) (2 * h) 1 o1 o2 ho1 ho2 1 true b b
    (zeros (2 * h)) (fun _ i j => b.get (i * (2 * h) + j)) (by omega) (by omega) hz
    (by intro f hf i _ j _; have : f = 0 := by omega
        subst this; simp) (fun _ => rfl)
  obtain ⟨m, m1, m2, m3⟩ := multiply_spec fa.inp fb.inp (2 * h * (2 * h)) (zeros (2 * h))
    (by omega) (by omega) (by omega)
  obtain ⟨fm, fm1, fm2, fm3, fm4⟩ := exec2_spec (2 * h) (2 * h) 1 o1 o2 ho1 ho2 0 true m m
    (zeros (2 * h)) (fun _ i j => m.get (i * (2 * h) + j)) (by omega) (by omega) hz
    (by intro f hf i _ j _; have : f = 0 := by omega
        subst this; simp) (fun _ => rfl)
  obtain ⟨d, d1, d2, d3⟩ := normalise_spec (2 * h * (2 * h)) fm.inp (by omega)
  obtain ⟨s, s1, s2, s3⟩ := shift_spec h d d2
  obtain ⟨r, r1, r2, r3, r4⟩ := removePad_spec s n1 e1 he1 out (by rw [hn1]; exact s2) ho
  have hlt : ∀ i j, i < 2 * h → j < 2 * h → i * (2 * h) + j < (2 * h) * (2 * h) := by
    intro i j hi hj
    have := flat_lt hi hj
    rw [Nat.mul_comm i]; exact this
  refine ⟨r, ?_, r2, ?_, r4⟩
  · unfold convolve
    simp only [hP, hee]
    rw [ha1]; simp only [Option.bind_some]
    rw [hpad]; simp only [Option.bind_some]
    rw [fa1]; simp only [Option.bind_some]
    rw [fb1]; simp only [Option.bind_some]
    rw [m1]; simp only [Option.bind_some]
    rw [fm1]; simp only [Option.bind_some]
    rw [d1]; simp only [Option.bind_some]
    rw [s1]; simp only [Option.bind_some]
    rw [hn1] at r1; exact r1
  · have hd : ∀ i < 2 * h, ∀ j < 2 * h, d.get (i * (2 * h) + j) =
        circ (2 * h) (fun i j => a.get (i * (2 * h) + j)) (fun i j => b.get (i * (2 * h) + j))
          i j := by
      intro i hi j hj
      rw [d3 _ (hlt i j hi hj)]
      have := fm4 0 (by omega) i hi j hj
      simp only [Nat.mul_zero, Nat.zero_add] at this
      rw [this, show (!decide ((0 : Int) = 1)) = true by decide]
      rw [dft2_congr true (2 * h) (2 * h)
        (y := fun k1 k2 => dft2 false (2 * h) (2 * h) (fun i j => a.get (i * (2 * h) + j)) k1 k2 *
          dft2 false (2 * h) (2 * h) (fun i j => b.get (i * (2 * h) + j)) k1 k2)]
      · rw [circ_of_product _ _ _ _ _ hi hj]
        have : ((2 * h : Nat) : ℂ) ≠ 0 := by
          have : (2 * h : Nat) ≠ 0 := by omega
          exact_mod_cast this
        rw [Nat.cast_mul (2 * h) (2 * h), mul_div_cancel_left₀ _ (mul_ne_zero this this)]
      · intro k1 hk1 k2 hk2
        rw [m3 _ (hlt _ _ hk1 hk2)]
        have a4 := fa4 0 (by omega) k1 hk1 k2 hk2
        have b4 := fb4 0 (by omega) k1 hk1 k2 hk2
        simp only [Nat.mul_zero, Nat.zero_add] at a4 b4
        rw [a4, b4]; rfl
    intro i hi j hj
    have hP0 : 0 < 2 * h := by omega
    rw [r3 i hi j hj, hn1, s3 _ (by omega) _ (by omega),
      hd _ (Nat.mod_lt _ hP0) _ (Nat.mod_lt _ hP0)]
    unfold circ
    rw [← hn1, window_sum n1 e1, hn1]
    · refine Finset.sum_congr rfl fun s hs => ?_
      have hs := Finset.mem_range.1 hs
      rw [← hn1, window_sum n1 e1, hn1]
      · refine Finset.sum_congr rfl fun t ht => ?_
        have ht := Finset.mem_range.1 ht
        simp only [Nat.mod_add_mod]
        rw [ha3 _ (by omega) _ (by omega), if_pos (by omega),
          show e1 + s - e1 = s by omega, show e1 + t - e1 = t by omega,
          show i + e1 - 1 + h + (2 * h - (e1 + s)) = i + 3 * h - 1 - s by omega,
          show j + e1 - 1 + h + (2 * h - (e1 + t)) = j + 3 * h - 1 - t by omega]
      · intro t ht
        simp only [hn1]
        rw [ha3 _ (by omega) _ (by omega), if_neg (by omega), zero_mul]
      · intro t ht ht'
        simp only [hn1]
        rw [ha3 _ (by omega) _ (by omega), if_neg (by omega), zero_mul]
    · intro s hs
      refine Finset.sum_eq_zero fun t ht => ?_
      have ht := Finset.mem_range.1 ht
      simp only [hn1]
      rw [ha3 _ (by omega) _ (by omega), if_neg (by omega), zero_mul]
    · intro s hs hs'
      refine Finset.sum_eq_zero fun t ht => ?_
      have ht := Finset.mem_range.1 ht
      simp only [hn1]
      rw [ha3 _ (by omega) _ (by omega), if_neg (by omega), zero_mul]

/-- Where the wrapped index of the padded second image lands. -/
theorem wrap_index (h n1 n2 e2 i s : Nat) (hn2 : n2 + 2 * e2 = 2 * h) (hb : n1 + n2 - 1 ≤ 2 * h)
    (h2 : 2 ≤ n2) (hev : n2 % 2 = 0) (hi : i < n1) (hs : s < n1) (hn1 : n1 < 2 * h) :
    let T := (i + 3 * h - 1 - s) % (2 * h)
    (e2 ≤ T ∧ T < e2 + n2 ↔ 0 ≤ (i : Int) + ((n2 / 2 : Nat) - 1) - s ∧
        (i : Int) + ((n2 / 2 : Nat) - 1) - s < n2) ∧
      (e2 ≤ T ∧ T < e2 + n2 → T - e2 = ((i : Int) + ((n2 / 2 : Nat) - 1) - s).toNat) := by
  intro T
  have hT : T = i + 3 * h - 1 - s ∧ i + 3 * h - 1 - s < 2 * h ∨
      T + 2 * h = i + 3 * h - 1 - s ∧ T < 2 * h ∨
      T + 4 * h = i + 3 * h - 1 - s ∧ T < 2 * h := by
    rcases Nat.lt_or_ge (i + 3 * h - 1 - s) (2 * h) with c | c
    · exact Or.inl ⟨Nat.mod_eq_of_lt c, c⟩
    · rcases Nat.lt_or_ge (i + 3 * h - 1 - s) (4 * h) with c' | c'
      · right; left
        have : T = i + 3 * h - 1 - s - 2 * h := by
          show (i + 3 * h - 1 - s) % (2 * h) = _
          rw [Nat.mod_eq_sub_mod c, Nat.mod_eq_of_lt (by omega)]
        omega
      · right; right
        have : T = i + 3 * h - 1 - s - 2 * h - 2 * h := by
          show (i + 3 * h - 1 - s) % (2 * h) = _
          rw [Nat.mod_eq_sub_mod c, Nat.mod_eq_sub_mod (by omega), Nat.mod_eq_of_lt (by omega)]
        omega
  omega

/-- C25.  For every pair of square images with *even* sides at least 2, every contents, every
order of the transforms' batch loops and every output buffer with room for the result: the call
stays inside its buffers, and output pixel `(i, j)` is the linear (not circular) convolution,
the origin of the second image being its pixel `(n2/2 - 1, n2/2 - 1)`; nothing else is
written.  Missing from the full property: odd sides, for which it is false
(`C25_odd_output_false`, `C25_odd_kernel_false`). -/
theorem C25_fft_convolution_partial (o1 o2 : List Nat) (n1 n2 : Nat)
    (ho1 : o1.Perm (List.range (padDim n1 n2))) (ho2 : o2.Perm (List.range (padDim n1 n2)))
    (hn1 : 2 ≤ n1) (hn2 : 2 ≤ n2) (hev1 : n1 % 2 = 0) (hev2 : n2 % 2 = 0)
    (in1 in2 out : Arr ℂ) (hi1 : in1.size = n1 * n1) (hi2 : in2.size = n2 * n2)
    (ho : n1 * n1 ≤ out.size) :
    ∃ r, convolve o1 o2 in1 in2 n1 n2 out = some r ∧ r.size = out.size ∧
      (∀ i < n1, ∀ j < n1, r.get (i * n1 + j) =
        linConv n1 n2 (fun s t => in1.get (s * n1 + t)) (fun s t => in2.get (s * n2 + t))
          ((n2 / 2 : Nat) - 1) ((n2 / 2 : Nat) - 1) i j) ∧
      ∀ k, n1 * n1 ≤ k → r.get k = out.get k := by
  obtain ⟨h, hP, h0⟩ := padDim_even n1 n2 (by omega) (by omega) (by omega)
  have hge := (C25_pad_dim n1 n2 (by omega) (by omega)).2.1
  rw [hP] at ho1 ho2 hge
  obtain ⟨e1, he1⟩ : ∃ e1, n1 + 2 * e1 = 2 * h := ⟨(2 * h - n1) / 2, by omega⟩
  obtain ⟨e2, he2⟩ : ∃ e2, n2 + 2 * e2 = 2 * h := ⟨(2 * h - n2) / 2, by omega⟩
  have hee : (2 * h - n2) / 2 = e2 := by omega
  obtain ⟨b, b1, b2, b3⟩ := pad_spec in2 n2 e2 (2 * h) (by omega) he2
  obtain ⟨r, r1, r2, r3, r4⟩ := convolve_core o1 o2 h ho1 ho2 in1 in2 n1 n2 e1 hP he1 (by omega)
    (by omega) b b2 (by rw [hee]; exact b1) out ho
  refine ⟨r, r1, r2, fun i hi j hj => ?_, r4⟩
  rw [r3 i hi j hj]
  unfold linConv
  refine Finset.sum_congr rfl fun s hs => Finset.sum_congr rfl fun t ht => ?_
  have hs := Finset.mem_range.1 hs
  have ht := Finset.mem_range.1 ht
  congr 1
  have hm : 0 < 2 * h := by omega
  rw [b3 _ (Nat.mod_lt _ hm) _ (Nat.mod_lt _ hm)]
  obtain ⟨a1, a2⟩ := wrap_index h n1 n2 e2 i s he2 hge hn2 hev2 hi hs (by omega)
  obtain ⟨c1, c2⟩ := wrap_index h n1 n2 e2 j t he2 hge hn2 hev2 hj ht (by omega)
  unfold at0
  by_cases hc : e2 ≤ (i + 3 * h - 1 - s) % (2 * h) ∧ (i + 3 * h - 1 - s) % (2 * h) < e2 + n2 ∧
      e2 ≤ (j + 3 * h - 1 - t) % (2 * h) ∧ (j + 3 * h - 1 - t) % (2 * h) < e2 + n2
  · rw [if_pos hc, if_pos ⟨(a1.1 ⟨hc.1, hc.2.1⟩).1, (a1.1 ⟨hc.1, hc.2.1⟩).2,
      (c1.1 hc.2.2).1, (c1.1 hc.2.2).2⟩, a2 ⟨hc.1, hc.2.1⟩, c2 hc.2.2]
  · rw [if_neg hc, if_neg]
    rintro ⟨x1, x2, x3, x4⟩
    exact hc ⟨(a1.2 ⟨x1, x2⟩).1, (a1.2 ⟨x1, x2⟩).2, (c1.2 ⟨x3, x4⟩).1, (c1.2 ⟨x3, x4⟩).2⟩

/-- Non-trivial instance: a 2 by 2 image and a 4 by 4 kernel. -/
example : ∃ r, convolve (List.range (padDim 2 4)) (List.range (padDim 2 4))
    ⟨4, fun k => if k = 3 then 2 else 0⟩ ⟨16, fun k => (k : ℂ)⟩ 2 4 ⟨4, fun _ => 0⟩ = some r ∧
    r.get (1 * 2 + 0) = 8 := by
  obtain ⟨r, h, _, v, _⟩ := C25_fft_convolution_partial (List.range (padDim 2 4))
    (List.range (padDim 2 4)) 2 4 (List.Perm.refl _) (List.Perm.refl _) (by norm_num)
    (by norm_num) (by norm_num) (by norm_num) ⟨4, fun k => if k = 3 then 2 else 0⟩
    ⟨16, fun k => (k : ℂ)⟩ ⟨4, fun _ => 0⟩ rfl rfl (le_refl _)
  refine ⟨r, h, ?_⟩
  rw [v 1 (by omega) 0 (by omega)]
  simp [linConv, Finset.sum_range_succ, at0]; norm_num

/-! ## Odd sides -/

theorem write_size {a r : Arr ℂ} {i : Int} {v : ℂ} (h : a.write i v = some r) :
    r.size = a.size := by
  unfold Arr.write at h
  split at h
  · cases h; rfl
  · cases h

theorem removePad_none (padded out : Arr ℂ) (P e : Nat) (h : out.size < (P - 2 * e) * (P - 2 * e)) :
    removePad padded P e out = none := by
  have hn : 0 < P - 2 * e := by
    rcases Nat.eq_zero_or_pos (P - 2 * e) with h0 | h0
    · rw [h0] at h; omega
    · exact h0
  unfold removePad
  refine loop_none (fun s => s.size = out.size) _ ?_ (P - 2 * e - 1, P - 2 * e - 1) ?_ _ _ rfl
    (mem_nest2.2 ⟨by simp only; omega, by simp only; omega⟩)
  · intro s x s' hs hx
    cases hr : padded.read (((x.1 : Int) + ((e : Int) - 1)) * P + ((x.2 : Int) + ((e : Int) - 1)))
      with
    | none => rw [hr] at hx; cases hx
    | some v => rw [hr] at hx; rw [write_size hx, hs]
  · intro s hs
    simp only
    cases hr : padded.read ((((P - 2 * e - 1 : Nat) : Int) + ((e : Int) - 1)) * P +
      (((P - 2 * e - 1 : Nat) : Int) + ((e : Int) - 1))) with
    | none => rfl
    | some v =>
      simp only [Option.bind_some]
      rw [Arr.write_nat, if_neg]
      rw [hs]
      obtain ⟨n, hn'⟩ : ∃ n, P - 2 * e = n + 1 := ⟨P - 2 * e - 1, by omega⟩
      rw [hn'] at h ⊢
      have : (n + 1) * (n + 1) = n * (n + 1) + (n + 1) := by ring
      simp only [Nat.add_sub_cancel]
      omega

theorem bind_none {α β : Type} (x : Option α) : (x.bind fun _ => (none : Option β)) = none := by
  cases x <;> rfl

/-- C25 is false for odd output sides: with an output of exactly `n1 * n1` elements, *every*
call with `n1` odd leaves its buffers (the copy of the result writes `(n1 + 1)` squared
elements). -/
theorem C25_odd_output_false (o1 o2 : List Nat) (n1 n2 : Nat) (hn2 : 0 < n2) (hodd : n1 % 2 = 1)
    (in1 in2 out : Arr ℂ) (ho : out.size = n1 * n1) (h1 : 1 < n1 + n2 - 1) :
    convolve o1 o2 in1 in2 n1 n2 out = none := by
  obtain ⟨h, hP, h0⟩ := padDim_even n1 n2 (by omega) (by omega) (by omega)
  have hge := (C25_pad_dim n1 n2 (by omega) (by omega)).2.1
  have hs : out.size < (padDim n1 n2 - 2 * ((padDim n1 n2 - n1) / 2)) *
      (padDim n1 n2 - 2 * ((padDim n1 n2 - n1) / 2)) := by
    rw [ho]
    exact Nat.mul_self_lt_mul_self (by omega)
  unfold convolve
  simp only [removePad_none _ out _ _ hs, bind_none]

/-- The smallest odd case: 1 by 1 images, read of element -2. -/
theorem C25_one_pixel_false (o1 o2 : List Nat) (in1 in2 out : Arr ℂ) :
    convolve o1 o2 in1 in2 1 1 out = none := by
  have hP : padDim 1 1 = 1 := by
    have := nextPow2_spec 1 (by norm_num)
    simpa [padDim] using this
  have : ∀ p out, removePad p 1 ((1 - 1) / 2) out = none := by
    intro p out
    unfold removePad
    refine loop_none (fun _ => True) _ (fun _ _ _ _ _ => trivial) (0, 0) ?_ _ _ trivial
      (mem_nest2.2 (by simp))
    intro s _
    simp [Arr.read]
  unfold convolve
  simp only [hP, this, bind_none]

/-- With no room to pad on each side the image is stored with its own row length. -/
theorem pad_zero (data : Arr ℂ) (n P : Nat) (hd : data.size = n * n) (hn : n ≤ P) :
    ∃ r, pad data n 0 (zeros P) = some r ∧ r.size = P * P ∧
      (∀ k < n * n, r.get k = data.get k) ∧ ∀ k, n * n ≤ k → r.get k = 0 := by
  have hlt : ∀ i j, i < n → j < n → i * n + j < n * n := by
    intro i j hi hj
    have := flat_lt hi hj
    rw [Nat.mul_comm i]; exact this
  have hnn : n * n ≤ P * P := Nat.mul_le_mul hn hn
  have hc : pad data n 0 (zeros P) = loop (fun padded (p : Nat × Nat) =>
      padded.write ((p.1 * n + p.2 : Nat) : Int) (data.get (p.1 * n + p.2)))
      (zeros P) (nest2 n n) := by
    unfold pad
    simp only [Nat.mul_zero, Nat.add_zero]
    apply loop_congr
    intro p hp d
    have hp := mem_nest2.1 hp
    have := hlt p.1 p.2 hp.1 hp.2
    rw [Arr.read_nat, if_pos (by omega)]
    rfl
  obtain ⟨r, h1, h2, h3, h4⟩ := Arr.store_spec (nest2 n n)
    (fun p : Nat × Nat => ((p.1 * n + p.2 : Nat) : Int))
    (fun p => data.get (p.1 * n + p.2)) (by
      refine List.Nodup.map_on ?_ (nest2_nodup n n)
      rintro ⟨i, j⟩ h ⟨i', j'⟩ h' hh
      have h := mem_nest2.1 h
      have h' := mem_nest2.1 h'
      simp only at h h' hh
      have := flat_inj (b := n) (i := i) (j := j) (i' := i') (j' := j')
        (by omega) (by omega) (by rw [Nat.mul_comm n, Nat.mul_comm n]; exact_mod_cast hh)
      exact Prod.ext this.1 this.2) (zeros P) (by
      intro p hp
      have hp := mem_nest2.1 hp
      have := hlt p.1 p.2 hp.1 hp.2
      simp only [zeros]; omega)
  refine ⟨r, by rw [hc]; exact h1, by rw [h2]; rfl, fun k hk => ?_, fun k hk => ?_⟩
  · have hn0 : 0 < n := by
      rcases Nat.eq_zero_or_pos n with h | h
      · subst h; simp at hk
      · exact h
    have := h3 (k / n, k % n) (mem_nest2.2 ⟨Nat.div_lt_of_lt_mul hk, Nat.mod_lt _ hn0⟩)
    simp only [Int.toNat_natCast] at this
    rwa [Nat.div_add_mod'] at this
  · rw [h4 k]
    · rfl
    · intro p hp he
      have hp := mem_nest2.1 hp
      have := hlt p.1 p.2 hp.1 hp.2
      omega

/-- C25 is false for odd kernel sides even when the output side is even: a 2 by 2 image with a
single 1 and a 3 by 3 kernel.  The result is not a convolution with the kernel for *any*
choice of origin. -/
theorem C25_odd_kernel_false :
    ∃ in1 in2 out r : Arr ℂ, in1.size = 4 ∧ in2.size = 9 ∧ out.size = 4 ∧
      convolve (List.range 4) (List.range 4) in1 in2 2 3 out = some r ∧
      ¬ ∃ c1 c2 : Int, ∀ i < 2, ∀ j < 2, r.get (i * 2 + j) =
        linConv 2 3 (fun s t => in1.get (s * 2 + t)) (fun s t => in2.get (s * 3 + t)) c1 c2 i j := by
  have hP : padDim 2 3 = 2 * 2 := by
    have := nextPow2_spec 4 (by norm_num)
    rw [show (4 : Nat) = 2 ^ 2 by norm_num, Nat.clog_pow 2 2 (by norm_num)] at this
    simpa [padDim] using this
  let in1 : Arr ℂ := ⟨4, fun k => if k = 0 then 1 else 0⟩
  let in2 : Arr ℂ := ⟨9, fun k => (k : ℂ) + 1⟩
  obtain ⟨b, b1, b2, b3, b4⟩ := pad_zero in2 3 (2 * 2) rfl (by norm_num)
  obtain ⟨r, r1, _, r3, _⟩ := convolve_core (List.range 4) (List.range 4) 2 (List.Perm.refl _)
    (List.Perm.refl _) in1 in2 2 3 1 hP (by norm_num) (by norm_num) (le_refl 4) b b2 b1
    ⟨4, fun _ => 0⟩ (le_refl 4)
  refine ⟨in1, in2, ⟨4, fun _ => 0⟩, r, rfl, rfl, rfl, r1, ?_⟩
  rintro ⟨c1, c2, h⟩
  have v1 := r3 0 (by norm_num) 0 (by norm_num)
  have v2 := r3 0 (by norm_num) 1 (by norm_num)
  rw [h 0 (by norm_num) 0 (by norm_num)] at v1
  rw [h 0 (by norm_num) 1 (by norm_num)] at v2
  have e5 := b3 5 (by norm_num)
  have e6 := b3 6 (by norm_num)
  simp [linConv, Finset.sum_range_succ, in1, in2, e5, e6, at0] at v1 v2
  split at v1
  · rename_i hc
    obtain ⟨c11, c12, c21, c22⟩ := hc
    have hx : c1.toNat * 3 + c2.toNat = 5 := by
      have : ((c1.toNat * 3 + c2.toNat : Nat) : ℂ) = 5 := by push_cast; linear_combination v1
      exact_mod_cast this
    have : c2 = 2 := by omega
    subst this
    simp at v2
    norm_num at v2
  · norm_num at v1

end
end Sdp.FftConv
