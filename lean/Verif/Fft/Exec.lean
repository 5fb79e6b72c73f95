import Verif.Fft.Stage

/-!
# The batched one- and two-dimensional transforms
-/

namespace Sdp.Fft
noncomputable section
open Complex

theorem bitCount_zero : bitCount 0 = (0, 0) := by rw [bitCount]; simp

theorem bitCount_pos {n : Nat} (h : n ≠ 0) :
    bitCount n = ((if n % 2 = 1 then 1 else 0) + (bitCount (n / 2)).1, (bitCount (n / 2)).2 + 1) := by
  rw [bitCount]
  simp [h, Nat.shiftRight_eq_div_pow]

theorem bitCount_ne_zero {n : Nat} (h : n ≠ 0) : (bitCount n).1 ≠ 0 := by
  induction n using Nat.strong_induction_on with
  | _ n ih =>
    rw [bitCount_pos h]
    by_cases h1 : n % 2 = 1
    · simp only [h1, if_true]; omega
    · have := ih (n / 2) (by omega) (by omega)
      simp only [h1, if_false]; omega

/-- The bit count recognises exactly the powers of two and their exponent. -/
theorem bitCount_spec (n : Nat) (h : (bitCount n).1 = 1) : n = 2 ^ ((bitCount n).2 - 1) := by
  induction n using Nat.strong_induction_on with
  | _ n ih =>
    have hn : n ≠ 0 := by rintro rfl; rw [bitCount_zero] at h; simp at h
    rw [bitCount_pos hn] at h ⊢
    simp only at h ⊢
    by_cases h1 : n % 2 = 1
    · rw [if_pos h1] at h
      have h0 : n / 2 = 0 := by
        by_contra hh
        have := bitCount_ne_zero hh
        omega
      rw [h0, bitCount_zero]
      simp only
      have : n = 1 := by omega
      rw [this]; rfl
    · rw [if_neg h1, zero_add] at h
      have := ih (n / 2) (by omega) h
      have hne : n / 2 ≠ 0 := by rintro hh; rw [hh, bitCount_zero] at h; simp at h
      have h2 : (bitCount (n / 2)).2 ≠ 0 := by rw [bitCount_pos hne]; simp
      have e : n = 2 * (n / 2) := by omega
      rw [Nat.add_sub_cancel]
      conv_lhs => rw [e, this]
      rw [← pow_succ']
      congr 1; omega

theorem dftRow_spec (inp : Arr ℂ) (b n : Nat) (inv : Bool) (x : Nat → ℂ) (hx : Seg inp b n x)
    (i : Nat) : dftRow inp b n inv i = some (dft inv n x i) := by
  have gen : ∀ m ≤ n, loop (fun (sum : ℂ) (s : Nat) =>
      (inp.read (b + s : Nat)).bind fun v =>
        let w := twiddle n (i * s) inv
        some (⟨sum.re + (w.re * v.re - w.im * v.im), sum.im + (w.re * v.im + w.im * v.re)⟩ : ℂ))
      0 (List.range m) = some (∑ s ∈ Finset.range m, root n (sgn inv * (s * i)) * x s) := by
    intro m
    induction m with
    | zero => intro _; rfl
    | succ m ih =>
      intro hm
      have := hx.1
      rw [List.range_succ, loop_append, ih (by omega)]
      simp only [Option.bind_some, loop]
      rw [Arr.read_nat, if_pos (by omega), hx.2 m (by omega)]
      simp only [Option.bind_some]
      rw [Finset.sum_range_succ, twiddle_eq]
      congr 1
      have e : sgn inv * ((i * m : Nat) : Int) = sgn inv * (m * i) := by push_cast; ring
      rw [e]
      apply Complex.ext
      · rw [Complex.add_re, Complex.mul_re]
      · rw [Complex.add_im, Complex.mul_im]
  exact gen n (le_refl _)

theorem dftGeneral_spec (b n : Nat) (inv : Bool) (st : Bufs) (x : Nat → ℂ)
    (hx : Seg st.inp b n x) (ht : b + n ≤ st.tmp.size) :
    ∃ tmp, dftGeneral b n inv st = some tmp ∧ Frame st.tmp tmp b n ∧
      Seg tmp b n (dft inv n x) := by
  obtain ⟨r, hl, hs, hv, hf⟩ := Arr.store_spec (List.range n) (fun i : Nat => ((b + i : Nat) : Int))
    (dft inv n x) (List.Nodup.map (fun a b h => by simpa using h) List.nodup_range) st.tmp (by
      intro i hi; simp only [List.mem_range] at hi; omega)
  refine ⟨r, ?_, ⟨hs, fun i hi => hf i ?_⟩, by omega, fun i hi => ?_⟩
  · rw [← hl]
    unfold dftGeneral
    apply loop_congr
    intro i _ tmp
    rw [dftRow_spec _ _ _ _ _ hx]; rfl
  · intro j hj; simp only [List.mem_range] at hj; omega
  · have := hv i (by simpa using hi)
    simpa only [Int.toNat_natCast] using this

theorem fft1_spec (b n : Nat) (inv : Bool) (st : Bufs) (x : Nat → ℂ)
    (hx : Seg st.inp b n x) (ht : b + n ≤ st.tmp.size) :
    ∃ st', fft1 b n inv st = some st' ∧ Frame st.inp st'.inp b n ∧ Frame st.tmp st'.tmp b n ∧
      Seg st'.inp b n (dft inv n x) := by
  unfold fft1
  by_cases h : (bitCount n).1 = 1
  · simp only [h, if_true]
    have e := bitCount_spec n h
    generalize (bitCount n).2 - 1 = bits at *
    subst e
    exact fftPow2_spec b bits inv st x hx ht
  · simp only [h, if_false]
    obtain ⟨tmp, h1, h2, h3⟩ := dftGeneral_spec b n inv st x hx ht
    obtain ⟨inp, g1, g2, g3⟩ := copyBlock_spec st.inp tmp b b n _ hx.1 h3
    refine ⟨⟨inp, tmp⟩, ?_, g2, h2, g3⟩
    simp only [h1, g1, Option.bind_some, Option.map_some]

/-- Batched transform, entries in any order. -/
theorem fft1Batch_spec (b n batch : Nat) (order : List Nat) (ho : order.Perm (List.range batch))
    (inv : Bool) (st : Bufs) (x : Nat → Nat → ℂ)
    (hx : ∀ f < batch, ∀ i < n, st.inp.get (b + (f * n + i)) = x f i)
    (hi : b + batch * n ≤ st.inp.size) (ht : b + batch * n ≤ st.tmp.size) :
    ∃ st', fft1Batch b n order inv st = some st' ∧ Frame st.inp st'.inp b (batch * n) ∧
      Frame st.tmp st'.tmp b (batch * n) ∧
      ∀ f < batch, ∀ k < n, st'.inp.get (b + (f * n + k)) = dft inv n (x f) k := by
  have hmem : ∀ f, f ∈ order ↔ f < batch := fun f => by rw [ho.mem_iff, List.mem_range]
  have hnd : order.Nodup := ho.nodup_iff.2 List.nodup_range
  have hend : ∀ f, f < batch → f * n + n ≤ batch * n := by
    intro f hf
    calc f * n + n = (f + 1) * n := by ring
      _ ≤ batch * n := Nat.mul_le_mul_right _ hf
  obtain ⟨st', hl, h1, h2, h3, h4⟩ := loop_inv
    (fun st (f : Nat) => fft1 (b + f * n) n inv st)
    (fun done s => Frame st.inp s.inp b (batch * n) ∧ Frame st.tmp s.tmp b (batch * n) ∧
      (∀ f ∈ done, ∀ k < n, s.inp.get (b + (f * n + k)) = dft inv n (x f) k) ∧
      (∀ f < batch, f ∉ done → ∀ k < n, s.inp.get (b + (f * n + k)) = x f k))
    order st ⟨Frame.refl _ _ _, Frame.refl _ _ _, by simp, fun f hf _ => hx f hf⟩ (by
      rintro done f rest s he ⟨h1, h2, h3, h4⟩
      have hf : f < batch := (hmem f).1 (by rw [he]; simp)
      have hfd : f ∉ done := by
        rw [he, List.nodup_append] at hnd
        intro hm
        exact hnd.2.2 f hm f (by simp) rfl
      have hb := hend f hf
      obtain ⟨s', g1, g2, g3, g4⟩ := fft1_spec (b + f * n) n inv s (x f)
        ⟨by rw [h1.1]; omega, fun i hi => by rw [Nat.add_assoc]; exact h4 f hf hfd i hi⟩
        (by rw [h2.1]; omega)
      have hother : ∀ f' k, f' < batch → f' ≠ f → k < n →
          s'.inp.get (b + (f' * n + k)) = s.inp.get (b + (f' * n + k)) := by
        intro f' k hf' hne hk
        apply g2.2
        rcases Nat.lt_or_ge f' f with hlt | hge
        · left
          have : f' * n + n ≤ f * n := by
            calc f' * n + n = (f' + 1) * n := by ring
              _ ≤ f * n := Nat.mul_le_mul_right _ hlt
          omega
        · right
          have : f * n + n ≤ f' * n := by
            calc f * n + n = (f + 1) * n := by ring
              _ ≤ f' * n := Nat.mul_le_mul_right _ (by omega)
          omega
      refine ⟨s', g1, h1.trans (g2.mono (by omega) (by omega)),
        h2.trans (g3.mono (by omega) (by omega)), ?_, ?_⟩
      · intro f' hf' k hk
        by_cases hne : f' = f
        · subst hne
          rw [← Nat.add_assoc]; exact g4.2 k hk
        · rcases List.mem_append.1 hf' with hf' | hf'
          · rw [hother f' k ((hmem f').1 (by rw [he]; simp [hf'])) hne hk]
            exact h3 f' hf' k hk
          · rw [List.mem_singleton] at hf'; exact absurd hf' hne
      · intro f' hf' hnd' k hk
        have hne : f' ≠ f := by rintro rfl; exact hnd' (by simp)
        rw [hother f' k hf' hne hk]
        exact h4 f' hf' (fun hh => hnd' (by simp [hh])) k hk)
  exact ⟨st', hl, h1, h2, fun f hf => h3 f ((hmem f).2 hf)⟩

theorem transpose_spec (out inp : Arr ℂ) (b nx ny : Nat) (hi : b + nx * ny ≤ inp.size)
    (ho : b + nx * ny ≤ out.size) :
    ∃ r, transpose out inp b nx ny = some r ∧ Frame out r b (nx * ny) ∧
      ∀ i < ny, ∀ j < nx, r.get (b + (j * ny + i)) = inp.get (b + (i * nx + j)) := by
  have hlt : ∀ i < ny, ∀ j < nx, j * ny + i < nx * ny := by
    intro i hi j hj
    have := flat_lt hj hi
    rw [Nat.mul_comm j]; exact this
  have hlt' : ∀ i < ny, ∀ j < nx, i * nx + j < nx * ny := by
    intro i hi j hj
    have := flat_lt hi hj
    rw [Nat.mul_comm i, Nat.mul_comm nx ny]; exact this
  obtain ⟨r, hl, hs, hv, hf⟩ := Arr.store_spec (nest2 ny nx)
    (fun p => ((b + (p.2 * ny + p.1) : Nat) : Int)) (fun p => inp.get (b + (p.1 * nx + p.2)))
    (by
      refine List.Nodup.map_on ?_ (nest2_nodup ny nx)
      rintro ⟨i, j⟩ h ⟨i', j'⟩ h' he
      rw [mem_nest2] at h h'
      simp only [Int.natCast_inj] at he h h'
      have := flat_inj (i := j) (i' := j') h.1 h'.1 (by
        rw [Nat.mul_comm ny, Nat.mul_comm ny]; omega)
      rw [this.1, this.2]) out (by
      intro p hp
      rw [mem_nest2] at hp
      have := hlt p.1 hp.1 p.2 hp.2
      omega)
  refine ⟨r, ?_, ⟨hs, fun i h => hf i ?_⟩, fun i hi' j hj => ?_⟩
  · rw [← hl]
    unfold transpose
    apply loop_congr
    intro p hp o
    rw [mem_nest2] at hp
    have := hlt' p.1 hp.1 p.2 hp.2
    rw [Arr.read_nat, if_pos (by omega)]; rfl
  · intro p hp
    rw [mem_nest2] at hp
    have := hlt p.1 hp.1 p.2 hp.2
    omega
  · have := hv (i, j) (mem_nest2.2 ⟨hi', hj⟩)
    simpa only [Int.toNat_natCast] using this

/-- One batch entry of the two-dimensional transform. -/
theorem fft2_spec (nx ny f : Nat) (o1 o2 : List Nat) (h1 : o1.Perm (List.range ny))
    (h2 : o2.Perm (List.range nx)) (inv : Bool) (st : Bufs) (x : Nat → Nat → ℂ)
    (hx : ∀ i < nx, ∀ j < ny, st.inp.get (nx * ny * f + (i * ny + j)) = x i j)
    (hi : nx * ny * f + nx * ny ≤ st.inp.size) (ht : nx * ny * f + nx * ny ≤ st.tmp.size) :
    ∃ st', fft2 nx ny o1 o2 inv st f = some st' ∧
      Frame st.inp st'.inp (nx * ny * f) (nx * ny) ∧
      Frame st.tmp st'.tmp (nx * ny * f) (nx * ny) ∧
      ∀ k1 < nx, ∀ k2 < ny,
        st'.inp.get (nx * ny * f + (k1 * ny + k2)) = dft2 inv nx ny x k1 k2 := by
  set pos := nx * ny * f with hpos
  have hc : ny * nx = nx * ny := Nat.mul_comm _ _
  obtain ⟨t1, e1, f1, v1⟩ := transpose_spec st.tmp st.inp pos ny nx (by omega) (by omega)
  obtain ⟨s1, e2, f2, f3, v2⟩ := fft1Batch_spec pos nx ny o1 h1 inv ⟨t1, st.inp⟩
    (fun j i => x i j) (by
      intro j hj i hi'
      simp only
      rw [v1 i hi' j hj, hx i hi' j hj]) (by simp only; rw [f1.1]; omega) (by simp only; omega)
  simp only at f2 f3
  rw [hc] at f1 f2 f3
  obtain ⟨t2, e3, f4, v3⟩ := transpose_spec s1.tmp s1.inp pos nx ny
    (by rw [f2.1, f1.1]; omega) (by rw [f3.1]; omega)
  obtain ⟨s2, e4, f5, f6, v4⟩ := fft1Batch_spec pos ny nx o2 h2 inv ⟨t2, s1.inp⟩
    (fun i j => dft inv nx (fun s => x s j) i) (by
      intro i hi' j hj
      simp only
      rw [v3 j hj i hi', v2 j hj i hi']) (by simp only; rw [f4.1, f3.1]; omega)
    (by simp only; rw [f2.1, f1.1]; omega)
  simp only at f5 f6
  refine ⟨s2, ?_, (f3.trans f4).trans f5, (f1.trans f2).trans f6, ?_⟩
  · simp only [fft2, ← hpos, e1, e2, e3, e4, Option.bind_some]
  · intro k1 hk1 k2 hk2
    rw [v4 k1 hk1 k2 hk2, dft2_rows_cols]

theorem fft2Batch_spec (nx ny batch : Nat) (o1 o2 : List Nat) (h1 : o1.Perm (List.range ny))
    (h2 : o2.Perm (List.range nx)) (inv : Bool) (st : Bufs) (x : Nat → Nat → Nat → ℂ)
    (hx : ∀ f < batch, ∀ i < nx, ∀ j < ny, st.inp.get (nx * ny * f + (i * ny + j)) = x f i j)
    (hi : nx * ny * batch ≤ st.inp.size) (ht : nx * ny * batch ≤ st.tmp.size) :
    ∃ st', fft2Batch nx ny batch o1 o2 inv st = some st' ∧
      Frame st.inp st'.inp 0 (nx * ny * batch) ∧ Frame st.tmp st'.tmp 0 (nx * ny * batch) ∧
      ∀ f < batch, ∀ k1 < nx, ∀ k2 < ny,
        st'.inp.get (nx * ny * f + (k1 * ny + k2)) = dft2 inv nx ny (x f) k1 k2 := by
  have hblk : ∀ f' f, f' < f → nx * ny * f' + nx * ny ≤ nx * ny * f := by
    intro f' f hlt
    calc nx * ny * f' + nx * ny = nx * ny * (f' + 1) := by ring
      _ ≤ nx * ny * f := Nat.mul_le_mul_left _ hlt
  have gen : ∀ m ≤ batch, ∃ st', loop (fun st (f : Nat) => fft2 nx ny o1 o2 inv st f) st
      (List.range m) = some st' ∧
      Frame st.inp st'.inp 0 (nx * ny * batch) ∧ Frame st.tmp st'.tmp 0 (nx * ny * batch) ∧
      (∀ f < m, ∀ k1 < nx, ∀ k2 < ny,
        st'.inp.get (nx * ny * f + (k1 * ny + k2)) = dft2 inv nx ny (x f) k1 k2) ∧
      (∀ f < batch, m ≤ f → ∀ i < nx, ∀ j < ny,
        st'.inp.get (nx * ny * f + (i * ny + j)) = x f i j) := by
    intro m
    induction m with
    | zero =>
      intro _
      exact ⟨st, rfl, Frame.refl _ _ _, Frame.refl _ _ _, by simp, fun f hf _ => hx f hf⟩
    | succ m ih =>
      intro hm
      obtain ⟨s, g1, g2, g3, g4, g5⟩ := ih (by omega)
      have hb := hblk m batch (by omega)
      obtain ⟨s', k1, k2, k3, k4⟩ := fft2_spec nx ny m o1 o2 h1 h2 inv s (x m)
        (g5 m (by omega) (le_refl _)) (by rw [g2.1]; omega) (by rw [g3.1]; omega)
      have hin : ∀ i j, i < nx → j < ny → i * ny + j < nx * ny := by
        intro i j hi hj
        have := flat_lt hi hj
        rw [Nat.mul_comm i]; exact this
      refine ⟨s', ?_, g2.trans (k2.mono (by omega) (by omega)),
        g3.trans (k3.mono (by omega) (by omega)), ?_, ?_⟩
      · rw [List.range_succ, loop_append, g1]
        simp only [Option.bind_some, loop, k1]
      · intro f hf a ha c hc
        by_cases hfm : f = m
        · subst hfm; exact k4 a ha c hc
        · rw [k2.2 _ (by left; have := hblk f m (by omega); have := hin a c ha hc; omega)]
          exact g4 f (by omega) a ha c hc
      · intro f hf hmf i hi' j hj
        rw [k2.2 _ (by right; have := hblk m f (by omega); omega)]
        exact g5 f hf (by omega) i hi' j hj
  obtain ⟨st', g1, g2, g3, g4, _⟩ := gen batch (le_refl _)
  exact ⟨st', g1, g2, g3, g4⟩

end
end Sdp.Fft
