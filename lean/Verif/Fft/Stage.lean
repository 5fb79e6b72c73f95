import Mathlib.Algebra.BigOperators.Ring.Finset
import Verif.Fft.Roots
import Verif.Fft.Model

/-!
# The Stockham stages compute the transform
-/

namespace Sdp.Fft
noncomputable section
open Complex

/-- `n` elements from `b` on are inside the buffer and hold `x`. -/
def Seg (a : Arr ℂ) (b n : Nat) (x : Nat → ℂ) : Prop :=
  b + n ≤ a.size ∧ ∀ i < n, a.get (b + i) = x i

/-- `a'` differs from `a` only inside `[b, b + n)`. -/
def Frame (a a' : Arr ℂ) (b n : Nat) : Prop :=
  a'.size = a.size ∧ ∀ i, (i < b ∨ b + n ≤ i) → a'.get i = a.get i

theorem Frame.refl (a : Arr ℂ) (b n : Nat) : Frame a a b n := ⟨rfl, fun _ _ => rfl⟩

theorem Frame.trans {a a' a'' : Arr ℂ} {b n : Nat} (h : Frame a a' b n) (h' : Frame a' a'' b n) :
    Frame a a'' b n :=
  ⟨h'.1.trans h.1, fun i hi => (h'.2 i hi).trans (h.2 i hi)⟩

theorem Frame.mono {a a' : Arr ℂ} {b n b' n' : Nat} (h : Frame a a' b n) (h1 : b' ≤ b)
    (h2 : b + n ≤ b' + n') : Frame a a' b' n' :=
  ⟨h.1, fun i hi => h.2 i (by omega)⟩

theorem copyBlock_spec (dst src : Arr ℂ) (db sb n : Nat) (x : Nat → ℂ)
    (hd : db + n ≤ dst.size) (hs : Seg src sb n x) :
    ∃ r, copyBlock dst db src sb n = some r ∧ Frame dst r db n ∧ Seg r db n x := by
  unfold copyBlock
  rw [if_pos ⟨hd, hs.1⟩]
  refine ⟨_, rfl, ⟨rfl, fun i hi => ?_⟩, hd, fun i hi => ?_⟩
  · simp only; rw [if_neg (by omega)]
  · simp only
    rw [if_pos (by omega)]
    have : sb + (db + i - db) = sb + i := by omega
    rw [this, hs.2 i hi]

theorem twiddle_eq (n m : Nat) (inv : Bool) : twiddle n m inv = root n (sgn inv * m) := by
  unfold twiddle root
  cases inv
  · simp only [sgn, Bool.false_eq_true, if_false]
    have : (2 * (Real.pi : ℂ) * I * (((-1 * (m : Int) : Int) : ℂ) / n)) =
        ((-2 * Real.pi * ((m : ℝ) / n) : ℝ) : ℂ) * I := by push_cast; ring
    rw [this]
    apply Complex.ext
    · rw [Complex.exp_ofReal_mul_I_re]
    · rw [Complex.exp_ofReal_mul_I_im]
  · simp only [sgn, if_true]
    have : (2 * (Real.pi : ℂ) * I * (((1 * (m : Int) : Int) : ℂ) / n)) =
        ((2 * Real.pi * ((m : ℝ) / n) : ℝ) : ℂ) * I := by push_cast; ring
    rw [this]
    apply Complex.ext
    · rw [Complex.exp_ofReal_mul_I_re]
    · rw [Complex.exp_ofReal_mul_I_im]

theorem sum_even_odd {M : Type} [AddCommMonoid M] (f : Nat → M) (L : Nat) :
    ∑ t ∈ Finset.range (2 * L), f t =
      ∑ t ∈ Finset.range L, f (2 * t) + ∑ t ∈ Finset.range L, f (2 * t + 1) := by
  induction L with
  | zero => simp
  | succ L ih =>
    rw [show 2 * (L + 1) = 2 * L + 1 + 1 by ring, Finset.sum_range_succ, Finset.sum_range_succ, ih,
      Finset.sum_range_succ, Finset.sum_range_succ]
    abel

theorem dft_even_odd (inv : Bool) (L : Nat) (z : Nat → ℂ) (k : Nat) :
    dft inv (2 * L) z k = dft inv L (fun t => z (2 * t)) k +
      root (2 * L) (sgn inv * k) * dft inv L (fun t => z (2 * t + 1)) k := by
  unfold dft
  rw [sum_even_odd, Finset.mul_sum]
  congr 1
  · refine Finset.sum_congr rfl fun t _ => ?_
    rw [← root_double L]
    congr 2; push_cast; ring
  · refine Finset.sum_congr rfl fun t _ => ?_
    rw [← root_double L]
    simp only
    rw [← mul_assoc (root (2 * L) _) (root (2 * L) _), ← root_add]
    congr 2; push_cast; ring

theorem dft_shift (inv : Bool) (L : Nat) (z : Nat → ℂ) (k : Nat) :
    dft inv L z (k + L) = dft inv L z k := by
  unfold dft
  refine Finset.sum_congr rfl fun t _ => ?_
  congr 1
  rw [← root_add_period L (sgn inv * (t * k)) (sgn inv * t)]
  congr 1; push_cast; ring

theorem dft_odd_half (inv : Bool) {L : Nat} (hL : 0 < L) (z : Nat → ℂ) (k : Nat) :
    dft inv (2 * L) z (k + L) = dft inv L (fun t => z (2 * t)) k -
      root (2 * L) (sgn inv * k) * dft inv L (fun t => z (2 * t + 1)) k := by
  rw [dft_even_odd, dft_shift, dft_shift]
  have : root (2 * L) (sgn inv * ((k + L : Nat) : Int)) = -root (2 * L) (sgn inv * k) := by
    have h : sgn inv * ((k + L : Nat) : Int) = sgn inv * k + sgn inv * L := by push_cast; ring
    rw [h, root_add]
    cases inv
    · simp only [sgn, Bool.false_eq_true, if_false]
      rw [show (-1 : Int) * L = -(L : Int) by ring, root_neg_half hL]; ring
    · simp only [sgn, if_true]
      rw [show (1 : Int) * L = (L : Int) by ring, root_half hL]; ring
  rw [this]; ring

/-- Output position of butterfly `s`, half `c`. -/
def bpos (L s c : Nat) : Nat := s / L * (2 * L) + s % L + c * L

theorem bpos_inj {L s c s' c' : Nat} (hL : 0 < L) (hc : c < 2) (hc' : c' < 2)
    (h : bpos L s c = bpos L s' c') : s = s' ∧ c = c' := by
  have m1 := Nat.mod_lt s hL
  have m2 := Nat.mod_lt s' hL
  have e : ∀ s c, bpos L s c = (2 * L) * (s / L) + (L * c + s % L) := by
    intro s c; unfold bpos; ring
  have lt : ∀ s c, c < 2 → L * c + s % L < 2 * L := by
    intro s c hc
    exact flat_lt hc (Nat.mod_lt s hL)
  rw [e, e] at h
  obtain ⟨h1, h2⟩ := flat_inj (lt s c hc) (lt s' c' hc') h
  obtain ⟨h3, h4⟩ := flat_inj m1 m2 h2
  refine ⟨?_, h3⟩
  rw [← Nat.div_add_mod s L, ← Nat.div_add_mod s' L, h1, h4]

theorem bpos_lt {L m s c : Nat} (hL : 0 < L) (hc : c < 2) (hs : s < m * L) :
    bpos L s c < m * (2 * L) := by
  have h1 : s / L < m := Nat.div_lt_of_lt_mul (by rw [Nat.mul_comm]; exact hs)
  have h2 : L * c + s % L < 2 * L := flat_lt hc (Nat.mod_lt s hL)
  have := flat_lt h1 h2
  unfold bpos
  calc _ = 2 * L * (s / L) + (L * c + s % L) := by ring
    _ < _ := this

/-- One stage of the transform on a segment. -/
theorem stage_spec (b r m : Nat) (inv : Bool) (st : Bufs) (x : Nat → ℂ)
    (hx : Seg st.inp b (m * (2 * 2 ^ r)) x) (ht : b + m * (2 * 2 ^ r) ≤ st.tmp.size) :
    ∃ st', stage b (m * (2 * 2 ^ r)) inv st r = some st' ∧
      Frame st.inp st'.inp b (m * (2 * 2 ^ r)) ∧ Frame st.tmp st'.tmp b (m * (2 * 2 ^ r)) ∧
      ∀ j < m, ∀ k < 2 ^ r,
        st'.inp.get (b + (j * (2 * 2 ^ r) + k)) =
          x (j * 2 ^ r + k) +
            root (2 * 2 ^ r) (sgn inv * k) * x ((j + m) * 2 ^ r + k) ∧
        st'.inp.get (b + (j * (2 * 2 ^ r) + (k + 2 ^ r))) =
          x (j * 2 ^ r + k) -
            root (2 * 2 ^ r) (sgn inv * k) * x ((j + m) * 2 ^ r + k) := by
  set L := 2 ^ r with hLdef
  have hL : 0 < L := Nat.pos_of_ne_zero (by simp [hLdef])
  have hhalf : (m * (2 * L)) >>> 1 = m * L := by
    rw [Nat.shiftRight_eq_div_pow, show m * (2 * L) = 2 * (m * L) by ring]; simp
  have hPoT : L <<< 1 = 2 * L := by rw [Nat.shiftLeft_eq]; ring
  set val : Nat → Nat → ℂ := fun s c =>
    if c = 0 then x s + root (2 * L) (sgn inv * (s % L : Nat)) * x (s + m * L)
    else x s - root (2 * L) (sgn inv * (s % L : Nat)) * x (s + m * L) with hval
  have body : ∀ s < m * L, ∀ tmp : Arr ℂ, b + m * (2 * L) ≤ tmp.size →
      butterfly st.inp b (m * (2 * L)) r inv tmp s =
        some ((tmp.put (b + bpos L s 0) (val s 0)).put (b + bpos L s 1) (val s 1)) := by
    intro s hs tmp htmp
    have hj : s >>> r = s / L := by rw [Nat.shiftRight_eq_div_pow]
    have hk : s &&& (L - 1) = s % L := by rw [hLdef, Nat.and_two_pow_sub_one_eq_mod]
    have hA : s / L * L + s % L = s := by rw [Nat.mul_comm]; exact Nat.div_add_mod s L
    have p0 := bpos_lt (c := 0) hL (by omega) hs
    have p1 := bpos_lt (c := 1) hL (by omega) hs
    unfold butterfly
    simp only [hj, ← hLdef, hk, hhalf, hPoT, hA]
    have i3 : s / L * (2 * L) + s % L = bpos L s 0 := by unfold bpos; ring
    have i4 : s / L * (2 * L) + s % L + L = bpos L s 1 := by unfold bpos; ring
    have hsz := hx.1
    rw [i4, i3, Arr.read_nat, Arr.read_nat, if_pos (by nlinarith), if_pos (by nlinarith),
      hx.2 s (by nlinarith), hx.2 (s + m * L) (by nlinarith)]
    simp only [Option.bind_some]
    rw [Arr.write_nat, if_pos (by omega)]
    simp only [Option.bind_some]
    rw [Arr.write_nat, if_pos (by rw [Arr.put_size]; omega), twiddle_eq]
    have v0 : val s 0 = x s + root (2 * L) (sgn inv * (s % L : Nat)) * x (s + m * L) := rfl
    have v1 : val s 1 = x s - root (2 * L) (sgn inv * (s % L : Nat)) * x (s + m * L) := rfl
    rw [v0, v1]
    have c0 : ∀ p q w : ℂ, (⟨p.re + w.re * q.re - w.im * q.im,
        p.im + w.re * q.im + w.im * q.re⟩ : ℂ) = p + w * q := by
      intro p q w; apply Complex.ext <;> simp <;> ring
    have c1 : ∀ p q w : ℂ, (⟨p.re - w.re * q.re + w.im * q.im,
        p.im - w.re * q.im - w.im * q.re⟩ : ℂ) = p - w * q := by
      intro p q w; apply Complex.ext <;> simp <;> ring
    rw [c0, c1]
  obtain ⟨tmp', hl, hsz, hfr, hv⟩ := loop_inv
    (fun tmp (s : Nat) => butterfly st.inp b (m * (2 * L)) r inv tmp s)
    (fun done tmp => tmp.size = st.tmp.size ∧
      (∀ i, (i < b ∨ b + m * (2 * L) ≤ i) → tmp.get i = st.tmp.get i) ∧
      ∀ s ∈ done, ∀ c < 2, tmp.get (b + bpos L s c) = val s c)
    (List.range (m * L)) st.tmp ⟨rfl, fun _ _ => rfl, by simp⟩ (by
      rintro done s rest tmp he ⟨h1, h2, h3⟩
      have hs : s < m * L := by
        have : s ∈ List.range (m * L) := by rw [he]; simp
        simpa using this
      have hnd : s ∉ done := by
        have := List.nodup_range (n := m * L)
        rw [he, List.nodup_append] at this
        intro hmem
        exact this.2.2 s hmem s (by simp) rfl
      have p0 := bpos_lt (c := 0) hL (by omega) hs
      have p1 := bpos_lt (c := 1) hL (by omega) hs
      refine ⟨_, body s hs tmp (by omega), h1, fun i hi => ?_, fun t ht c hc => ?_⟩
      · rw [Arr.put_get, if_neg (by omega), Arr.put_get, if_neg (by omega)]
        exact h2 i hi
      · rw [Arr.put_get, Arr.put_get]
        by_cases hts : t = s
        · subst hts
          have : c = 0 ∨ c = 1 := by omega
          rcases this with rfl | rfl
          · rw [if_neg, if_pos rfl]
            intro hh
            have := bpos_inj hL (by omega) (by omega) (Nat.add_left_cancel hh)
            omega
          · rw [if_pos rfl]
        · rw [if_neg, if_neg]
          · rcases List.mem_append.1 ht with ht | ht
            · exact h3 t ht c hc
            · rw [List.mem_singleton] at ht; exact absurd ht hts
          · intro hh
            exact hts (bpos_inj hL hc (by omega) (Nat.add_left_cancel hh)).1
          · intro hh
            exact hts (bpos_inj hL hc (by omega) (Nat.add_left_cancel hh)).1)
  have hseg : Seg tmp' b (m * (2 * L)) (fun i => tmp'.get (b + i)) := ⟨by omega, fun _ _ => rfl⟩
  obtain ⟨inp', hc, hcf, hcs⟩ := copyBlock_spec st.inp tmp' b b (m * (2 * L)) _ hx.1 hseg
  refine ⟨⟨inp', tmp'⟩, ?_, hcf, ⟨hsz, hfr⟩, ?_⟩
  · unfold stage
    rw [hhalf, hl]
    simp only [Option.bind_some, hc, Option.map_some]
  · intro j hj k hk
    have hs : j * L + k < m * L := by
      have := flat_lt hj hk
      rw [Nat.mul_comm j]; exact this
    have hdiv : (j * L + k) / L = j := by
      rw [Nat.mul_comm, Nat.mul_add_div hL, Nat.div_eq_of_lt hk, add_zero]
    have hmod : (j * L + k) % L = k := by
      rw [Nat.mul_comm, Nat.mul_add_mod, Nat.mod_eq_of_lt hk]
    have e0 : bpos L (j * L + k) 0 = j * (2 * L) + k := by unfold bpos; rw [hdiv, hmod]; ring
    have e1 : bpos L (j * L + k) 1 = j * (2 * L) + (k + L) := by
      unfold bpos; rw [hdiv, hmod]; ring
    have p0 := bpos_lt (c := 0) hL (by omega) hs
    have p1 := bpos_lt (c := 1) hL (by omega) hs
    have q0 := hv (j * L + k) (by simpa using hs) 0 (by omega)
    have q1 := hv (j * L + k) (by simpa using hs) 1 (by omega)
    have hB : j * L + k + m * L = (j + m) * L + k := by ring
    rw [← e0, ← e1]
    rw [hcs.2 _ p0, hcs.2 _ p1]
    simp only
    rw [q0, q1]
    simp only [hval, hmod, hB]
    simp

/-- All stages: the power-of-two transform of a segment. -/
theorem fftPow2_spec (b bits : Nat) (inv : Bool) (st : Bufs) (x : Nat → ℂ)
    (hx : Seg st.inp b (2 ^ bits) x) (ht : b + 2 ^ bits ≤ st.tmp.size) :
    ∃ st', fftPow2 b (2 ^ bits) bits inv st = some st' ∧
      Frame st.inp st'.inp b (2 ^ bits) ∧ Frame st.tmp st'.tmp b (2 ^ bits) ∧
      Seg st'.inp b (2 ^ bits) (dft inv (2 ^ bits) x) := by
  have gen : ∀ r ≤ bits, ∃ st', loop (fun st (r : Nat) => stage b (2 ^ bits) inv st r) st
      (List.range r) = some st' ∧
      Frame st.inp st'.inp b (2 ^ bits) ∧ Frame st.tmp st'.tmp b (2 ^ bits) ∧
      ∀ j < 2 ^ (bits - r), ∀ k < 2 ^ r, st'.inp.get (b + (j * 2 ^ r + k)) =
        dft inv (2 ^ r) (fun t => x (j + 2 ^ (bits - r) * t)) k := by
    intro r
    induction r with
    | zero =>
      intro _
      refine ⟨st, rfl, Frame.refl _ _ _, Frame.refl _ _ _, ?_⟩
      intro j hj k hk
      have hk0 : k = 0 := by simpa using hk
      subst hk0
      simp only [pow_zero, mul_one, add_zero, Nat.sub_zero] at hj ⊢
      rw [hx.2 j hj]
      simp [dft, root_zero]
    | succ r ih =>
      intro hr
      obtain ⟨st1, h1, h2, h3, h4⟩ := ih (by omega)
      have hm : 2 ^ (bits - r) = 2 * 2 ^ (bits - (r + 1)) := by
        rw [← pow_succ']; congr 1; omega
      set m := 2 ^ (bits - (r + 1)) with hmdef
      have hn : 2 ^ bits = m * (2 * 2 ^ r) := by
        rw [hmdef, ← pow_succ', ← pow_add]; congr 1; omega
      obtain ⟨st2, g1, g2, g3, g4⟩ := stage_spec b r m inv st1 (fun i => st1.inp.get (b + i))
        ⟨by rw [h2.1, ← hn]; exact hx.1, fun _ _ => rfl⟩ (by rw [h3.1, ← hn]; exact ht)
      rw [← hn] at g1 g2 g3
      refine ⟨st2, ?_, h2.trans g2, h3.trans g3, ?_⟩
      · rw [List.range_succ, loop_append, h1]
        simp only [Option.bind_some, loop, g1]
      · intro j hj k hk
        have hpow : 2 ^ (r + 1) = 2 * 2 ^ r := pow_succ' 2 r
        rw [hpow] at hk ⊢
        have ev : ∀ k', k' < 2 ^ r → st1.inp.get (b + (j * 2 ^ r + k')) =
            dft inv (2 ^ r) (fun t => x (j + m * (2 * t))) k' := by
          intro k' hk'
          rw [h4 j (by omega) k' hk']
          apply dft_congr
          intro i _; rw [hm]; congr 1; ring
        have od : ∀ k', k' < 2 ^ r → st1.inp.get (b + ((j + m) * 2 ^ r + k')) =
            dft inv (2 ^ r) (fun t => x (j + m * (2 * t + 1))) k' := by
          intro k' hk'
          rw [h4 (j + m) (by omega) k' hk']
          apply dft_congr
          intro i _; rw [hm]; congr 1; ring
        by_cases hlt : k < 2 ^ r
        · obtain ⟨q, _⟩ := g4 j hj k hlt
          rw [q, dft_even_odd, ev k hlt, od k hlt]
        · obtain ⟨k', rfl⟩ : ∃ k', k = k' + 2 ^ r := ⟨k - 2 ^ r, by omega⟩
          have hk' : k' < 2 ^ r := by omega
          obtain ⟨_, q⟩ := g4 j hj k' hk'
          rw [q, dft_odd_half inv (by positivity), ev k' hk', od k' hk']
  obtain ⟨st', h1, h2, h3, h4⟩ := gen bits (le_refl _)
  refine ⟨st', h1, h2, h3, by rw [h2.1]; exact hx.1, ?_⟩
  intro k hk
  have := h4 0 (by positivity) k hk
  rw [Nat.zero_mul, Nat.zero_add] at this
  rw [this]
  simp

end
end Sdp.Fft
