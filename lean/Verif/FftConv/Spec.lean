import Verif.FftConv.Model
import Verif.Fft.Props

/-!
# Circular convolution and the steps of the FFT convolution
-/

namespace Sdp.FftConv
open Sdp.Fft
noncomputable section

/-! ## Padding size -/

theorem and_pred_eq_zero {p : Nat} (hp : 0 < p) (h : p &&& (p - 1) = 0) :
    p = 2 ^ Nat.clog 2 p := by
  by_contra hne
  have h1 : p ≤ 2 ^ Nat.clog 2 p := Nat.le_pow_clog (by norm_num) p
  have hlt : p < 2 ^ Nat.clog 2 p := lt_of_le_of_ne h1 hne
  have hp2 : 2 ≤ p := by
    rcases Nat.lt_or_ge p 2 with h2 | h2
    · have : p = 1 := by omega
      subst this; simp at hne
    · exact h2
  have hk : 0 < Nat.clog 2 p := Nat.clog_pos (by norm_num) hp2
  obtain ⟨k, hk'⟩ : ∃ k, Nat.clog 2 p = k + 1 := ⟨Nat.clog 2 p - 1, by omega⟩
  have hlow : 2 ^ k < p := by
    by_contra hc
    have := (Nat.clog_le_iff_le_pow (by norm_num : 1 < 2)).2 (not_lt.1 hc)
    omega
  rw [hk'] at hlt
  have b1 : p.testBit k = true :=
    Nat.testBit_of_two_pow_le_and_two_pow_add_one_gt (by omega) hlt
  have b2 : (p - 1).testBit k = true :=
    Nat.testBit_of_two_pow_le_and_two_pow_add_one_gt (by omega) (by omega)
  have : (p &&& (p - 1)).testBit k = true := by rw [Nat.testBit_and, b1, b2]; rfl
  rw [h] at this
  simp at this

theorem nextPow2_spec (p : Nat) (hp : 0 < p) : nextPow2 p = 2 ^ Nat.clog 2 p := by
  generalize hm : 2 ^ Nat.clog 2 p - p = m
  induction m using Nat.strong_induction_on generalizing p with
  | _ m ih =>
    rw [nextPow2]
    split
    · rename_i h; exact and_pred_eq_zero hp h
    · rename_i h
      rw [ih _ (by rw [← hm]; exact step_decreases h) (p + 1) (by omega) rfl]
      congr 1
      have h1 : p ≤ 2 ^ Nat.clog 2 p := Nat.le_pow_clog (by norm_num) p
      have h2 : p ≠ 2 ^ Nat.clog 2 p := by
        intro e; apply h; rw [e]; exact pow2_and_pred _
      apply le_antisymm
      · apply (Nat.clog_le_iff_le_pow (by norm_num)).2; omega
      · exact Nat.clog_mono_right 2 (by omega)

/-! ## Circular convolution theorem -/

/-- Circular convolution of two `P` by `P` arrays. -/
def circ (P : Nat) (A B : Nat → Nat → ℂ) (i j : Nat) : ℂ :=
  ∑ s1 ∈ Finset.range P, ∑ s2 ∈ Finset.range P,
    A s1 s2 * B ((i + (P - s1)) % P) ((j + (P - s2)) % P)

theorem root_mod (P : Nat) (hP : 0 < P) (a b : Int) (h : (P : Int) ∣ a - b) :
    root P a = root P b := by
  obtain ⟨k, hk⟩ := h
  have : a = b + P * k := by omega
  rw [this, root_add_period]

theorem dft_shift (inv : Bool) (P : Nat) (b : Nat → ℂ) (s : Nat) (hs : s < P) (k : Nat) :
    dft inv P (fun i => b ((i + (P - s)) % P)) k =
      root P (sgn inv * (s * k)) * dft inv P b k := by
  have hP : 0 < P := by omega
  unfold dft
  rw [Finset.mul_sum]
  refine Finset.sum_nbij' (fun i => (i + (P - s)) % P) (fun t => (t + s) % P) ?_ ?_ ?_ ?_ ?_
  · intro i _; exact Finset.mem_range.2 (Nat.mod_lt _ hP)
  · intro i _; exact Finset.mem_range.2 (Nat.mod_lt _ hP)
  · intro i hi
    have hi := Finset.mem_range.1 hi
    simp only [Nat.mod_add_mod]
    rw [show i + (P - s) + s = i + P by omega, Nat.add_mod_right, Nat.mod_eq_of_lt hi]
  · intro i hi
    have hi := Finset.mem_range.1 hi
    simp only [Nat.mod_add_mod]
    rw [show i + s + (P - s) = i + P by omega, Nat.add_mod_right, Nat.mod_eq_of_lt hi]
  · intro i _
    show root P (sgn inv * (i * k)) * b ((i + (P - s)) % P) = root P (sgn inv * (s * k)) *
      (root P (sgn inv * (((i + (P - s)) % P : Nat) * k)) * b ((i + (P - s)) % P))
    rw [← mul_assoc (root P _) (root P _), ← root_add]
    congr 1
    apply root_mod P hP
    have h1 : (P : Int) ∣ ((i + (P - s) : Nat) : Int) - (((i + (P - s)) % P : Nat) : Int) := by
      have := Nat.dvd_sub_mod (n := P) (i + (P - s))
      have h2 := Nat.mod_le (i + (P - s)) P
      rw [← Nat.cast_sub h2]
      exact_mod_cast this
    obtain ⟨q, hq⟩ := h1
    have h3 : ((i + (P - s) : Nat) : Int) = i + P - s := by omega
    refine ⟨sgn inv * k * (q - 1), ?_⟩
    have h4 : (((i + (P - s)) % P : Nat) : Int) = i + P - s - P * q := by omega
    rw [h4]; ring

theorem dft2_shift (inv : Bool) (P : Nat) (B : Nat → Nat → ℂ) (s1 s2 : Nat) (h1 : s1 < P)
    (h2 : s2 < P) (k1 k2 : Nat) :
    dft2 inv P P (fun i j => B ((i + (P - s1)) % P) ((j + (P - s2)) % P)) k1 k2 =
      root P (sgn inv * (s1 * k1)) * root P (sgn inv * (s2 * k2)) * dft2 inv P P B k1 k2 := by
  rw [dft2_rows_cols, dft2_rows_cols]
  have e : ∀ t, dft inv P (fun i => B ((i + (P - s1)) % P) ((t + (P - s2)) % P)) k1 =
      (fun u => root P (sgn inv * (s1 * k1)) * dft inv P (fun i => B i u) k1)
        ((t + (P - s2)) % P) := by
    intro t
    exact dft_shift inv P (fun i => B i ((t + (P - s2)) % P)) s1 h1 k1
  simp only [e]
  rw [dft_shift inv P (fun u => root P (sgn inv * (s1 * k1)) * dft inv P (fun i => B i u) k1)
    s2 h2 k2]
  have : dft inv P (fun u => root P (sgn inv * (s1 * k1)) * dft inv P (fun i => B i u) k1) k2 =
      root P (sgn inv * (s1 * k1)) * dft inv P (fun u => dft inv P (fun i => B i u) k1) k2 := by
    unfold dft
    rw [Finset.mul_sum]
    refine Finset.sum_congr rfl fun _ _ => ?_
    ring
  rw [this]; ring

theorem dft2_sum {ι : Type} (inv : Bool) (n1 n2 : Nat) (S : Finset ι)
    (f : ι → Nat → Nat → ℂ) (k1 k2 : Nat) :
    dft2 inv n1 n2 (fun i j => ∑ x ∈ S, f x i j) k1 k2 = ∑ x ∈ S, dft2 inv n1 n2 (f x) k1 k2 := by
  unfold dft2
  rw [Finset.sum_comm (s := S)]
  refine Finset.sum_congr rfl fun s1 _ => ?_
  rw [Finset.sum_comm (s := S)]
  refine Finset.sum_congr rfl fun s2 _ => ?_
  rw [Finset.mul_sum]

theorem dft2_smul (inv : Bool) (n1 n2 : Nat) (c : ℂ) (f : Nat → Nat → ℂ) (k1 k2 : Nat) :
    dft2 inv n1 n2 (fun i j => c * f i j) k1 k2 = c * dft2 inv n1 n2 f k1 k2 := by
  unfold dft2
  rw [Finset.mul_sum]
  refine Finset.sum_congr rfl fun s1 _ => ?_
  rw [Finset.mul_sum]
  refine Finset.sum_congr rfl fun s2 _ => ?_
  ring

/-- The transform of a circular convolution is the product of the transforms. -/
theorem dft2_circ (inv : Bool) (P : Nat) (A B : Nat → Nat → ℂ) (k1 k2 : Nat) :
    dft2 inv P P (circ P A B) k1 k2 = dft2 inv P P A k1 k2 * dft2 inv P P B k1 k2 := by
  unfold circ
  rw [dft2_sum]
  conv_rhs => unfold dft2
  rw [Finset.sum_mul]
  refine Finset.sum_congr rfl fun s1 h1 => ?_
  rw [dft2_sum, Finset.sum_mul]
  refine Finset.sum_congr rfl fun s2 h2 => ?_
  rw [dft2_smul, dft2_shift inv P B s1 s2 (Finset.mem_range.1 h1) (Finset.mem_range.1 h2)]
  unfold dft2
  ring

/-- Inverse transform of the product of forward transforms. -/
theorem circ_of_product (P : Nat) (A B : Nat → Nat → ℂ) (i j : Nat) (hi : i < P) (hj : j < P) :
    dft2 true P P (fun a b => dft2 false P P A a b * dft2 false P P B a b) i j =
      P * P * circ P A B i j := by
  have : ∀ a < P, ∀ b < P, dft2 false P P A a b * dft2 false P P B a b =
      dft2 false P P (circ P A B) a b := fun a _ b _ => (dft2_circ false P A B a b).symm
  rw [dft2_congr true P P this]
  exact dft2_dft2 false P P (circ P A B) i j hi hj

/-! ## The loops -/

theorem pad_spec (data : Arr ℂ) (n e P : Nat) (hd : n * n ≤ data.size) (he : n + 2 * e = P) :
    ∃ r, pad data n e (zeros P) = some r ∧ r.size = P * P ∧
      ∀ i < P, ∀ j < P, r.get (i * P + j) =
        if e ≤ i ∧ i < e + n ∧ e ≤ j ∧ j < e + n then data.get ((i - e) * n + (j - e)) else 0 := by
  have hlt : ∀ i j, i < P → j < P → i * P + j < P * P := by
    intro i j hi hj
    have := flat_lt hi hj
    rw [Nat.mul_comm i]; exact this
  have hc : pad data n e (zeros P) = loop (fun padded (p : Nat × Nat) =>
      padded.write (((p.1 + e) * P + (p.2 + e) : Nat) : Int) (data.get (p.1 * n + p.2)))
      (zeros P) (nest2 n n) := by
    unfold pad
    simp only [he]
    apply loop_congr
    intro p hp d
    have hp := mem_nest2.1 hp
    have := flat_lt hp.1 hp.2
    rw [Arr.read_nat, if_pos (by rw [Nat.mul_comm p.1]; omega)]
    rfl
  obtain ⟨r, h1, h2, h3, h4⟩ := Arr.store_spec (nest2 n n)
    (fun p : Nat × Nat => (((p.1 + e) * P + (p.2 + e) : Nat) : Int))
    (fun p => data.get (p.1 * n + p.2)) (by
      refine List.Nodup.map_on ?_ (nest2_nodup n n)
      rintro ⟨i, j⟩ h ⟨i', j'⟩ h' hh
      have h := mem_nest2.1 h
      have h' := mem_nest2.1 h'
      simp only at h h' hh
      have := flat_inj (b := P) (i := i + e) (j := j + e) (i' := i' + e) (j' := j' + e)
        (by omega) (by omega) (by rw [Nat.mul_comm P, Nat.mul_comm P]; exact_mod_cast hh)
      exact Prod.ext (by simp only; omega) (by simp only; omega)) (zeros P) (by
      intro p hp
      have hp := mem_nest2.1 hp
      have := hlt (p.1 + e) (p.2 + e) (by omega) (by omega)
      simp only [zeros]; omega)
  refine ⟨r, by rw [hc]; exact h1, by rw [h2]; rfl, fun i hi j hj => ?_⟩
  split
  · rename_i hh
    have := h3 (i - e, j - e) (mem_nest2.2 ⟨by simp only; omega, by simp only; omega⟩)
    simp only [Int.toNat_natCast] at this
    rwa [show i - e + e = i by omega, show j - e + e = j by omega] at this
  · rename_i hh
    rw [h4 (i * P + j)]
    · rfl
    · intro p hp he'
      have hp := mem_nest2.1 hp
      have := flat_inj (b := P) (i := p.1 + e) (j := p.2 + e) (i' := i) (j' := j)
        (by omega) hj (by rw [Nat.mul_comm P, Nat.mul_comm P]; exact_mod_cast he')
      omega

/-- Swapping disjoint pairs of elements. -/
theorem swap_spec {α : Type} (l : List α) (u v : α → Nat)
    (hn : (l.map u ++ l.map v).Nodup) :
    ∀ a : Arr ℂ, (∀ x ∈ l, u x < a.size ∧ v x < a.size) →
    ∃ r, loop (fun a x => swap a (u x) (v x)) a l = some r ∧ r.size = a.size ∧
      (∀ x ∈ l, r.get (u x) = a.get (v x) ∧ r.get (v x) = a.get (u x)) ∧
      ∀ k, (∀ x ∈ l, k ≠ u x ∧ k ≠ v x) → r.get k = a.get k := by
  induction l with
  | nil => intro a _; exact ⟨a, rfl, rfl, by simp, fun _ _ => rfl⟩
  | cons x l ih =>
    intro a h
    have hx := h x (by simp)
    rw [List.nodup_append] at hn
    obtain ⟨n1, n2, n3⟩ := hn
    simp only [List.map_cons, List.nodup_cons, List.mem_cons, List.mem_map] at n1 n2 n3
    have hne : u x ≠ v x := n3 _ (Or.inl rfl) _ (Or.inl rfl)
    have hs : swap a (u x) (v x) = some ((a.put (u x) (a.get (v x))).put (v x) (a.get (u x))) := by
      unfold swap
      rw [Arr.read_nat, if_pos hx.1, Arr.read_nat, if_pos hx.2]
      simp only [Option.bind_some]
      rw [Arr.write_nat, if_pos hx.1]
      simp only [Option.bind_some]
      rw [Arr.write_nat, if_pos (by simpa using hx.2)]
    obtain ⟨r, r1, r2, r3, r4⟩ := ih (by
        rw [List.nodup_append]
        refine ⟨n1.2, n2.2, ?_⟩
        intro p hp q hq
        rw [List.mem_map] at hp hq
        exact n3 p (Or.inr hp) q (Or.inr hq))
      ((a.put (u x) (a.get (v x))).put (v x) (a.get (u x))) (fun y hy => by
        simpa using h y (by simp [hy]))
    have fresh : ∀ y ∈ l, u y ≠ u x ∧ u y ≠ v x ∧ v y ≠ u x ∧ v y ≠ v x := by
      intro y hy
      refine ⟨fun e => n1.1 ⟨y, hy, e⟩, n3 _ (Or.inr ⟨y, hy, rfl⟩) _ (Or.inl rfl),
        fun e => n3 _ (Or.inl rfl) _ (Or.inr ⟨y, hy, rfl⟩) e.symm, fun e => n2.1 ⟨y, hy, e⟩⟩
    refine ⟨r, by simp only [loop, hs, Option.bind_some]; exact r1, by rw [r2]; rfl, ?_, ?_⟩
    · intro y hy
      rcases List.mem_cons.1 hy with rfl | hy
      · constructor
        · rw [r4 (u y) (fun z hz => ⟨(fresh z hz).1.symm, (fresh z hz).2.2.1.symm⟩),
            Arr.put_get, if_neg hne, Arr.put_get, if_pos rfl]
        · rw [r4 (v y) (fun z hz => ⟨(fresh z hz).2.1.symm, (fresh z hz).2.2.2.symm⟩),
            Arr.put_get, if_pos rfl]
      · obtain ⟨f1, f2, f3, f4⟩ := fresh y hy
        rw [(r3 y hy).1, (r3 y hy).2, Arr.put_get, if_neg f4, Arr.put_get, if_neg f3,
          Arr.put_get, if_neg f2, Arr.put_get, if_neg f1]
        exact ⟨rfl, rfl⟩
    · intro k hk
      have hkx := hk x (by simp)
      rw [r4 k (fun z hz => hk z (by simp [hz])), Arr.put_get, if_neg hkx.2, Arr.put_get,
        if_neg hkx.1]

/-- The half-turn shift of a square array of even side. -/
theorem shift_spec (h : Nat) (d : Arr ℂ) (hd : d.size = (2 * h) * (2 * h)) :
    ∃ r, shift (2 * h) (2 * h) d = some r ∧ r.size = (2 * h) * (2 * h) ∧
      ∀ i < 2 * h, ∀ j < 2 * h, r.get (i * (2 * h) + j) =
        d.get ((i + h) % (2 * h) * (2 * h) + (j + h) % (2 * h)) := by
  have hlt : ∀ i j, i < 2 * h → j < 2 * h → i * (2 * h) + j < (2 * h) * (2 * h) := by
    intro i j hi hj
    have := flat_lt hi hj
    rw [Nat.mul_comm i]; exact this
  have inj : ∀ {i j i' j' : Nat}, j < 2 * h → j' < 2 * h →
      i * (2 * h) + j = i' * (2 * h) + j' → i = i' ∧ j = j' := by
    intro i j i' j' hj hj' e
    exact flat_inj hj hj' (by rw [Nat.mul_comm _ i, Nat.mul_comm _ i']; exact e)
  have hh : 2 * h / 2 = h := by omega
  -- rows
  obtain ⟨r, r1, r2, r3, _⟩ := swap_spec (nest2 h (2 * h))
    (fun p => p.1 * (2 * h) + p.2) (fun p => (p.1 + h) * (2 * h) + p.2) (by
      rw [List.nodup_append]
      refine ⟨?_, ?_, ?_⟩
      · refine List.Nodup.map_on ?_ (nest2_nodup _ _)
        rintro ⟨i, j⟩ a ⟨i', j'⟩ b e
        have a := mem_nest2.1 a; have b := mem_nest2.1 b
        have := inj a.2 b.2 e
        exact Prod.ext this.1 this.2
      · refine List.Nodup.map_on ?_ (nest2_nodup _ _)
        rintro ⟨i, j⟩ a ⟨i', j'⟩ b e
        have a := mem_nest2.1 a; have b := mem_nest2.1 b
        have := inj a.2 b.2 e
        exact Prod.ext (by simp only at this ⊢; omega) this.2
      · intro x hx y hy e
        rw [List.mem_map] at hx hy
        obtain ⟨p, hp, rfl⟩ := hx
        obtain ⟨q, hq, rfl⟩ := hy
        have hp := mem_nest2.1 hp; have hq := mem_nest2.1 hq
        have := inj hp.2 hq.2 e
        omega) d (by
      intro p hp
      have hp := mem_nest2.1 hp
      rw [hd]
      exact ⟨hlt _ _ (by omega) hp.2, hlt _ _ (by omega) hp.2⟩)
  have hr : ∀ i < 2 * h, ∀ j < 2 * h, r.get (i * (2 * h) + j) =
      d.get ((i + h) % (2 * h) * (2 * h) + j) := by
    intro i hi j hj
    rcases Nat.lt_or_ge i h with hc | hc
    · rw [Nat.mod_eq_of_lt (by omega : i + h < 2 * h)]
      exact (r3 (i, j) (mem_nest2.2 ⟨hc, hj⟩)).1
    · have : (i + h) % (2 * h) = i - h := by
        rw [show i + h = (i - h) + 2 * h by omega, Nat.add_mod_right, Nat.mod_eq_of_lt (by omega)]
      rw [this]
      have := (r3 (i - h, j) (mem_nest2.2 ⟨by simp only; omega, hj⟩)).2
      simp only at this
      rwa [show i - h + h = i by omega] at this
  obtain ⟨q, q1, q2, q3, _⟩ := swap_spec (nest2 (2 * h) h)
    (fun p => p.1 * (2 * h) + p.2) (fun p => p.1 * (2 * h) + p.2 + h) (by
      rw [List.nodup_append]
      refine ⟨?_, ?_, ?_⟩
      · refine List.Nodup.map_on ?_ (nest2_nodup _ _)
        rintro ⟨i, j⟩ a ⟨i', j'⟩ b e
        have a := mem_nest2.1 a; have b := mem_nest2.1 b
        simp only at a b e
        have := inj (by omega) (by omega) e
        exact Prod.ext this.1 this.2
      · refine List.Nodup.map_on ?_ (nest2_nodup _ _)
        rintro ⟨i, j⟩ a ⟨i', j'⟩ b e
        have a := mem_nest2.1 a; have b := mem_nest2.1 b
        simp only at a b e
        have := inj (i := i) (i' := i') (j := j + h) (j' := j' + h) (by omega) (by omega)
          (by omega)
        exact Prod.ext this.1 (by simp only; omega)
      · intro x hx y hy e
        rw [List.mem_map] at hx hy
        obtain ⟨p, hp, rfl⟩ := hx
        obtain ⟨q, hq, rfl⟩ := hy
        have hp := mem_nest2.1 hp; have hq := mem_nest2.1 hq
        have := inj (i := p.1) (i' := q.1) (j := p.2) (j' := q.2 + h) (by omega) (by omega)
          (by omega)
        omega) r (by
      intro p hp
      have hp := mem_nest2.1 hp
      rw [r2, hd]
      have := hlt p.1 (p.2 + h) (by omega) (by omega)
      constructor
      · exact hlt _ _ (by omega) (by omega)
      · omega)
  refine ⟨q, ?_, by rw [q2, r2, hd], fun i hi j hj => ?_⟩
  · unfold shift
    simp only [hh]
    rw [r1]
    exact q1
  · rcases Nat.lt_or_ge j h with hc | hc
    · rw [Nat.mod_eq_of_lt (by omega : j + h < 2 * h), ← hr i hi (j + h) (by omega)]
      have := (q3 (i, j) (mem_nest2.2 ⟨hi, hc⟩)).1
      simp only at this
      rw [this, Nat.add_assoc]
    · have e : (j + h) % (2 * h) = j - h := by
        rw [show j + h = (j - h) + 2 * h by omega, Nat.add_mod_right, Nat.mod_eq_of_lt (by omega)]
      rw [e, ← hr i hi (j - h) (by omega)]
      have := (q3 (i, j - h) (mem_nest2.2 ⟨hi, by simp only; omega⟩)).2
      simp only at this
      rwa [show i * (2 * h) + (j - h) + h = i * (2 * h) + j by omega] at this

theorem normalise_spec (n : Nat) (d : Arr ℂ) (hd : d.size = n) :
    ∃ r, normalise n d = some r ∧ r.size = n ∧ ∀ i < n, r.get i = d.get i / n := by
  obtain ⟨r, h1, h2, h3, _⟩ := Arr.modify_spec (List.range n) (fun i : Nat => (i : Int))
    (fun _ v => v / (n : ℂ)) (by
      refine List.Nodup.map_on ?_ List.nodup_range
      intro a _ b _ e; exact_mod_cast e) d (by
      intro i hi; have := List.mem_range.1 hi; omega)
  refine ⟨r, h1, by rw [h2, hd], fun i hi => ?_⟩
  have := h3 i (List.mem_range.2 hi)
  simpa using this

theorem multiply_spec (a b : Arr ℂ) (n : Nat) (d : Arr ℂ) (ha : a.size = n) (hb : b.size = n)
    (hd : d.size = n) :
    ∃ r, multiply a b n d = some r ∧ r.size = n ∧ ∀ i < n, r.get i = a.get i * b.get i := by
  have hc : multiply a b n d = loop (fun d (i : Nat) => d.write (i : Int) (a.get i * b.get i)) d
      (List.range n) := by
    unfold multiply
    apply loop_congr
    intro i hi s
    have hi := List.mem_range.1 hi
    rw [Arr.read_nat, if_pos (by omega)]
    simp only [Option.bind_some]
    rw [Arr.read_nat, if_pos (by omega)]
    rfl
  obtain ⟨r, h1, h2, h3, _⟩ := Arr.store_spec (List.range n) (fun i : Nat => (i : Int))
    (fun i => a.get i * b.get i) (by
      refine List.Nodup.map_on ?_ List.nodup_range
      intro a _ b _ e; exact_mod_cast e) d (by
      intro i hi; have := List.mem_range.1 hi; omega)
  refine ⟨r, by rw [hc]; exact h1, by rw [h2, hd], fun i hi => ?_⟩
  have := h3 i (List.mem_range.2 hi)
  simpa using this

theorem removePad_spec (padded : Arr ℂ) (n e : Nat) (he : 0 < e) (out : Arr ℂ)
    (hp : padded.size = (n + 2 * e) * (n + 2 * e)) (ho : n * n ≤ out.size) :
    ∃ r, removePad padded (n + 2 * e) e out = some r ∧ r.size = out.size ∧
      (∀ i < n, ∀ j < n, r.get (i * n + j) =
        padded.get ((i + e - 1) * (n + 2 * e) + (j + e - 1))) ∧
      ∀ k, n * n ≤ k → r.get k = out.get k := by
  have hlt : ∀ i j, i < n + 2 * e → j < n + 2 * e →
      i * (n + 2 * e) + j < (n + 2 * e) * (n + 2 * e) := by
    intro i j hi hj
    have := flat_lt hi hj
    rw [Nat.mul_comm i]; exact this
  have hlt' : ∀ i j, i < n → j < n → i * n + j < n * n := by
    intro i j hi hj
    have := flat_lt hi hj
    rw [Nat.mul_comm i]; exact this
  have hc : removePad padded (n + 2 * e) e out = loop (fun out (p : Nat × Nat) =>
      out.write ((p.1 * n + p.2 : Nat) : Int)
        (padded.get ((p.1 + e - 1) * (n + 2 * e) + (p.2 + e - 1)))) out (nest2 n n) := by
    unfold removePad
    rw [show n + 2 * e - 2 * e = n by omega]
    apply loop_congr
    intro p hp' s
    have hp' := mem_nest2.1 hp'
    have h1 := hlt (p.1 + e - 1) (p.2 + e - 1) (by omega) (by omega)
    have hi : ((p.1 : Int) + ((e : Int) - 1)) * ((n + 2 * e : Nat) : Int) +
        ((p.2 : Int) + ((e : Int) - 1)) =
        (((p.1 + e - 1) * (n + 2 * e) + (p.2 + e - 1) : Nat) : Int) := by
      have a : ((p.1 + e - 1 : Nat) : Int) = p.1 + (e - 1) := by omega
      have b : ((p.2 + e - 1 : Nat) : Int) = p.2 + (e - 1) := by omega
      rw [Nat.cast_add ((p.1 + e - 1) * (n + 2 * e)), Nat.cast_mul, a, b]
    rw [hi, Arr.read_nat, if_pos (by omega)]
    rfl
  obtain ⟨r, h1, h2, h3, h4⟩ := Arr.store_spec (nest2 n n)
    (fun p : Nat × Nat => ((p.1 * n + p.2 : Nat) : Int))
    (fun p => padded.get ((p.1 + e - 1) * (n + 2 * e) + (p.2 + e - 1))) (by
      refine List.Nodup.map_on ?_ (nest2_nodup n n)
      rintro ⟨i, j⟩ h ⟨i', j'⟩ h' hh
      have h := mem_nest2.1 h
      have h' := mem_nest2.1 h'
      simp only at h h' hh
      have := flat_inj (b := n) (i := i) (j := j) (i' := i') (j' := j')
        (by omega) (by omega) (by rw [Nat.mul_comm n, Nat.mul_comm n]; exact_mod_cast hh)
      exact Prod.ext this.1 this.2) out (by
      intro p hp
      have hp := mem_nest2.1 hp
      have := hlt' p.1 p.2 (by omega) (by omega)
      omega)
  refine ⟨r, by rw [hc]; exact h1, h2, fun i hi j hj => ?_, fun k hk => h4 k fun p hp he' => ?_⟩
  · have := h3 (i, j) (mem_nest2.2 ⟨hi, hj⟩)
    simp only [Int.toNat_natCast] at this
    exact this
  · have hp := mem_nest2.1 hp
    have := hlt' p.1 p.2 (by omega) (by omega)
    omega

end
end Sdp.FftConv
