import Mathlib.Data.Nat.Log
import Mathlib.Data.Nat.Prime.Basic
import Mathlib.Tactic.IntervalCases
import Mathlib.Tactic.NormNum.Prime
import Verif.Sizes.Heap

/-!
# C26 (padded FFT size) and C29 (good FFT size)
-/

namespace Sdp.Sizes

/-- Specification: no prime factor above 11 (so in particular `m` is not 0). -/
def Smooth (m : Nat) : Prop := ∀ p, p.Prime → p ∣ m → p ≤ 11

theorem Smooth.pos {m : Nat} (h : Smooth m) : 0 < m := by
  rcases Nat.eq_zero_or_pos m with h0 | h0
  · subst h0
    have := h 13 (by norm_num) (dvd_zero _)
    omega
  · exact h0

theorem prime_le_11 {p : Nat} (hp : p.Prime) (h : p ≤ 11) :
    p = 2 ∨ p = 3 ∨ p = 5 ∨ p = 7 ∨ p = 11 := by
  interval_cases p <;> revert hp <;> norm_num

theorem smooth_two_pow (k : Nat) : Smooth (2 ^ k) := by
  intro p hp hd
  have := (Nat.prime_dvd_prime_iff_eq hp (by norm_num)).1 (hp.dvd_of_dvd_pow hd)
  omega

theorem Smooth.mul {a b : Nat} (ha : Smooth a) (hb : Smooth b) : Smooth (a * b) := by
  intro p hp hd
  rcases (hp.dvd_mul).1 hd with h | h
  · exact ha p hp h
  · exact hb p hp h

theorem smooth_prime {p : Nat} (hp : p.Prime) (h : p ≤ 11) : Smooth p := by
  intro q hq hd
  rw [(Nat.prime_dvd_prime_iff_eq hq hp).1 hd]; exact h

theorem Smooth.of_dvd {a b : Nat} (hb : Smooth b) (h : a ∣ b) : Smooth a :=
  fun p hp hd => hb p hp (hd.trans h)

/-! ## C26 -/

/-- The heap invariant of the main loop. -/
structure Inv (n : Int) (heap : Arr Int) (prev : Int) : Prop where
  order : IsHeap heap
  prev_lt : prev < n ∨ prev = 0
  prev_nonneg : 0 ≤ prev
  elems : ∀ x, Has heap x → prev ≤ x ∧ x ≤ max (2 * n) 2 ∧
    ∃ m : Nat, x = m ∧ 2 ∣ m ∧ Smooth m
  cover : ∀ s : Nat, 2 ∣ s → Smooth s → prev < s → (s : Int) ≤ max (2 * n) 2 →
    ∃ m : Nat, Has heap m ∧ prev < m ∧ m ∣ s

/-- There is a candidate between `n` and `2 n`. -/
theorem candidate (n : Int) : ∃ s : Nat, 2 ∣ s ∧ Smooth s ∧ n ≤ s ∧ (s : Int) ≤ max (2 * n) 2 := by
  by_cases h : n ≤ 2
  · exact ⟨2, dvd_refl _, smooth_two_pow 1, by omega, by omega⟩
  · obtain ⟨N, hN⟩ : ∃ N : Nat, n = N := ⟨n.toNat, by omega⟩
    have hc : 1 < Nat.clog 2 N := by
      by_contra hh
      have := (Nat.clog_le_iff_le_pow (by norm_num : 1 < 2)).1 (not_lt.1 hh)
      omega
    refine ⟨2 ^ Nat.clog 2 N, dvd_pow_self 2 (by omega), smooth_two_pow _, ?_, ?_⟩
    · have := Nat.le_pow_clog (b := 2) (by norm_num) N
      omega
    · obtain ⟨k, hk⟩ : ∃ k, Nat.clog 2 N = k + 1 := ⟨Nat.clog 2 N - 1, by omega⟩
      have hlow : 2 ^ k < N := by
        by_contra hc'
        have := (Nat.clog_le_iff_le_pow (by norm_num : 1 < 2)).2 (not_lt.1 hc')
        omega
      rw [hk, pow_succ]
      omega

theorem inserts_spec (c n : Int) (ps : List Int) : ∀ heap : Arr Int, IsHeap heap →
    ∃ r, loop (fun h (p : Int) => if c * p ≤ n * 2 then insert h (c * p) else some h) heap ps =
      some r ∧ IsHeap r ∧ ∀ x, Has r x ↔ Has heap x ∨ ∃ p ∈ ps, c * p ≤ n * 2 ∧ x = c * p := by
  induction ps with
  | nil => intro heap h; exact ⟨heap, rfl, h, fun x => by simp⟩
  | cons p ps ih =>
    intro heap h
    simp only [loop]
    by_cases hc : c * p ≤ n * 2
    · obtain ⟨h1, e1, _, i1, m1⟩ := insert_spec heap h (c * p)
      obtain ⟨r, e2, i2, m2⟩ := ih h1 i1
      refine ⟨r, by rw [if_pos hc, e1]; exact e2, i2, fun x => ?_⟩
      rw [m2, m1]
      simp only [List.mem_cons, exists_eq_or_imp]
      tauto
    · obtain ⟨r, e2, i2, m2⟩ := ih heap h
      refine ⟨r, by rw [if_neg hc]; exact e2, i2, fun x => ?_⟩
      rw [m2]
      simp only [List.mem_cons, exists_eq_or_imp]
      tauto

/-- One pass: either the answer, or the invariant again with progress. -/
theorem step_spec (n : Int) (heap : Arr Int) (prev next : Int) (I : Inv n heap prev) :
    (∃ r : Nat, step n heap prev next = some (.done r) ∧
      IsLeast {m : Nat | 2 ∣ m ∧ Smooth m ∧ n ≤ m} r) ∨
    ∃ heap' prev' next', step n heap prev next = some (.more heap' prev' next') ∧
      Inv n heap' prev' ∧
      (prev < prev' ∧ prev' < n ∨ prev' = prev ∧ heap'.size + 1 = heap.size) := by
  obtain ⟨s, s1, s2, s3, s4⟩ := candidate n
  have hs0 := s2.pos
  have hps : prev < s := by rcases I.prev_lt with h | h <;> omega
  obtain ⟨m0, ⟨i0, hi0, _⟩, _, _⟩ := I.cover s s1 s2 hps s4
  have hsz : 0 < heap.size := by omega
  obtain ⟨c, rest, e, z, hh, hc, hmin, hsub, hrem⟩ := extractMin_spec heap I.order hsz
  obtain ⟨c1, c2, cm, rfl, c3, c4⟩ := I.elems c hc
  have hcm0 := c4.pos
  unfold step
  rw [if_pos hsz, e]
  simp only [Option.bind_some]
  by_cases hge : (cm : Int) ≥ n
  · left
    refine ⟨cm, by rw [if_pos hge], ⟨c3, c4, hge⟩, ?_⟩
    rintro m ⟨m1, m2, m3⟩
    have hm0 := m2.pos
    by_cases hb : (m : Int) ≤ max (2 * n) 2
    · have hpm : prev < m := by rcases I.prev_lt with h | h <;> omega
      obtain ⟨w, w1, _, w3⟩ := I.cover m m1 m2 hpm hb
      have := hmin _ w1
      have := Nat.le_of_dvd hm0 w3
      omega
    · omega
  · right
    rw [if_neg hge]
    by_cases heq : (cm : Int) = prev
    · rw [if_pos heq]
      refine ⟨rest, prev, cm, rfl, ⟨hh, I.prev_lt, I.prev_nonneg, fun x hx => I.elems x (hsub x hx),
        fun s s1 s2 s3 s4 => ?_⟩, Or.inr ⟨rfl, z⟩⟩
      obtain ⟨w, w1, w2, w3⟩ := I.cover s s1 s2 s3 s4
      exact ⟨w, hrem _ w1 (by omega), w2, w3⟩
    · rw [if_neg heq]
      obtain ⟨r, e2, i2, m2⟩ := inserts_spec cm n [2, 3, 5, 7, 11] rest hh
      rw [e2]
      refine ⟨r, cm, cm, rfl, ⟨i2, Or.inl (by omega), by omega, ?_, ?_⟩, Or.inl ⟨by omega, by omega⟩⟩
      · intro x hx
        rcases (m2 x).1 hx with h | ⟨p, hp, hle, rfl⟩
        · have := I.elems x (hsub x h)
          exact ⟨hmin x (hsub x h), this.2⟩
        · obtain ⟨q, rfl, hq1, hq2⟩ : ∃ q : Nat, p = q ∧ Smooth q ∧ 0 < q := by
            simp only [List.mem_cons, List.not_mem_nil, or_false] at hp
            rcases hp with rfl | rfl | rfl | rfl | rfl
            · exact ⟨2, rfl, smooth_prime (by norm_num) (by norm_num), by norm_num⟩
            · exact ⟨3, rfl, smooth_prime (by norm_num) (by norm_num), by norm_num⟩
            · exact ⟨5, rfl, smooth_prime (by norm_num) (by norm_num), by norm_num⟩
            · exact ⟨7, rfl, smooth_prime (by norm_num) (by norm_num), by norm_num⟩
            · exact ⟨11, rfl, smooth_prime (by norm_num) (by norm_num), by norm_num⟩
          refine ⟨?_, by omega, cm * q, by push_cast; rfl, c3.mul_right q, c4.mul hq1⟩
          have : cm * 1 ≤ cm * q := Nat.mul_le_mul_left _ hq2
          have h2 : ((cm * 1 : Nat) : Int) ≤ ((cm * q : Nat) : Int) := by exact_mod_cast this
          push_cast at h2
          omega
      · intro s s1 s2 s3 s4
        obtain ⟨w, w1, w2, w3⟩ := I.cover s s1 s2 (by omega) s4
        by_cases hw : w = cm
        · subst hw
          obtain ⟨q, rfl⟩ := w3
          have hq : q ≠ 1 := by rintro rfl; simp at s3
          have hqp := Nat.minFac_prime hq
          have hqd := Nat.minFac_dvd q
          have hle := s2 _ hqp (hqd.mul_left w)
          have hdvd : w * q.minFac ∣ w * q := Nat.mul_dvd_mul_left w hqd
          have hlt : w * q.minFac ≤ w * q := Nat.le_of_dvd s2.pos hdvd
          have hgt : w * 2 ≤ w * q.minFac := Nat.mul_le_mul_left _ hqp.two_le
          refine ⟨w * q.minFac, ?_, by omega, hdvd⟩
          rw [m2]
          right
          refine ⟨(q.minFac : Int), ?_, by push_cast at s4 ⊢; zify at hlt; omega, by push_cast; rfl⟩
          rcases prime_le_11 hqp hle with h | h | h | h | h <;> rw [h] <;> simp
        · have := hmin _ w1
          refine ⟨w, (m2 _).2 (Or.inl (hrem _ w1 (by omega))), by omega, w3⟩

theorem run_mono (n : Int) (r : Int) : ∀ (fuel : Nat) (heap : Arr Int) (prev next : Int),
    run n fuel heap prev next = some r → ∀ k, run n (fuel + k) heap prev next = some r := by
  intro fuel
  induction fuel with
  | zero => intro heap prev next h; cases h
  | succ f ih =>
    intro heap prev next h k
    rw [show f + 1 + k = (f + k) + 1 by omega]
    unfold run at h ⊢
    rw [Option.bind_eq_some_iff] at h ⊢
    obtain ⟨st, h1, h2⟩ := h
    refine ⟨st, h1, ?_⟩
    cases st with
    | done x => exact h2
    | more a b c => exact ih _ _ _ h2 k

theorem run_spec (n : Int) (d : Nat) : ∀ (z : Nat) (heap : Arr Int) (prev next : Int),
    Inv n heap prev → (n - prev).toNat = d → heap.size = z →
    ∃ (F r : Nat), run n F heap prev next = some (r : Int) ∧
      IsLeast {m : Nat | 2 ∣ m ∧ Smooth m ∧ n ≤ m} r := by
  induction d using Nat.strong_induction_on with
  | _ d ihd =>
    intro z
    induction z with
    | zero =>
      intro heap prev next I hd hz
      rcases step_spec n heap prev next I with ⟨r, h1, h2⟩ | ⟨h', p', n', h1, h2, h3⟩
      · exact ⟨1, r, by simp [run, h1], h2⟩
      · rcases h3 with ⟨a, b⟩ | ⟨a, b⟩
        · obtain ⟨F, r, f1, f2⟩ := ihd (n - p').toNat (by omega) _ h' p' n' h2 rfl rfl
          exact ⟨F + 1, r, by simp only [run, h1, Option.bind_some]; exact f1, f2⟩
        · omega
    | succ z ihz =>
      intro heap prev next I hd hz
      rcases step_spec n heap prev next I with ⟨r, h1, h2⟩ | ⟨h', p', n', h1, h2, h3⟩
      · exact ⟨1, r, by simp [run, h1], h2⟩
      · rcases h3 with ⟨a, b⟩ | ⟨a, b⟩
        · obtain ⟨F, r, f1, f2⟩ := ihd (n - p').toNat (by omega) _ h' p' n' h2 rfl rfl
          exact ⟨F + 1, r, by simp only [run, h1, Option.bind_some]; exact f1, f2⟩
        · obtain ⟨F, r, f1, f2⟩ := ihz h' p' n' h2 (by rw [a]; exact hd) (by omega)
          exact ⟨F + 1, r, by simp only [run, h1, Option.bind_some]; exact f1, f2⟩

/-- The least even 11-smooth number, before the conversion to `int`. -/
theorem paddedFrom_spec (n : Int) :
    ∃ F r : Nat, (∀ fuel ≥ F, paddedFrom fuel n = some (toInt32 r)) ∧
      IsLeast {m : Nat | 2 ∣ m ∧ Smooth m ∧ n ≤ m} r := by
  obtain ⟨h, e, _, i, m⟩ := insert_spec ⟨0, fun _ => 0⟩ (fun k _ hk' => by simp only at hk'; omega) 2
  have hm : ∀ x, Has h x ↔ x = 2 := by
    intro x
    rw [m]
    constructor
    · rintro (⟨k, hk, _⟩ | h)
      · simp only at hk; omega
      · exact h
    · exact Or.inr
  have I : Inv n h 0 := by
    refine ⟨i, Or.inr rfl, le_refl _, ?_, ?_⟩
    · intro x hx
      rw [(hm x).1 hx]
      exact ⟨by omega, by omega, 2, rfl, dvd_refl _, smooth_two_pow 1⟩
    · intro s s1 _ _ _
      exact ⟨2, (hm _).2 rfl, by norm_num, s1⟩
  obtain ⟨F, r, f1, f2⟩ := run_spec n _ _ h 0 0 I rfl rfl
  refine ⟨F, r, fun fuel hf => ?_, f2⟩
  unfold paddedFrom
  rw [e]
  simp only [Option.bind_some]
  obtain ⟨k, rfl⟩ := Nat.exists_eq_add_of_le hf
  rw [run_mono n r F h 0 0 f1 k]
  rfl

theorem toInt32_id (x : Int) (h1 : 0 ≤ x) (h2 : x < 2 ^ 31) : toInt32 x = x := by
  unfold toInt32
  rw [Int.emod_eq_of_lt] <;> omega

/-- C26.  For every requested size and padding factor, the function terminates without leaving
its heap and, if the wanted number fits in an `int`, returns the smallest even number without
prime factors above 11 that is not below `n * padding` rounded up.  Missing: sizes so large that
the wanted number is at least `2 ^ 31` (`C26_overflow_false`). -/
theorem C26_padded_size_partial (n : Int) (padding : ℝ) (w : Nat)
    (hw : IsLeast {m : Nat | 2 ∣ m ∧ Smooth m ∧ (n : ℝ) * padding ≤ m} w) (hfit : w < 2 ^ 31) :
    ∃ F, ∀ fuel ≥ F, paddedSize fuel n padding = some (w : Int) := by
  obtain ⟨F, r, h1, h2⟩ := paddedFrom_spec ⌈(n : ℝ) * padding⌉
  have hs : {m : Nat | 2 ∣ m ∧ Smooth m ∧ ⌈(n : ℝ) * padding⌉ ≤ (m : Int)} =
      {m : Nat | 2 ∣ m ∧ Smooth m ∧ (n : ℝ) * padding ≤ m} := by
    ext m
    simp only [Set.mem_setOf_eq, Int.ceil_le, Int.cast_natCast]
  rw [hs] at h2
  have : r = w := h2.unique hw
  subst this
  refine ⟨F, fun fuel hf => ?_⟩
  unfold paddedSize
  rw [h1 fuel hf, toInt32_id _ (by omega) (by omega)]

/-- Such a number always exists, so the previous theorem is about every request. -/
theorem C26_exists (n : Int) (padding : ℝ) :
    ∃ w, IsLeast {m : Nat | 2 ∣ m ∧ Smooth m ∧ (n : ℝ) * padding ≤ m} w := by
  obtain ⟨_, r, _, h2⟩ := paddedFrom_spec ⌈(n : ℝ) * padding⌉
  refine ⟨r, ?_⟩
  have hs : {m : Nat | 2 ∣ m ∧ Smooth m ∧ ⌈(n : ℝ) * padding⌉ ≤ (m : Int)} =
      {m : Nat | 2 ∣ m ∧ Smooth m ∧ (n : ℝ) * padding ≤ m} := by
    ext m
    simp only [Set.mem_setOf_eq, Int.ceil_le, Int.cast_natCast]
  rwa [hs] at h2

/-- The answer never exceeds twice the request (or 2). -/
theorem C26_at_most_double (n : Int) (padding : ℝ) (w : Nat)
    (hw : IsLeast {m : Nat | 2 ∣ m ∧ Smooth m ∧ (n : ℝ) * padding ≤ m} w) :
    (w : Int) ≤ max (2 * ⌈(n : ℝ) * padding⌉) 2 := by
  obtain ⟨s, s1, s2, s3, s4⟩ := candidate ⌈(n : ℝ) * padding⌉
  have := hw.2 (show s ∈ _ from ⟨s1, s2, by
    have := Int.ceil_le.1 s3
    simpa using this⟩)
  omega

/-- Instance: a request of 13 with padding 2 gives 28. -/
example : IsLeast {m : Nat | 2 ∣ m ∧ Smooth m ∧ ((13 : Int) : ℝ) * 2 ≤ m} 28 := by
  constructor
  · refine ⟨by norm_num, ?_, by norm_num⟩
    intro p hp hd
    rcases (hp.dvd_mul).1 (show p ∣ 4 * 7 by simpa using hd) with h | h
    · have := Nat.le_of_dvd (by norm_num) h; omega
    · have := Nat.le_of_dvd (by norm_num) h; omega
  · rintro m ⟨h1, h2, h3⟩
    by_contra hc
    have h4 : 26 ≤ m := by
      have : ((26 : Nat) : ℝ) ≤ m := by push_cast at h3 ⊢; linarith
      exact_mod_cast this
    have : m = 26 ∨ m = 27 := by omega
    rcases this with rfl | rfl
    · have := h2 13 (by norm_num) (by norm_num); omega
    · omega

/-- C26 is false for a request of `2 ^ 31 - 1`: the answer `2 ^ 31` is converted to a negative
`int`. -/
theorem C26_overflow_false : ∃ F, ∀ fuel ≥ F, paddedSize fuel (2 ^ 31 - 1) 1 = some (-2 ^ 31) := by
  obtain ⟨F, r, h1, h2⟩ := paddedFrom_spec (2 ^ 31 - 1)
  have : r = 2 ^ 31 := by
    apply h2.unique
    constructor
    · exact ⟨by norm_num, smooth_two_pow 31, by norm_num⟩
    · rintro m ⟨a, _, c⟩
      omega
  refine ⟨F, fun fuel hf => ?_⟩
  unfold paddedSize
  have e : ⌈(((2 ^ 31 - 1 : Int) : ℝ)) * 1⌉ = 2 ^ 31 - 1 := by rw [mul_one, Int.ceil_intCast]
  rw [e, h1 fuel hf, this]
  rfl

end Sdp.Sizes
