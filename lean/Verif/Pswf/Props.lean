import Verif.Pswf.Model
import Verif.Mem.Props2
import Mathlib.Algebra.BigOperators.Group.Finset.Basic
import Mathlib.Tactic.Linarith
import Mathlib.Tactic.FieldSimp
import Mathlib.Tactic.Ring

/-!
# C84: samples of prolate spheroidal wave functions
-/

namespace Sdp.Pswf
open Sdp

/-! ## Powers -/

theorem cipowLoop_eq (base : ℝ) (exp : Nat) (result : ℝ) : cipowLoop base exp result = result * base ^ exp := by
  induction exp using Nat.strong_induction_on generalizing base result with
  | _ exp ih =>
    rw [cipowLoop]
    by_cases h : exp = 0
    · simp [h]
    · rw [dif_neg h, ih (exp / 2) (by omega), ← pow_two, ← pow_mul]
      have h2 := Nat.div_add_mod exp 2
      by_cases h1 : exp % 2 = 0
      · rw [if_neg (by simpa using h1)]
        rw [h1, add_zero] at h2
        rw [h2]
      · rw [if_pos h1]
        have h1 : exp % 2 = 1 := by omega
        rw [h1] at h2
        rw [mul_assoc, ← pow_succ', h2]

/-- **C84, powers.** -/
theorem C84_power (base : ℝ) (exp : Nat) : cipow base exp = base ^ exp := by
  unfold cipow
  by_cases h : exp = 1
  · rw [if_pos h, h, pow_one]
  · rw [if_neg h, cipowLoop_eq, one_mul]

/-! ## The series -/

/-- A sum of the series of the function, `n` terms after the first, in `1 - x²`. -/
noncomputable def series (ck : Nat → ℝ) (x : ℝ) (n : Nat) : ℝ := ∑ k ∈ Finset.range (n + 1), ck k * (1 - x ^ 2) ^ k

/-- A number of terms at which the summation may stop: all `limit`, or at least ten with the last so small
that it no longer matters in double precision. -/
def Stop (ck : Nat → ℝ) (x : ℝ) (limit n : Nat) : Prop :=
  n = limit ∨ 10 ≤ n ∧ n ≤ limit ∧ |ck n * (1 - x ^ 2) ^ n| < 1 / 10 ^ 14 * |series ck x n|

theorem aswfaLoop_spec (ck : Arr ℝ) (x : ℝ) (limit : Nat) (hl : limit < ck.size) :
    ∀ fuel k, k + fuel = limit → ∃ n, Stop ck.get x limit n ∧
      aswfaLoop ck (1 - x * x) (k + 1) ((1 - x * x) ^ (k + 1)) (series ck.get x k) fuel =
        some (series ck.get x n) := by
  intro fuel
  induction fuel with
  | zero => intro k hk; exact ⟨limit, Or.inl rfl, by rw [← hk]; rfl⟩
  | succ fuel ih =>
    intro k hk
    have e : series ck.get x (k + 1) = series ck.get x k + ck.get (k + 1) * (1 - x * x) ^ (k + 1) := by
      unfold series
      rw [Finset.sum_range_succ, pow_two]
    unfold aswfaLoop
    rw [Arr.read_nat, if_pos (by omega), Option.bind_some]
    simp only
    rw [← e]
    by_cases h : 10 ≤ k + 1 ∧ series ck.get x (k + 1) ≠ 0 ∧
        |ck.get (k + 1) * (1 - x * x) ^ (k + 1) / series ck.get x (k + 1)| < 1 / 10 ^ 14
    · rw [if_pos h]
      refine ⟨k + 1, Or.inr ⟨h.1, by omega, ?_⟩, rfl⟩
      have h3 := h.2.2
      rw [abs_div, div_lt_iff₀ (abs_pos.2 h.2.1)] at h3
      rw [pow_two]
      exact h3
    · rw [if_neg h, ← pow_succ]
      exact ih (k + 1) (by omega)

/-- The number of terms after the first for the size parameter `c`. -/
noncomputable def terms (c : ℝ) : Nat := ((trunc c + 40).tdiv 2 - 2).toNat

theorem terms_lt {c : ℝ} (h : c < 364) : terms c < 200 := by
  have ht : trunc c ≤ 363 := by
    unfold trunc
    split
    · have : ⌊c⌋ < 364 := Int.floor_lt.2 (by exact_mod_cast h)
      omega
    · have : ⌈c⌉ ≤ 0 := Int.ceil_le.2 (by push_cast; linarith)
      omega
  unfold terms
  have : (trunc c + 40).tdiv 2 ≤ 201 := by
    have := Int.tdiv_le_tdiv (c := 2) (by omega) (by omega : trunc c + 40 ≤ 403)
    have e : (403 : Int).tdiv 2 = 201 := rfl
    omega
  omega

/-- The value of the function for `|x| < 1`, to the precision of the summation. -/
def IsValue (p : Params) (x v : ℝ) : Prop :=
  ∃ n, Stop p.coeff.get x (terms p.c) n ∧ v = (1 - x ^ 2) ^ ((p.m : ℝ) / 2) * series p.coeff.get x n

theorem aswfa_spec (p : Params) (hs : p.coeff.size = 200) (hc : p.c < 364) (x : ℝ) :
    ∃ v, aswfa p.m p.c p.coeff x = some v ∧ IsValue p x v := by
  obtain ⟨n, hn, h⟩ := aswfaLoop_spec p.coeff x (terms p.c) (by rw [hs]; exact terms_lt hc) (terms p.c) 0 (by omega)
  refine ⟨_, ?_, n, hn, rfl⟩
  unfold aswfa
  simp only
  rw [show (0 : Int) = ((0 : Nat) : Int) from rfl, Arr.read_nat, if_pos (by omega), Option.bind_some]
  rw [show terms p.c = ((trunc p.c + 40).tdiv 2 - 2).toNat from rfl] at h
  simp only [zero_add, pow_one] at h
  have h0 : series p.coeff.get x 0 = p.coeff.get 0 := by simp [series]
  rw [← h0, h, Option.bind_some]
  congr 2
  rw [mul_one_div, pow_two]
  by_cases hm : p.m = 0 ∧ 1 - x * x = 0
  · rw [if_pos hm, hm.1]; simp
  · rw [if_neg hm]

/-- **C84, evaluation.**  With a size parameter below 364 no evaluation leaves the coefficients; the value is
the sum of the series for `|x| < 1`, and zero elsewhere. -/
theorem C84_evaluate (p : Params) (hs : p.coeff.size = 200) (hc : p.c < 364) (x : ℝ) :
    ∃ v, evaluate p x = some v ∧ (|x| < 1 → IsValue p x v) ∧ (1 ≤ |x| → v = 0) := by
  unfold evaluate
  by_cases h : |x| < 1
  · rw [if_pos h]
    obtain ⟨v, h1, n, h2, h3⟩ := aswfa_spec p hs hc |x|
    refine ⟨v, h1, fun _ => ⟨n, ?_, ?_⟩, fun h' => absurd h (not_lt.2 h')⟩
    · unfold Stop series at h2 ⊢
      rw [sq_abs] at h2
      exact h2
    · unfold series at h3 ⊢
      rw [sq_abs] at h3
      exact h3
  · rw [if_neg h]
    exact ⟨0, rfl, fun h' => absurd h' h, fun _ => rfl⟩

/-- **C84, symmetry.** -/
theorem C84_even (p : Params) (x : ℝ) : evaluate p (-x) = evaluate p x := by
  unfold evaluate
  rw [abs_neg]

/-! ## Samples -/

/-- Positions of the samples: `n` values with a stride. -/
structure Samples (stride : Int) (size n : Nat) (pos : Nat → Nat) : Prop where
  strides : ∀ i, i < n → (pos i : Int) = i * stride
  fits : ∀ i, i < n → pos i < size
  distinct : ∀ i j, i < n → j < n → pos i = pos j → i = j

theorem write_at {stride : Int} {out : Arr ℝ} {n : Nat} {pos : Nat → Nat} (h : Samples stride out.size n pos)
    {i : Int} {k : Nat} (hi : i = k) (hk : k < n) (v : ℝ) :
    out.write (i * stride) v = some (out.put (pos k) v) := by
  rw [hi, ← h.strides k hk, Arr.write_nat, if_pos (h.fits k hk)]

theorem Samples.put {stride : Int} {out : Arr ℝ} {n : Nat} {pos : Nat → Nat} (h : Samples stride out.size n pos)
    (k : Nat) (v : ℝ) : Samples stride (out.put k v).size n pos := h

theorem steps_spec (p : Params) (stride : Int) (n : Nat) (pos : Nat → Nat) (E : ℝ → ℝ)
    (hE : ∀ x, aswfa p.m p.c p.coeff x = some (E x)) (k : Nat) (hk : k + 1 ≤ n / 2 ∨ k = 0) (out : Arr ℝ)
    (h : Samples stride out.size n pos) :
    ∃ r, loop (generateStep p n stride) out ((List.range k).map (· + 1)) = some r ∧ r.size = out.size ∧
      (∀ i, 1 ≤ i → i ≤ k → r.get (pos (n / 2 + i)) = E (2 * i / n) ∧ r.get (pos (n / 2 - i)) = E (2 * i / n)) ∧
      ∀ x, (∀ i, 1 ≤ i → i ≤ k → x ≠ pos (n / 2 + i) ∧ x ≠ pos (n / 2 - i)) → r.get x = out.get x := by
  induction k with
  | zero => exact ⟨out, rfl, rfl, by omega, fun _ _ => rfl⟩
  | succ k ih =>
    have hk : k + 1 + 1 ≤ n / 2 := hk.resolve_right (by omega)
    obtain ⟨r, h1, h2, h3, h4⟩ := ih (Or.inl (by omega))
    rw [List.range_succ, List.map_append, loop_append, h1, Option.bind_some]
    have hr : Samples stride r.size n pos := h2 ▸ h
    refine ⟨(r.put (pos (n / 2 + (k + 1))) (E (2 * (k + 1 : Nat) / n))).put (pos (n / 2 - (k + 1)))
      (E (2 * (k + 1 : Nat) / n)), ?_, h2, ?_, ?_⟩
    · simp only [List.map_cons, List.map_nil, loop]
      unfold generateStep
      rw [hE, Option.bind_some, write_at hr (k := n / 2 + (k + 1)) rfl (by omega), Option.bind_some,
        write_at (hr.put _ _) (k := n / 2 - (k + 1)) (by omega) (by omega)]
      rfl
    · intro i hi1 hi2
      simp only [Arr.put_get]
      have ne1 : ∀ a b, a < n → b < n → a ≠ b → pos a ≠ pos b := fun a b ha hb hne he =>
        hne (h.distinct a b ha hb he)
      by_cases e : i = k + 1
      · subst e
        rw [if_pos rfl, if_neg (ne1 _ _ (by omega) (by omega) (by omega)), if_pos rfl]
        exact ⟨rfl, rfl⟩
      · have := h3 i hi1 (by omega)
        rw [if_neg (ne1 _ _ (by omega) (by omega) (by omega)), if_neg (ne1 _ _ (by omega) (by omega) (by omega)),
          if_neg (ne1 _ _ (by omega) (by omega) (by omega)), if_neg (ne1 _ _ (by omega) (by omega) (by omega))]
        exact this
    · intro x hx
      simp only [Arr.put_get]
      rw [if_neg (hx (k + 1) (by omega) (by omega)).2, if_neg (hx (k + 1) (by omega) (by omega)).1]
      exact h4 x fun i a b => hx i a (by omega)

theorem evaluate_eq (p : Params) (E : ℝ → ℝ) (hE : ∀ x, aswfa p.m p.c p.coeff x = some (E x)) (x : ℝ)
    (h : |x| < 1) : evaluate p x = some (E |x|) := by
  unfold evaluate
  rw [if_pos h, hE]

/-- **C84, samples.**  For an even number of samples, every one is the function at its place in `[-1, 1)`,
the first replaced by 1e-15 on request; nothing else changes. -/
theorem C84_samples_partial (p : Params) (hs : p.coeff.size = 200) (hc : p.c < 364) (n : Nat) (h2 : 2 ∣ n)
    (hn : 0 < n) (stride : Int) (pos : Nat → Nat) (out : Arr ℝ) (h : Samples stride out.size n pos)
    (correct : Bool) :
    ∃ r, generate p n stride correct out = some r ∧ r.size = out.size ∧
      (∀ i, i < n → (0 < i ∨ correct = false) →
        some (r.get (pos i)) = evaluate p (2 * ((i : ℝ) - (n / 2 : Nat)) / n)) ∧
      (correct = true → r.get (pos 0) = 1 / 10 ^ 15) ∧
      ∀ x, (∀ i, i < n → x ≠ pos i) → r.get x = out.get x := by
  choose E hE hEv using fun x => aswfa_spec p hs hc x
  obtain ⟨q, rfl⟩ := h2
  have hq : 2 * q / 2 = q := by omega
  have hne : ∀ a b, a < 2 * q → b < 2 * q → a ≠ b → pos a ≠ pos b := fun a b ha hb hn he =>
    hn (h.distinct a b ha hb he)
  obtain ⟨r, h1, hr2, h3, h4⟩ := steps_spec p stride (2 * q) pos E hE (q - 1) (by omega)
    ((out.put (pos 0) 0).put (pos q) (E 0)) h
  rw [hq] at h3 h4
  have hval : ∀ i, i < 2 * q → 0 < i → some (r.get (pos i)) = evaluate p (2 * ((i : ℝ) - q) / (2 * q : Nat)) := by
    intro i hi h0
    have hqR : (0 : ℝ) < q := by exact_mod_cast (by omega : 0 < q)
    have e2 : ((2 * q : Nat) : ℝ) = 2 * q := by push_cast; ring
    have habs : |2 * ((i : ℝ) - q) / (2 * q : Nat)| = |(i : ℝ) - q| / q := by
      rw [e2, mul_div_mul_left _ _ (by norm_num), abs_div, abs_of_pos hqR]
    have hlt : |(i : ℝ) - q| < q := by
      rw [abs_lt]
      have a : (i : ℝ) < 2 * q := by exact_mod_cast hi
      have b : (0 : ℝ) < i := by exact_mod_cast h0
      constructor <;> linarith
    rw [evaluate_eq p E hE _ (by rw [habs, div_lt_one hqR]; exact hlt), habs]
    congr 1
    rcases lt_trichotomy i q with hc | hc | hc
    · have := (h3 (q - i) (by omega) (by omega)).2
      rw [show q - (q - i) = i by omega] at this
      rw [this, Nat.cast_sub (by omega), e2]
      have : |(i : ℝ) - q| = q - i := by
        rw [abs_of_neg (by have : (i : ℝ) < q := by exact_mod_cast hc
                           linarith)]
        ring
      rw [this, mul_div_mul_left _ _ (by norm_num)]
    · subst hc
      rw [h4 (pos i) fun j hj1 hj2 => ⟨hne _ _ (by omega) (by omega) (by omega),
        hne _ _ (by omega) (by omega) (by omega)⟩]
      simp [Arr.put_get]
    · have := (h3 (i - q) (by omega) (by omega)).1
      rw [show q + (i - q) = i by omega] at this
      rw [this, Nat.cast_sub (by omega), e2]
      have : |(i : ℝ) - q| = i - q := by
        rw [abs_of_pos (by have : (q : ℝ) < i := by exact_mod_cast hc
                           linarith)]
      rw [this, mul_div_mul_left _ _ (by norm_num)]
  have hfirst : r.get (pos 0) = 0 := by
    rw [h4 (pos 0) fun j hj1 hj2 => ⟨hne _ _ (by omega) (by omega) (by omega),
        hne _ _ (by omega) (by omega) (by omega)⟩]
    simp only [Arr.put_get]
    rw [if_neg (hne _ _ (by omega) (by omega) (by omega)), if_true]
  have hout : ∀ x, (∀ i, i < 2 * q → x ≠ pos i) → r.get x = out.get x := by
    intro x hx
    rw [h4 x fun i _ _ => ⟨hx _ (by omega), hx _ (by omega)⟩]
    simp only [Arr.put_get]
    rw [if_neg (hx _ (by omega)), if_neg (hx _ (by omega))]
  have hrs : Samples stride r.size (2 * q) pos := by rw [hr2]; exact h
  unfold generate
  rw [write_at h (i := 0) (k := 0) (by simp) (by omega), Option.bind_some, hE, Option.bind_some, hq,
    write_at (h.put _ _) (k := q) rfl (by omega), Option.bind_some, h1, Option.bind_some]
  have hzero : evaluate p (2 * (((0 : Nat) : ℝ) - q) / (2 * q : Nat)) = some 0 := by
    unfold evaluate
    rw [if_neg]
    have hqR : (q : ℝ) ≠ 0 := by exact_mod_cast (by omega : q ≠ 0)
    have : 2 * (((0 : Nat) : ℝ) - q) / (2 * q : Nat) = -1 := by
      push_cast
      field_simp
      ring
    rw [this]
    simp
  cases correct with
  | false =>
    rw [if_neg (by simp)]
    refine ⟨r, rfl, hr2, fun i hi _ => ?_, by simp, hout⟩
    by_cases h0 : i = 0
    · subst h0
      rw [hzero, hfirst]
    · exact hval i hi (by omega)
  | true =>
    rw [if_pos ⟨rfl, by omega⟩, write_at hrs (i := 0) (k := 0) (by simp) (by omega)]
    refine ⟨_, rfl, hr2, fun i hi h0 => ?_, fun _ => by simp [Arr.put_get], fun x hx => ?_⟩
    · have h0 : 0 < i := h0.resolve_right (by simp)
      rw [Arr.put_get, if_neg (hne _ _ (by omega) (by omega) (by omega))]
      exact hval i hi h0
    · rw [Arr.put_get, if_neg (hx 0 (by omega))]
      exact hout x hx

/-- **C84 fails** for an odd number of samples from three: the last is not written, and the first is zero. -/
theorem C84_samples_false (p : Params) (hs : p.coeff.size = 200) (hc : p.c < 364) (q : Nat) (hq : 0 < q)
    (stride : Int) (pos : Nat → Nat) (out : Arr ℝ) (h : Samples stride out.size (2 * q + 1) pos) (correct : Bool) :
    ∃ r, generate p (2 * q + 1) stride correct out = some r ∧ r.get (pos (2 * q)) = out.get (pos (2 * q)) ∧
      r.get (pos 0) = 0 := by
  choose E hE hEv using fun x => aswfa_spec p hs hc x
  have hq2 : (2 * q + 1) / 2 = q := by omega
  have hne : ∀ a b, a < 2 * q + 1 → b < 2 * q + 1 → a ≠ b → pos a ≠ pos b := fun a b ha hb hn he =>
    hn (h.distinct a b ha hb he)
  obtain ⟨r, h1, hr2, -, h4⟩ := steps_spec p stride (2 * q + 1) pos E hE (q - 1) (by omega)
    ((out.put (pos 0) 0).put (pos q) (E 0)) h
  rw [hq2] at h4
  refine ⟨r, ?_, ?_, ?_⟩
  · unfold generate
    rw [write_at h (i := 0) (k := 0) (by simp) (by omega), Option.bind_some, hE, Option.bind_some, hq2,
      write_at (h.put _ _) (k := q) rfl (by omega), Option.bind_some, h1, Option.bind_some,
      if_neg (by rintro ⟨-, h⟩; omega)]
  · rw [h4 _ fun j hj1 hj2 => ⟨hne _ _ (by omega) (by omega) (by omega),
        hne _ _ (by omega) (by omega) (by omega)⟩]
    simp only [Arr.put_get]
    rw [if_neg (hne _ _ (by omega) (by omega) (by omega)), if_neg (hne _ _ (by omega) (by omega) (by omega))]
  · rw [h4 _ fun j hj1 hj2 => ⟨hne _ _ (by omega) (by omega) (by omega),
        hne _ _ (by omega) (by omega) (by omega)⟩]
    simp only [Arr.put_get]
    rw [if_neg (hne _ _ (by omega) (by omega) (by omega)), if_true]

/-- **C84 fails** for an output array without elements: the first is written. -/
theorem C84_empty_false (p : Params) (stride : Int) (correct : Bool) (out : Arr ℝ) (h : out.size = 0) :
    generate p 0 stride correct out = none := by
  unfold generate
  have : out.write (0 * stride) 0 = none := by
    unfold Arr.write
    rw [if_neg]
    rw [h]
    omega
  rw [this]
  rfl

/-! ## Calls -/

/-- Types of output arrays. -/
def OutType (t : MemType) : Prop := t = .double ∨ t = .float ∨ t = .complexFloat ∨ t = .complexDouble

/-- **C84, calls.**  A call with a writeable output array of one even extent in the memory of the CPU samples
the function into it. -/
theorem C84_call_partial (p : Params) (hs : p.coeff.size = 200) (hc : p.c < 364) (mo : Mem) (n : Nat)
    (h2 : 2 ∣ n) (hn : 0 < n) (pos : Nat → Nat) (out : Arr ℝ) (hd : mo.numDims = 1) (hsh : mo.shapeDim 0 = n)
    (h : Samples (mo.strideElementsDim 0) out.size n pos) (ht : OutType mo.type) (hl : mo.location = .cpu)
    (hdata : mo.data ≠ none) (hro : mo.isReadOnly = false) (correct : Bool) :
    ∃ r, generateInto p mo 0 correct .success out = some (.success, r) ∧ r.size = out.size ∧
      (∀ i, i < n → (0 < i ∨ correct = false) →
        some (r.get (pos i)) = evaluate p (2 * ((i : ℝ) - (n / 2 : Nat)) / n)) ∧
      (correct = true → r.get (pos 0) = 1 / 10 ^ 15) ∧
      ∀ x, (∀ i, i < n → x ≠ pos i) → r.get x = out.get x := by
  obtain ⟨r, h1, hr⟩ := C84_samples_partial p hs hc n h2 hn _ pos out h correct
  refine ⟨r, ?_, hr⟩
  have hv := (view_status mo mo.type 1 .cpu .success).2 ⟨rfl, rfl, by simpa using hd, hl, hdata, hro⟩
  have e : checkAndView mo mo.type 1 .cpu .success = (mkView mo 1 .success, .success) := by
    have e : (checkAndView mo mo.type 1 .cpu .success).1 =
      mkView mo 1 (checkAndView mo mo.type 1 .cpu .success).2 := rfl
    rw [hv] at e
    exact Prod.ext e hv
  unfold generateInto
  unfold OutType at ht
  rw [if_neg (by simp), if_neg (by simp), if_neg (by rw [hd]; simp), if_neg (by rw [hl]; simp), if_pos ht, e]
  simp only
  rw [if_neg (by simp)]
  have e1 : ((mkView mo 1 .success).shape.getD 0 0).toNat = n := by simp [mkView, hsh]
  have e2 : (mkView mo 1 .success).stride.getD 0 0 = mo.strideElementsDim 0 := by simp [mkView]
  rw [e1, e2, h1]
  rfl

/-- **C84, errors.**  A call that returns an error has changed nothing, and other arrays are refused. -/
theorem C84_refused (p : Params) (mo : Mem) (size : Int) (correct : Bool) (st s : Status) (out r : Arr ℝ)
    (h : generateInto p mo size correct st out = some (s, r)) :
    (s ≠ .success → r = out) ∧
    (s = .success → st = .success ∧ size = 0 ∧ mo.numDims = 1 ∧ mo.location = .cpu ∧ OutType mo.type ∧
      mo.data ≠ none ∧ mo.isReadOnly = false) := by
  unfold generateInto at h
  by_cases h1 : st ≠ .success
  · rw [if_pos h1] at h
    cases h
    exact ⟨fun _ => rfl, fun h => absurd h h1⟩
  rw [if_neg h1] at h
  by_cases h2 : size ≠ 0
  · rw [if_pos h2] at h
    cases h
    exact ⟨fun _ => rfl, fun h => by cases h⟩
  rw [if_neg h2] at h
  by_cases h3 : mo.numDims ≠ 1
  · rw [if_pos h3] at h
    cases h
    exact ⟨fun _ => rfl, fun h => by cases h⟩
  rw [if_neg h3] at h
  by_cases h4 : mo.location ≠ .cpu
  · rw [if_pos h4] at h
    cases h
    exact ⟨fun _ => rfl, fun h => by cases h⟩
  rw [if_neg h4] at h
  by_cases h5 : mo.type = .double ∨ mo.type = .float ∨ mo.type = .complexFloat ∨ mo.type = .complexDouble
  · rw [if_pos h5] at h
    simp only at h
    generalize hv : checkAndView mo mo.type 1 .cpu st = v at h
    by_cases h6 : v.2 ≠ .success
    · rw [if_pos h6] at h
      cases h
      exact ⟨fun _ => rfl, fun h => absurd h h6⟩
    · rw [if_neg h6] at h
      obtain ⟨q, -, hq⟩ := Option.map_eq_some_iff.1 h
      cases hq
      rw [not_not, ← hv] at h6
      obtain ⟨-, -, -, -, q1, q2⟩ := (view_status _ _ _ _ _).1 h6
      exact ⟨fun h => absurd rfl h, fun _ => ⟨not_not.1 h1, not_not.1 h2, not_not.1 h3, not_not.1 h4, h5, q1, q2⟩⟩
  · rw [if_neg h5] at h
    cases h
    exact ⟨fun _ => rfl, fun h => by cases h⟩

/-! ## Histories of a plan -/

/-- A call that does not ask for a copy on the device where none can be made. -/
def Clean : Op → Prop
  | .values cuda gpu st => gpu = true → cuda = true ∧ st = .success
  | .coeff cuda gpu st => gpu = true → cuda = true ∧ st = .success
  | .generate .. => True

def CacheOk (p : Params) (s : Cache) : Prop :=
  (∀ v, s.valuesGpu = some v → s.values = some v) ∧ (∀ v, s.coeffGpu = some v → v = s.coeff) ∧
    s.coeff = some ((List.range p.coeff.size).map p.coeff.get)

theorem queryValues_ok {p : Params} {cuda gpu : Bool} {st : Status} {s s' : Cache} {v : Option Cached} {st' : Status}
    (hs : CacheOk p s) (hc : gpu = true → cuda = true ∧ st = .success)
    (h : queryValues cuda gpu s st = some (s', v, st')) : CacheOk p s' ∧ s'.values = s.values ∧ v = s.values := by
  unfold queryValues at h
  by_cases hg : gpu = true
  · rw [if_pos hg] at h
    obtain ⟨rfl, rfl⟩ := hc hg
    cases hvg : s.valuesGpu with
    | some w =>
      rw [hvg] at h
      cases h
      exact ⟨hs, rfl, (hs.1 w hvg).symm⟩
    | none =>
      rw [hvg] at h
      cases hv : s.values with
      | none => rw [hv] at h; cases h
      | some w =>
        rw [hv] at h
        simp only [copyGpu, ne_eq, not_true_eq_false, if_false, if_true] at h
        cases h
        refine ⟨⟨fun v hv' => ?_, hs.2.1, hs.2.2⟩, ?_, ?_⟩
        · cases hv'; first | exact hv | rfl
        · first | exact hv | rfl
        · first | exact hv.symm | rfl
  · rw [if_neg hg] at h
    cases h
    exact ⟨hs, rfl, rfl⟩

theorem queryCoeff_ok {p : Params} {cuda gpu : Bool} {st : Status} {s : Cache}
    (hs : CacheOk p s) (hc : gpu = true → cuda = true ∧ st = .success) :
    CacheOk p (queryCoeff cuda gpu s st).1 ∧
      (queryCoeff cuda gpu s st).2.1 = some ((List.range p.coeff.size).map p.coeff.get) := by
  unfold queryCoeff
  by_cases hg : gpu = true
  · rw [if_pos hg]
    obtain ⟨rfl, rfl⟩ := hc hg
    cases hvg : s.coeffGpu with
    | some w => exact ⟨hs, (hs.2.1 w hvg).trans hs.2.2⟩
    | none =>
      simp only [copyGpu, ne_eq, not_true_eq_false, if_false, if_true]
      exact ⟨⟨hs.1, fun v hv => by cases hv; rfl, hs.2.2⟩, hs.2.2⟩
  · rw [if_neg hg]
    exact ⟨hs, hs.2.2⟩

theorem apply_ok {p : Params} {s s' : Cache} {op : Op} (hs : CacheOk p s) (hc : Clean op)
    (h : op.apply p s = some s') : CacheOk p s' := by
  cases op with
  | values cuda gpu st =>
    obtain ⟨⟨s1, v, st'⟩, h1, rfl⟩ := Option.map_eq_some_iff.1 h
    exact (queryValues_ok hs hc h1).1
  | coeff cuda gpu st =>
    cases h
    exact (queryCoeff_ok hs hc).1
  | generate allocOk size correct st =>
    obtain ⟨⟨s1, st'⟩, h1, rfl⟩ := Option.map_eq_some_iff.1 h
    unfold generateCached at h1
    split at h1
    · cases h1; exact hs
    · split at h1
      · cases h1; exact hs
      · split at h1
        · obtain ⟨r, -, hr⟩ := Option.map_eq_some_iff.1 h1
          cases hr
          exact ⟨by simp, hs.2⟩
        · cases h1
          exact ⟨by simp, hs.2⟩

/-- **C84, copies.**  After every history of calls on a plan, the values and coefficients on the device are
those of the CPU, provided every call for a copy on the device was made without a previous error and where
there was memory on the device. -/
theorem C84_copies_partial (p : Params) (ops : List Op) (hc : ∀ op ∈ ops, Clean op) (s : Cache)
    (h : loop (fun s op => op.apply p s) (fresh p) ops = some s) :
    (∀ s' v st', queryValues true true s .success = some (s', v, st') → v = s.values) ∧
      (queryCoeff true true s .success).2.1 = some ((List.range p.coeff.size).map p.coeff.get) := by
  have key : ∀ (ops : List Op) (s0 : Cache), CacheOk p s0 → (∀ op ∈ ops, Clean op) →
      loop (fun s op => op.apply p s) s0 ops = some s → CacheOk p s := by
    intro ops
    induction ops with
    | nil => intro s0 h0 _ h; cases h; exact h0
    | cons op ops ih =>
      intro s0 h0 hc h
      simp only [loop] at h
      obtain ⟨s1, h1, h2⟩ := Option.bind_eq_some_iff.1 h
      exact ih s1 (apply_ok h0 (hc op (by simp)) h1) (fun o ho => hc o (by simp [ho])) h2
  have hs := key ops (fresh p) ⟨by simp [fresh], by simp [fresh], rfl⟩ hc h
  exact ⟨fun s' v st' hq => (queryValues_ok hs (by simp) hq).2.2, (queryCoeff_ok hs (by simp)).2⟩

/-- **C84 fails** after a call with a previous error: an array without data is kept, and a later call without
an error returns it. -/
theorem C84_copies_false (p : Params) :
    ∃ s, loop (fun s (op : Op) => op.apply p s) (fresh p) [Op.coeff true true .memLocation] = some s ∧
      (queryCoeff true true s .success).2 = (none, .success) ∧ s.coeff ≠ none := by
  refine ⟨_, rfl, ?_, ?_⟩
  · simp [queryCoeff, fresh, copyGpu]
  · simp [queryCoeff, fresh, copyGpu]

/-- **C84 fails** before values have been generated: the copy is made of a null pointer. -/
theorem C84_null_false (p : Params) (cuda : Bool) (st : Status) : queryValues cuda true (fresh p) st = none := rfl

/-! ## A case that meets the hypotheses -/

example (ck : Nat → ℝ) : ∃ r, generate ⟨0, 8, ⟨200, ck⟩⟩ 64 1 true ⟨64, fun _ => 0⟩ = some r ∧
    some (r.get 40) = evaluate ⟨0, 8, ⟨200, ck⟩⟩ (2 * ((40 : ℕ) - ((64 / 2 : Nat) : ℝ)) / (64 : ℕ)) ∧
    r.get 0 = 1 / 10 ^ 15 := by
  obtain ⟨r, h1, -, h3, h4, -⟩ := C84_samples_partial ⟨0, 8, ⟨200, ck⟩⟩ rfl (by norm_num) 64 (by omega) (by omega) 1 id
    ⟨64, fun _ => 0⟩ ⟨fun i _ => by simp, fun i h => h, fun i j _ _ h => h⟩ true
  exact ⟨r, h1, h3 40 (by omega) (by omega), h4 rfl⟩

end Sdp.Pswf
