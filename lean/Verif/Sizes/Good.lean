import Verif.Sizes.Props

/-!
# C29: `sdp_good_size_complex`
-/

namespace Sdp.Sizes

/-- What the search has established for a factor `f`: every `f * 2^a * 3^b` that is large
enough is at least `best`. -/
def Covers (n f best : Nat) : Prop := ∀ a b, n ≤ f * 2 ^ a * 3 ^ b → best ≤ f * 2 ^ a * 3 ^ b

/-- The result of a piece of the search started with `best`: either `n` itself is smooth, or a
value not above the old one, which is the old one or smooth and at least `n`. -/
def Ok (n best : Nat) (Q : Nat → Prop) : Good → Prop
  | .ret r => r = n ∧ Smooth n
  | .best b => b ≤ best ∧ (b = best ∨ Smooth b ∧ n ≤ b) ∧ Q b

theorem doubleUp_spec (n : Nat) (m : Nat) : ∀ (f a : Nat), 0 < f → n - f * 2 ^ a = m →
    (∀ a' < a, f * 2 ^ a' < n) →
    ∃ a', doubleUp n (f * 2 ^ a) = some (f * 2 ^ a') ∧ n ≤ f * 2 ^ a' := by
  induction m using Nat.strong_induction_on with
  | _ m ih =>
    intro f a hf hm hlow
    have hpos : 0 < f * 2 ^ a := by positivity
    rw [doubleUp, dif_neg (by omega)]
    by_cases hc : f * 2 ^ a < n
    · rw [if_pos hc, show 2 * (f * 2 ^ a) = f * 2 ^ (a + 1) by rw [pow_succ]; ring]
      exact ih (n - f * 2 ^ (a + 1)) (by rw [pow_succ, ← mul_assoc]; omega) f (a + 1) hf rfl (by
        intro a' ha'
        rcases Nat.lt_succ_iff_lt_or_eq.1 ha' with h | h
        · exact hlow a' h
        · rw [h]; exact hc)
    · rw [if_neg hc]
      exact ⟨a, rfl, by omega⟩

theorem search_spec (n f : Nat) (hf : 0 < f) (hodd : f % 2 = 1) (hs : Smooth f) (best0 : Nat)
    (a : Nat) : ∀ (k b best : Nat), n - f * 2 ^ a * 3 ^ b = k →
    (∀ b' < b, ∀ a', n ≤ f * 2 ^ a' * 3 ^ b' → best ≤ f * 2 ^ a' * 3 ^ b') →
    (n ≤ f * 2 ^ a * 3 ^ b ∨ best ≤ 2 * (f * 2 ^ a * 3 ^ b)) →
    best ≤ best0 → (best = best0 ∨ Smooth best ∧ n ≤ best) →
    ∃ g, search n (f * 2 ^ a * 3 ^ b) best = some g ∧ Ok n best0 (Covers n f) g := by
  have smooth3 : Smooth 3 := smooth_prime (by norm_num) (by norm_num)
  have smooth3p : ∀ b, Smooth (3 ^ b) := by
    intro b p hp hd
    have := (Nat.prime_dvd_prime_iff_eq hp (by norm_num)).1 (hp.dvd_of_dvd_pow hd)
    omega
  have odd3 : ∀ b, (3 ^ b) % 2 = 1 := by
    intro b
    rw [Nat.pow_mod]; simp
  induction a with
  | zero =>
    intro k
    induction k using Nat.strong_induction_on with
    | _ k ih =>
      intro b best hk hA hB hle hor
      have hpos : 0 < f * 2 ^ 0 * 3 ^ b := by positivity
      rw [search, dif_neg (by omega)]
      by_cases c1 : f * 2 ^ 0 * 3 ^ b < n
      · rw [if_pos c1, show 3 * (f * 2 ^ 0 * 3 ^ b) = f * 2 ^ 0 * 3 ^ (b + 1) by
          rw [pow_succ 3]; ring]
        have e3 : f * 2 ^ 0 * 3 ^ (b + 1) = 3 * (f * 2 ^ 0 * 3 ^ b) := by rw [pow_succ 3]; ring
        refine ih _ (by omega) (b + 1) best rfl ?_ (Or.inr (by omega)) hle hor
        intro b' hb' a' hn
        rcases Nat.lt_succ_iff_lt_or_eq.1 hb' with h | h
        · exact hA b' h a' hn
        · subst h
          cases a' with
          | zero => omega
          | succ a' =>
            have h2 : f * 2 ^ 0 * 3 ^ b' ≤ f * 2 ^ a' * 3 ^ b' := by
              apply Nat.mul_le_mul_right
              apply Nat.mul_le_mul_left
              exact Nat.pow_le_pow_right (by norm_num) (Nat.zero_le _)
            have e : f * 2 ^ (a' + 1) * 3 ^ b' = 2 * (f * 2 ^ a' * 3 ^ b') := by
              rw [pow_succ 2]; ring
            omega
      · rw [if_neg c1]
        by_cases c2 : n < f * 2 ^ 0 * 3 ^ b
        · rw [if_pos c2]
          have hodd' : f * 2 ^ 0 * 3 ^ b % 2 = 1 := by
            rw [pow_zero, mul_one, Nat.mul_mod, hodd, odd3]
          simp only
          rw [dif_pos hodd']
          refine ⟨_, rfl, ?_, ?_, ?_⟩
          · split <;> omega
          · split
            · right
              exact ⟨(hs.mul (smooth_two_pow 0)).mul (smooth3p b), by omega⟩
            · exact hor
          · intro a' b' hn
            rcases Nat.lt_or_ge b' b with h | h
            · have := hA b' h a' hn
              split <;> omega
            · have : f * 2 ^ 0 * 3 ^ b ≤ f * 2 ^ a' * 3 ^ b' :=
                Nat.mul_le_mul (Nat.mul_le_mul_left _
                  (Nat.pow_le_pow_right (by norm_num) (Nat.zero_le _)))
                  (Nat.pow_le_pow_right (by norm_num) h)
              split <;> omega
        · rw [if_neg c2]
          have : n = f * 2 ^ 0 * 3 ^ b := by omega
          refine ⟨_, rfl, rfl, ?_⟩
          rw [this]
          exact (hs.mul (smooth_two_pow 0)).mul (smooth3p b)
  | succ a iha =>
    intro k
    induction k using Nat.strong_induction_on with
    | _ k ih =>
      intro b best hk hA hB hle hor
      have hpos : 0 < f * 2 ^ (a + 1) * 3 ^ b := by positivity
      rw [search, dif_neg (by omega)]
      by_cases c1 : f * 2 ^ (a + 1) * 3 ^ b < n
      · have e3 : f * 2 ^ (a + 1) * 3 ^ (b + 1) = 3 * (f * 2 ^ (a + 1) * 3 ^ b) := by
          rw [pow_succ 3]; ring
        rw [if_pos c1, ← e3]
        refine ih _ (by omega) (b + 1) best rfl ?_ (Or.inr (by omega)) hle hor
        intro b' hb' a' hn
        rcases Nat.lt_succ_iff_lt_or_eq.1 hb' with h | h
        · exact hA b' h a' hn
        · subst h
          rcases Nat.lt_or_ge (a + 1) a' with h' | h'
          · obtain ⟨d, rfl⟩ : ∃ d, a' = d + 1 := ⟨a' - 1, by omega⟩
            have h2 : f * 2 ^ (a + 1) * 3 ^ b' ≤ f * 2 ^ d * 3 ^ b' := by
              apply Nat.mul_le_mul_right
              apply Nat.mul_le_mul_left
              exact Nat.pow_le_pow_right (by norm_num) (by omega)
            have e : f * 2 ^ (d + 1) * 3 ^ b' = 2 * (f * 2 ^ d * 3 ^ b') := by
              rw [pow_succ 2]; ring
            omega
          · have h2 : f * 2 ^ a' * 3 ^ b' ≤ f * 2 ^ (a + 1) * 3 ^ b' := by
              apply Nat.mul_le_mul_right
              apply Nat.mul_le_mul_left
              exact Nat.pow_le_pow_right (by norm_num) h'
            omega
      · rw [if_neg c1]
        by_cases c2 : n < f * 2 ^ (a + 1) * 3 ^ b
        · rw [if_pos c2]
          have e2 : f * 2 ^ (a + 1) * 3 ^ b = 2 * (f * 2 ^ a * 3 ^ b) := by rw [pow_succ 2]; ring
          simp only
          rw [dif_neg (by omega), show f * 2 ^ (a + 1) * 3 ^ b / 2 = f * 2 ^ a * 3 ^ b by omega]
          refine iha _ b _ rfl ?_ (Or.inr (by split <;> omega)) (by split <;> omega) ?_
          · intro b' hb' a' hn
            have := hA b' hb' a' hn
            split <;> omega
          · split
            · right
              exact ⟨(hs.mul (smooth_two_pow _)).mul (smooth3p b), by omega⟩
            · exact hor
        · rw [if_neg c2]
          have : n = f * 2 ^ (a + 1) * 3 ^ b := by omega
          refine ⟨_, rfl, rfl, ?_⟩
          rw [this]
          exact (hs.mul (smooth_two_pow _)).mul (smooth3p b)

/-- The multiplicative loop. -/
theorem mulLoop_spec (n m B : Nat) (hm : 2 ≤ m) (body : Nat → Nat → Option Good)
    (V : Nat → Prop) (hV : ∀ f, V f → V (f * m)) (hV0 : ∀ f, V f → 0 < f)
    (Q : Nat → Nat → Prop) (hQ : ∀ f b b', b' ≤ b → Q f b → Q f b')
    (hbig : ∀ f b, V f → b ≤ f → Q f b)
    (hbody : ∀ f b, V f → f < b → b ≤ B → ∃ g, body f b = some g ∧ Ok n b (Q f) g) :
    ∀ (fuel f best : Nat), V f → best ≤ f + fuel → best ≤ B →
      ∃ g, mulLoop m body fuel f best = some g ∧
        Ok n best (fun b => ∀ j, Q (f * m ^ j) b) g := by
  have hVj : ∀ j f, V f → V (f * m ^ j) := by
    intro j
    induction j with
    | zero => intro f h; simpa using h
    | succ j ih => intro f h; rw [pow_succ, ← mul_assoc]; exact hV _ (ih f h)
  have stop : ∀ f best, V f → ¬ f < best → Ok n best (fun b => ∀ j, Q (f * m ^ j) b)
      (.best best) := by
    intro f best hf hc
    refine ⟨le_refl _, Or.inl rfl, fun j => hbig _ _ (hVj j f hf) ?_⟩
    have : f * 1 ≤ f * m ^ j := Nat.mul_le_mul_left _ (Nat.one_le_pow _ _ (by omega))
    omega
  intro fuel
  induction fuel with
  | zero =>
    intro f best hf hle hB
    have hc : ¬ f < best := by omega
    exact ⟨.best best, by simp [mulLoop, hc], stop f best hf hc⟩
  | succ fuel ih =>
    intro f best hf hle hB
    by_cases hc : f < best
    · obtain ⟨g, e, hg⟩ := hbody f best hf hc hB
      simp only [mulLoop]
      rw [if_pos hc, e]
      simp only [Option.bind_some]
      cases g with
      | ret r => exact ⟨_, rfl, hg⟩
      | best b =>
        obtain ⟨g1, g2, g3⟩ := hg
        have h0 := hV0 f hf
        have hfm : f * 2 ≤ f * m := Nat.mul_le_mul_left _ hm
        obtain ⟨g, e', hg'⟩ := ih (f * m) b (hV f hf) (by omega) (by omega)
        refine ⟨g, e', ?_⟩
        cases g with
        | ret r => exact hg'
        | best b' =>
          obtain ⟨q1, q2, q3⟩ := hg'
          refine ⟨by omega, ?_, fun j => ?_⟩
          · rcases q2 with rfl | q2
            · exact g2
            · exact Or.inr q2
          · cases j with
            | zero => rw [pow_zero, mul_one]; exact hQ f b b' q1 g3
            | succ j => rw [pow_succ, Nat.mul_comm (m ^ j), ← mul_assoc]; exact q3 j
    · exact ⟨.best best, by simp [mulLoop, hc], stop f best hf hc⟩

/-- Factorisation of a smooth number. -/
theorem smooth_factors (m : Nat) (h : Smooth m) :
    ∃ a b c d e, m = 1 * 11 ^ e * 7 ^ d * 5 ^ c * 2 ^ a * 3 ^ b := by
  induction m using Nat.strong_induction_on with
  | _ m ih =>
    by_cases h1 : m = 1
    · exact ⟨0, 0, 0, 0, 0, by simp [h1]⟩
    · have hp := Nat.minFac_prime h1
      obtain ⟨q, hq⟩ := Nat.minFac_dvd m
      have h11 := h _ hp ⟨q, hq⟩
      have hqs : Smooth q := h.of_dvd ⟨m.minFac, by rw [mul_comm]; exact hq⟩
      have hlt : q < m := by
        have := hqs.pos
        have : q * 2 ≤ q * m.minFac := Nat.mul_le_mul_left _ hp.two_le
        rw [mul_comm q m.minFac, ← hq] at this
        omega
      obtain ⟨a, b, c, d, e, he⟩ := ih q hlt hqs
      rcases prime_le_11 hp h11 with hm | hm | hm | hm | hm <;> rw [hq, hm, he]
      · exact ⟨a + 1, b, c, d, e, by ring⟩
      · exact ⟨a, b + 1, c, d, e, by ring⟩
      · exact ⟨a, b, c + 1, d, e, by ring⟩
      · exact ⟨a, b, c, d + 1, e, by ring⟩
      · exact ⟨a, b, c, d, e + 1, by ring⟩

/-- C29.  For every request `n >= 1`, the function terminates and returns the smallest integer
not below `n` without a prime factor above 11. -/
theorem C29_good_size (n : Int) (hn : 1 ≤ n) :
    ∃ r : Nat, goodSize n = some (r : Int) ∧ IsLeast {m : Nat | Smooth m ∧ n ≤ m} r := by
  unfold goodSize
  by_cases h12 : n ≤ 12
  · rw [if_pos h12]
    refine ⟨n.toNat, by rw [Int.toNat_of_nonneg (by omega)], ⟨?_, by omega⟩, fun m hm => ?_⟩
    · intro p hp hd
      have := Nat.le_of_dvd (by omega) hd
      rcases Nat.lt_or_ge p 12 with h | h
      · omega
      · have : p = 12 := by omega
        subst this
        revert hp; norm_num
    · have := hm.2; omega
  · rw [if_neg h12]
    obtain ⟨N, rfl⟩ : ∃ N : Nat, n = N := ⟨n.toNat, by omega⟩
    simp only [Int.toNat_natCast]
    let V : Nat → Prop := fun f => 0 < f ∧ f % 2 = 1 ∧ Smooth f
    have hVm : ∀ m, m % 2 = 1 → Smooth m → ∀ f, V f → V (f * m) := by
      rintro m hm hs f ⟨a, b, c⟩
      exact ⟨Nat.mul_pos a hs.pos, by rw [Nat.mul_mod, hm, b], c.mul hs⟩
    have hmono : ∀ f b b', b' ≤ b → Covers N f b → Covers N f b' := by
      intro f b b' hb h a c hc
      exact le_trans hb (h a c hc)
    have hbig : ∀ f b, V f → b ≤ f → Covers N f b := by
      intro f b _ hb a c _
      have h1 : f * 1 ≤ f * 2 ^ a := Nat.mul_le_mul_left _ (Nat.one_le_pow _ _ (by norm_num))
      have h2 : f * 2 ^ a * 1 ≤ f * 2 ^ a * 3 ^ c :=
        Nat.mul_le_mul_left _ (Nat.one_le_pow _ _ (by norm_num))
      omega
    have inner : ∀ f b, V f → f < b → ∃ g, ((doubleUp N f).bind fun x => search N x b) = some g ∧
        Ok N b (Covers N f) g := by
      rintro f b ⟨v1, v2, v3⟩ _
      obtain ⟨a, e, ha⟩ := doubleUp_spec N _ f 0 v1 rfl (by intro a' h; omega)
      rw [pow_zero, mul_one] at e
      rw [e]
      simp only [Option.bind_some]
      have := search_spec N f v1 v2 v3 b a _ 0 b rfl (by intro b' h; omega)
        (Or.inl (by simpa using ha)) (le_refl _) (Or.inl rfl)
      simpa using this
    have V1 : V 1 := ⟨by norm_num, by norm_num, by simpa using smooth_two_pow 0⟩
    have s5 : Smooth 5 := smooth_prime (by norm_num) (by norm_num)
    have s7 : Smooth 7 := smooth_prime (by norm_num) (by norm_num)
    have s11 : Smooth 11 := smooth_prime (by norm_num) (by norm_num)
    -- bound on `best` inside the loops
    let body5 : Nat → Nat → Option Good := fun f b => (doubleUp N f).bind fun x => search N x b
    have L5 : ∀ f b, V f → f < b → b ≤ 2 * N → ∃ g, mulLoop 5 body5 (2 * N) f b = some g ∧
        Ok N b (fun b => ∀ j, Covers N (f * 5 ^ j) b) g := fun f b hf _ hb =>
      mulLoop_spec N 5 (2 * N) (by norm_num) body5 V (hVm 5 (by norm_num) s5) (fun f h => h.1)
        (Covers N) hmono hbig (fun f b h1 h2 _ => inner f b h1 h2) (2 * N) f b hf (by omega) hb
    have Vp : ∀ m, m % 2 = 1 → Smooth m → ∀ j f, V f → V (f * m ^ j) := by
      intro m h1 h2 j
      induction j with
      | zero => intro f h; simpa using h
      | succ j ih => intro f h; rw [pow_succ, ← mul_assoc]; exact hVm m h1 h2 _ (ih f h)
    have ge : ∀ f m j, 0 < m → f ≤ f * m ^ j := fun f m j hm =>
      le_mul_of_one_le_right (Nat.zero_le _) (Nat.one_le_pow _ _ hm)
    have L7 : ∀ f b, V f → f < b → b ≤ 2 * N →
        ∃ g, mulLoop 7 (fun f b => mulLoop 5 body5 (2 * N) f b) (2 * N) f b = some g ∧
        Ok N b (fun b => ∀ j i, Covers N (f * 7 ^ j * 5 ^ i) b) g := fun f b hf _ hb =>
      mulLoop_spec N 7 (2 * N) (by norm_num) _ V (hVm 7 (by norm_num) s7) (fun f h => h.1)
        (fun f b => ∀ i, Covers N (f * 5 ^ i) b) (fun f b b' h h2 i => hmono _ b b' h (h2 i))
        (fun f b hf hb i => hbig _ b (Vp 5 (by norm_num) s5 i f hf)
          (le_trans hb (ge f 5 i (by norm_num)))) L5 (2 * N) f b hf (by omega) hb
    obtain ⟨g, e, hg⟩ := mulLoop_spec N 11 (2 * N) (by norm_num)
      (fun f b => mulLoop 7 (fun f b => mulLoop 5 body5 (2 * N) f b) (2 * N) f b) V
      (hVm 11 (by norm_num) s11) (fun f h => h.1)
      (fun f b => ∀ j i, Covers N (f * 7 ^ j * 5 ^ i) b)
      (fun f b b' h h2 j i => hmono _ b b' h (h2 j i))
      (fun f b hf hb j i => hbig _ b (Vp 5 (by norm_num) s5 i _ (Vp 7 (by norm_num) s7 j f hf))
        (le_trans hb (le_trans (ge f 7 j (by norm_num)) (ge _ 5 i (by norm_num))))) L7
      (2 * N) 1 (2 * N) V1 (by omega) (le_refl _)
    have hN : 12 < N := by omega
    rw [show (mulLoop 11 (fun f11 best => mulLoop 7 (fun f117 best => mulLoop 5 (fun f1175 best =>
      (doubleUp N f1175).bind fun x => search N x best) (2 * N) f117 best) (2 * N) f11 best)
      (2 * N) 1 (2 * N)) = some g from e]
    simp only [Option.bind_some]
    cases g with
    | ret r =>
      obtain ⟨rfl, h2⟩ := hg
      exact ⟨r, rfl, ⟨h2, le_refl _⟩, fun m hm => by exact_mod_cast hm.2⟩
    | best b =>
      obtain ⟨h1, h2, h3⟩ := hg
      refine ⟨b, rfl, ?_, ?_⟩
      · rcases h2 with h2 | h2
        · exfalso
          -- a power of two below `2 N`
          have hc := Nat.le_pow_clog (b := 2) (by norm_num) N
          obtain ⟨k, hk⟩ : ∃ k, Nat.clog 2 N = k + 1 :=
            ⟨Nat.clog 2 N - 1, by have := Nat.clog_pos (b := 2) (n := N) (by norm_num) (by omega); omega⟩
          have hlow : 2 ^ k < N := by
            by_contra hc'
            have := (Nat.clog_le_iff_le_pow (by norm_num : 1 < 2)).2 (not_lt.1 hc')
            omega
          have := h3 0 0 0 (k + 1) 0 (by simpa [hk] using hc)
          simp only [pow_zero, mul_one, one_mul] at this
          rw [pow_succ] at this
          omega
        · exact ⟨h2.1, by exact_mod_cast h2.2⟩
      · rintro m ⟨m1, m2⟩
        obtain ⟨a, b', c, d, e', rfl⟩ := smooth_factors m m1
        exact h3 e' d c a b' (by exact_mod_cast m2)

/-- Non-positive requests are returned unchanged. -/
theorem C29_small (n : Int) (h : n ≤ 12) : goodSize n = some n := by
  unfold goodSize; rw [if_pos h]

/-- Instance: 97 gives 98 (97 is prime). -/
example : IsLeast {m : Nat | Smooth m ∧ (97 : Int) ≤ m} 98 := by
  constructor
  · refine ⟨?_, by norm_num⟩
    intro p hp hd
    rcases (hp.dvd_mul).1 (show p ∣ 2 * 49 by simpa using hd) with h | h
    · have := Nat.le_of_dvd (by norm_num) h; omega
    · have := (hp.dvd_mul).1 (show p ∣ 7 * 7 by simpa using h)
      rcases this with h | h <;> have := Nat.le_of_dvd (by norm_num) h <;> omega
  · rintro m ⟨h1, h2⟩
    by_contra hc
    have : m = 97 := by omega
    subst this
    have := h1 97 (by norm_num) (dvd_refl _)
    omega

end Sdp.Sizes
