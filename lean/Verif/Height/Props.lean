import Mathlib.Tactic.Ring
import Mathlib.Tactic.Linarith
import Mathlib.Tactic.NormNum
import Mathlib.Algebra.Order.Ring.Rat
import Verif.Height.Model

/-!
# C43: the height search; C69: the worst-case image
-/

set_option linter.unusedSectionVars false

namespace Sdp.Height

/-! ## Specification -/

/-- Height `k` (in units of two w steps) is admissible: the measured error is below the target.
Height 0 always is. -/
def Good {E : Type} [LT E] (e : Int → E) (t : E) (k : Int) : Prop := k = 0 ∨ e k < t

section
variable {E : Type} [LinearOrder E] [Zero E]

/-- Loop invariant: exponent `j` of the step, and what is known about both ends. -/
def Inv (e : Int → E) (t : E) (j : Nat) (s : Search) : Prop :=
  s.diw = 2 ^ j ∧ Good e t (s.iw - s.diw) ∧ 0 ≤ s.iw - s.diw ∧
    ((s.accelerate = true ∧ s.iw = 2 ^ (j + 1) - 1) ∨
      (s.accelerate = false ∧ ¬ e (s.iw + s.diw) < t))

theorem tdiv_pow (j : Nat) : Int.tdiv (2 ^ (j + 1)) 2 = 2 ^ j := by
  rw [pow_succ, Int.mul_tdiv_cancel _ (by norm_num)]

theorem pow_gt_one (j : Nat) : (1 : Int) < 2 ^ (j + 1) := by
  have : (0 : Int) < 2 ^ j := by positivity
  rw [pow_succ]; omega

/-- One iteration from an invariant state. -/
theorem step_inv (e : Int → E) (err : Int → Option E) (he : ∀ i, err i = some (e i)) (t : E)
    (j : Nat) (s : Search) (h : Inv e t j s) :
    (∃ k : Int, step err t s = .inl (2 * k) ∧ 0 ≤ k ∧ Good e t k ∧ ¬ e (k + 1) < t) ∨
    (∃ s', step err t s = .inr s' ∧
      ((s.accelerate = true ∧ e s.iw < t ∧ s'.accelerate = true ∧ Inv e t (j + 1) s') ∨
       (s'.accelerate = false ∧ (s.accelerate = false ∨ ¬ e s.iw < t) ∧
        ∃ i, j = i + 1 ∧ Inv e t i s'))) := by
  obtain ⟨hd, hg, h0, hc⟩ := h
  unfold step
  rw [he]
  simp only
  have hp : (0 : Int) < 2 ^ j := by positivity
  rcases j with _ | j
  · -- step 1
    rw [pow_zero] at hd
    rw [hd] at hg h0 hc ⊢
    by_cases hlt : e s.iw < t
    · rw [if_pos hlt]
      rcases hc with ⟨ha, hi⟩ | ⟨ha, hb⟩
      · right
        rw [if_pos ha]
        refine ⟨_, rfl, Or.inl ⟨ha, hlt, rfl, ?_⟩⟩
        simp only [Nat.zero_add, pow_one] at hi
        refine ⟨by norm_num, ?_, ?_, Or.inl ⟨rfl, ?_⟩⟩
        · right
          simpa using hlt
        · simp only; omega
        · simp only; rw [hi]; norm_num
      · left
        rw [if_neg (by rw [ha]; simp), if_neg (by omega)]
        exact ⟨s.iw, rfl, by omega, Or.inr hlt, hb⟩
    · rw [if_neg hlt, if_neg (by omega)]
      left
      refine ⟨s.iw - 1, rfl, h0, hg, ?_⟩
      rwa [show s.iw - 1 + 1 = s.iw by ring]
  · have hgt := pow_gt_one j
    rw [hd] at hg h0 hc ⊢
    have hsplit : (2 : Int) ^ (j + 1) = 2 ^ j + 2 ^ j := by ring
    by_cases hlt : e s.iw < t
    · rw [if_pos hlt]
      rcases hc with ⟨ha, hi⟩ | ⟨ha, hb⟩
      · right
        rw [if_pos ha]
        refine ⟨_, rfl, Or.inl ⟨ha, hlt, rfl, ?_⟩⟩
        refine ⟨by simp only; ring, ?_, ?_, Or.inl ⟨rfl, ?_⟩⟩
        · right
          simp only
          rwa [add_sub_cancel_right]
        · simp only; omega
        · simp only; rw [hi]; ring
      · right
        rw [if_neg (by rw [ha]; simp), if_pos hgt, tdiv_pow]
        refine ⟨_, rfl, Or.inr ⟨ha, Or.inl ha, j, rfl, rfl, ?_, ?_, Or.inr ⟨ha, ?_⟩⟩⟩
        · right
          simp only
          rwa [add_sub_cancel_right]
        · simp only; omega
        · simp only
          rwa [add_assoc, ← hsplit]
    · right
      rw [if_neg hlt, if_pos hgt, tdiv_pow]
      refine ⟨_, rfl, Or.inr ⟨rfl, Or.inr hlt, j, rfl, rfl, ?_, ?_, Or.inr ⟨rfl, ?_⟩⟩⟩
      · simp only
        rwa [sub_sub, ← hsplit]
      · simp only; omega
      · simp only
        rwa [sub_add_cancel]

theorem search_sound (e : Int → E) (err : Int → Option E) (he : ∀ i, err i = some (e i)) (t : E) :
    ∀ (fuel j : Nat) (s : Search), Inv e t j s → ∀ r, search err t fuel s = some r →
      ∃ k : Int, r = 2 * k ∧ 0 ≤ k ∧ Good e t k ∧ ¬ e (k + 1) < t := by
  intro fuel
  induction fuel with
  | zero => intro j s _ r h; simp [search] at h
  | succ fuel ih =>
    intro j s hinv r h
    rw [search] at h
    rcases step_inv e err he t j s hinv with ⟨k, hk, h0, hg, hb⟩ | ⟨s', hs, hcase⟩
    · rw [hk] at h
      exact ⟨k, (Option.some.inj h).symm, h0, hg, hb⟩
    · rw [hs] at h
      rcases hcase with ⟨_, _, _, hi⟩ | ⟨_, _, i, _, hi⟩
      · exact ih _ _ hi r h
      · exact ih _ _ hi r h

theorem init_inv (e : Int → E) (t : E) : Inv e t 0 Search.init :=
  ⟨rfl, Or.inl (by simp [Search.init]), by simp [Search.init], Or.inl ⟨rfl, by simp [Search.init]⟩⟩

/-- The decelerating phase ends within `j + 1` iterations. -/
theorem search_down (e : Int → E) (err : Int → Option E) (he : ∀ i, err i = some (e i)) (t : E) :
    ∀ (j : Nat) (s : Search), s.accelerate = false → Inv e t j s →
      ∃ r, search err t (j + 1) s = some r := by
  intro j
  induction j with
  | zero =>
    intro s ha hinv
    rw [search]
    rcases step_inv e err he t 0 s hinv with ⟨k, hk, _⟩ | ⟨s', _, hcase⟩
    · rw [hk]; exact ⟨_, rfl⟩
    · rcases hcase with ⟨h, _⟩ | ⟨_, _, i, hi, _⟩
      · rw [ha] at h; cases h
      · omega
  | succ j ih =>
    intro s ha hinv
    rw [search]
    rcases step_inv e err he t (j + 1) s hinv with ⟨k, hk, _⟩ | ⟨s', hs, hcase⟩
    · rw [hk]; exact ⟨_, rfl⟩
    · rw [hs]
      rcases hcase with ⟨h, _⟩ | ⟨h, _, i, hi, hv⟩
      · rw [ha] at h; cases h
      · have : i = j := by omega
        subst this
        exact ih s' h hv

theorem search_mono (err : Int → Option E) (t : E) : ∀ (f g : Nat) (s : Search) (r : Int),
    f ≤ g → search err t f s = some r → search err t g s = some r := by
  intro f
  induction f with
  | zero => intro g s r _ h; simp [search] at h
  | succ f ih =>
    intro g s r hg h
    obtain ⟨g, rfl⟩ : ∃ g', g = g' + 1 := ⟨g - 1, by omega⟩
    rw [search] at h ⊢
    cases hst : step err t s with
    | inl k => rw [hst] at h; exact h
    | inr s' =>
      rw [hst] at h
      exact ih g s' r (by omega) h

/-- Accelerating phase: reaches the first power whose error is not below the target. -/
theorem search_up (e : Int → E) (err : Int → Option E) (he : ∀ i, err i = some (e i)) (t : E) :
    ∀ (d j : Nat) (s : Search), s.accelerate = true → Inv e t j s →
      ¬ e (2 ^ (j + d + 1) - 1) < t → ∃ r, search err t (j + 2 * d + 1) s = some r := by
  intro d
  induction d with
  | zero =>
    intro j s ha hinv hb
    have hiw : s.iw = 2 ^ (j + 1) - 1 := by
      rcases hinv.2.2.2 with ⟨_, h⟩ | ⟨h, _⟩
      · exact h
      · rw [ha] at h; cases h
    rw [show j + 2 * 0 + 1 = j + 1 by ring, search]
    rcases step_inv e err he t j s hinv with ⟨k, hk, _⟩ | ⟨s', hs, hcase⟩
    · rw [hk]; exact ⟨_, rfl⟩
    · rw [hs]
      rcases hcase with ⟨_, h, _⟩ | ⟨h, _, i, hi, hv⟩
      · rw [hiw] at h; exact absurd h hb
      · subst hi
        exact search_down e err he t i s' h hv
  | succ d ih =>
    intro j s ha hinv hb
    rw [search]
    rcases step_inv e err he t j s hinv with ⟨k, hk, _⟩ | ⟨s', hs, hcase⟩
    · rw [hk]; exact ⟨_, rfl⟩
    · rw [hs]
      rcases hcase with ⟨_, _, h, hv⟩ | ⟨h, _, i, hi, hv⟩
      · obtain ⟨r, hr⟩ := ih (j + 1) s' h hv (by rwa [show j + 1 + d + 1 = j + (d + 1) + 1 by ring])
        exact ⟨r, search_mono err t _ _ _ _ (by omega) hr⟩
      · obtain ⟨r, hr⟩ := search_down e err he t i s' h hv
        exact ⟨r, search_mono err t _ _ _ _ (by omega) hr⟩

/-- If the error never reaches the target at heights `2^j - 1` the search runs for ever. -/
theorem search_never (e : Int → E) (err : Int → Option E) (he : ∀ i, err i = some (e i)) (t : E)
    (hb : ∀ j : Nat, e (2 ^ (j + 1) - 1) < t) :
    ∀ (fuel j : Nat) (s : Search), s.accelerate = true → Inv e t j s → search err t fuel s = none := by
  intro fuel
  induction fuel with
  | zero => intro j s _ _; rfl
  | succ fuel ih =>
    intro j s ha hinv
    have hiw : s.iw = 2 ^ (j + 1) - 1 := by
      rcases hinv.2.2.2 with ⟨_, h⟩ | ⟨h, _⟩
      · exact h
      · rw [ha] at h; cases h
    have hlt : e s.iw < t := by rw [hiw]; exact hb j
    rw [search]
    have hst : step err t s = .inr ⟨s.iw + s.diw * 2, s.diw * 2, true⟩ := by
      unfold step
      rw [he]
      simp only
      rw [if_pos hlt, if_pos ha]
    rw [hst]
    rcases step_inv e err he t j s hinv with ⟨k, hk, _⟩ | ⟨s', hs, hcase⟩
    · rw [hst] at hk; cases hk
    · rw [hst] at hs
      obtain rfl := Sum.inr.inj hs
      rcases hcase with ⟨_, _, h, hv⟩ | ⟨h, _⟩
      · exact ih (j + 1) _ h hv
      · cases h

/-- The target actually used: the one given, or twice the error at `w = 0`. -/
def effTarget [DecidableEq E] (twice : E → E) (e : Int → E) (target : E) : E :=
  if target = 0 then twice (e 0) else target

theorem maxHeight_eq (twice : E → E) (e : Int → E) (err : Int → Option E)
    (he : ∀ i, err i = some (e i)) (target : E) (fuel : Nat) :
    maxHeight twice err target fuel = search err (effTarget twice e target) fuel Search.init := by
  unfold maxHeight effTarget
  by_cases h : target = 0
  · rw [if_pos h, if_pos h, he]
  · rw [if_neg h, if_neg h]

/-- **C43.**  For every error function and target: a returned height is `2k` with `k = 0` or the
error at `k` below the target, and the error at `k + 1` not below it. -/
theorem C43_admissible (twice : E → E) (e : Int → E) (err : Int → Option E)
    (he : ∀ i, err i = some (e i)) (target : E) (fuel : Nat) (r : Int)
    (h : maxHeight twice err target fuel = some r) :
    ∃ k : Int, 0 ≤ k ∧ r = 2 * k ∧ (k = 0 ∨ e k < effTarget twice e target) ∧
      effTarget twice e target ≤ e (k + 1) := by
  rw [maxHeight_eq twice e err he] at h
  obtain ⟨k, h1, h2, h3, h4⟩ := search_sound e err he _ fuel 0 _ (init_inv e _) r h
  exact ⟨k, h2, h1, h3, not_lt.1 h4⟩

/-- **C43, largest height.**  If the error does not decrease with the height, the height
returned is exactly the largest admissible one. -/
theorem C43_largest (twice : E → E) (e : Int → E) (err : Int → Option E)
    (he : ∀ i, err i = some (e i)) (target : E) (fuel : Nat) (r : Int)
    (hm : ∀ a b : Int, 1 ≤ a → a ≤ b → e a ≤ e b)
    (h : maxHeight twice err target fuel = some r) :
    ∃ k : Int, 0 ≤ k ∧ r = 2 * k ∧
      ∀ l : Int, 1 ≤ l → (e l < effTarget twice e target ↔ l ≤ k) := by
  obtain ⟨k, h0, h1, h2, h3⟩ := C43_admissible twice e err he target fuel r h
  refine ⟨k, h0, h1, fun l hl => ⟨fun hlt => ?_, fun hle => ?_⟩⟩
  · by_contra hlk
    exact absurd (lt_of_le_of_lt (hm (k + 1) l (by omega) (by omega)) hlt) (not_lt.2 h3)
  · rcases h2 with h2 | h2
    · omega
    · exact lt_of_le_of_lt (hm l k hl hle) h2

/-- **C43, termination.**  The search ends if and only if the error reaches the target at some
height `2^(d+1) - 1`, and then after at most `2d + 1` measurements. -/
theorem C43_terminates (twice : E → E) (e : Int → E) (err : Int → Option E)
    (he : ∀ i, err i = some (e i)) (target : E) :
    (∀ d : Nat, effTarget twice e target ≤ e (2 ^ (d + 1) - 1) →
      ∃ r, maxHeight twice err target (2 * d + 1) = some r) ∧
    ((∀ d : Nat, e (2 ^ (d + 1) - 1) < effTarget twice e target) →
      ∀ fuel, maxHeight twice err target fuel = none) := by
  constructor
  · intro d hd
    rw [maxHeight_eq twice e err he]
    obtain ⟨r, hr⟩ := search_up e err he _ d 0 Search.init rfl (init_inv e _)
      (by rw [Nat.zero_add]; exact not_lt.2 hd)
    exact ⟨r, by rwa [Nat.zero_add] at hr⟩
  · intro hb fuel
    rw [maxHeight_eq twice e err he]
    exact search_never e err he _ hb fuel 0 _ rfl (init_inv e _)

end

/-- Non-vacuity: error growing linearly, target 10: height 18. -/
example : maxHeight (E := ℚ) (2 * ·) (fun i => some (i : ℚ)) 10 20 = some 18 := by decide +kernel

/-- Non-vacuity: default target, twice the error at `w = 0`. -/
example : maxHeight (E := ℚ) (2 * ·) (fun i => some (i + 3 : ℚ)) 0 20 = some 4 := by decide +kernel

/-- **C43 fails: a constant error is accepted for ever** (the height grows without bound, in the
code until `int` overflow). -/
theorem C43_endless_false (fuel : Nat) :
    maxHeight (E := ℚ) (2 * ·) (fun _ => some 1) 0 fuel = none := by
  refine (C43_terminates (E := ℚ) (2 * ·) (fun _ => 1) (fun _ => some 1) (fun _ => rfl) 0).2 ?_ fuel
  intro d
  simp [effTarget]

/-- **C43, failed measurements.**  A measurement that fails at `w = 0` or at the first height
ends the search at once with height 0. -/
theorem C43_failed {E : Type} [LinearOrder E] [Zero E] (twice : E → E) (err : Int → Option E) (target : E) (fuel : Nat) :
    (err 0 = none → maxHeight twice err 0 fuel = some 0) ∧
    (err 1 = none → target ≠ 0 → maxHeight twice err target (fuel + 1) = some 0) := by
  constructor
  · intro h
    unfold maxHeight
    rw [if_pos rfl, h]
  · intro h ht
    unfold maxHeight
    rw [if_neg ht, search]
    unfold step Search.init
    simp only [h]
    split_ifs <;> rfl

/-! ## C69: the worst-case image -/

theorem skipDivisors_spec (n : Nat) : ∀ edge : Nat,
    (∃ e, skipDivisors n edge = some e ∧ 0 < e ∧ e ≤ edge ∧ ¬ e ∣ n ∧
      ∀ d, e < d → d ≤ edge → d ∣ n) ∨
    (skipDivisors n edge = none ∧ ∀ d, 0 < d → d ≤ edge → d ∣ n) := by
  intro edge
  induction edge with
  | zero => right; exact ⟨rfl, fun d h1 h2 => by omega⟩
  | succ edge ih =>
    rw [skipDivisors]
    by_cases h : n % (edge + 1) = 0
    · rw [if_pos h]
      have hd : edge + 1 ∣ n := Nat.dvd_of_mod_eq_zero h
      rcases ih with ⟨e, h1, h2, h3, h4, h5⟩ | ⟨h1, h2⟩
      · left
        refine ⟨e, h1, h2, by omega, h4, fun d hd1 hd2 => ?_⟩
        rcases Nat.lt_or_ge d (edge + 1) with hh | hh
        · exact h5 d hd1 (by omega)
        · have : d = edge + 1 := by omega
          rwa [this]
      · right
        refine ⟨h1, fun d hd1 hd2 => ?_⟩
        rcases Nat.lt_or_ge d (edge + 1) with hh | hh
        · exact h2 d hd1 (by omega)
        · have : d = edge + 1 := by omega
          rwa [this]
    · rw [if_neg h]
      left
      exact ⟨edge + 1, rfl, by omega, le_rfl, fun hd => h (Nat.mod_eq_zero_of_dvd hd),
        fun d h1 h2 => by omega⟩

variable {R : Type} [Zero R]

theorem setPix_ok (n : Nat) (img : Arr R) (hs : img.size = n * n) (x y : Int) (v : R)
    (hx : 0 ≤ x) (hx' : x < n) (hy : 0 ≤ y) (hy' : y < n) :
    ∃ r, setPix n img x y v = some r ∧ r.size = n * n ∧
      ∀ a b : Nat, a < n → b < n → r.get (a * n + b) =
        if (a : Int) = x ∧ (b : Int) = y then v else img.get (a * n + b) := by
  obtain ⟨x, rfl⟩ := Int.eq_ofNat_of_zero_le hx
  obtain ⟨y, rfl⟩ := Int.eq_ofNat_of_zero_le hy
  have hx'' : x < n := by omega
  have hy'' : y < n := by omega
  unfold setPix
  rw [if_pos ⟨hx, hx', hy, hy'⟩]
  have hidx : index2 n (x : Int) (y : Int) = ((x * n + y : Nat) : Int) := by
    simp [index2, Int.mul_comm]
  have hlt : x * n + y < n * n := by
    have := flat_lt hx'' hy''
    rw [Nat.mul_comm x]; exact this
  rw [hidx, Arr.write_nat, if_pos (by rw [hs]; exact hlt)]
  refine ⟨_, rfl, hs, fun a b ha hb => ?_⟩
  rw [Arr.put_get]
  have : (a * n + b = x * n + y) ↔ ((a : Int) = x ∧ (b : Int) = y) := by
    constructor
    · intro h
      have := flat_inj (b := n) (i := a) (j := b) (i' := x) (j' := y) hb hy'' (by
        rw [Nat.mul_comm n, Nat.mul_comm n]; exact h)
      omega
    · rintro ⟨h1, h2⟩
      rw [Int.ofNat_inj.1 h1, Int.ofNat_inj.1 h2]
  by_cases h : (a : Int) = x ∧ (b : Int) = y
  · rw [if_pos h, if_pos (this.2 h)]
  · rw [if_neg h, if_neg fun hh => h (this.1 hh)]

/-- **C69 (partial).**  If some number up to `edge` does not divide the image size and `edge` is
below half the size, the image gets exactly four sources, in four different pixels, at distance
`e` from the centre, `e` being the largest such number; everything else is cleared. -/
theorem C69_sources_partial (a b : R) (n edge : Nat) (img : Arr R) (hs : img.size = n * n)
    (hedge : edge < n / 2) (hnd : ∃ d, 0 < d ∧ d ≤ edge ∧ ¬ d ∣ n) :
    ∃ (e : Nat) (r : Arr R), 0 < e ∧ e ≤ edge ∧ ¬ e ∣ n ∧ (∀ d, e < d → d ≤ edge → d ∣ n) ∧
      worstCase a b n edge img = some r ∧ r.size = img.size ∧
      ∀ x y : Nat, x < n → y < n → r.get (x * n + y) =
        if x = n / 2 + e ∧ y = n / 2 + e then a
        else if x = n / 2 - e ∧ y = n / 2 - e then b
        else if x = n / 2 + e ∧ y = n / 2 - e - 1 then a
        else if x = n / 2 - e - 1 ∧ y = n / 2 + e then b
        else 0 := by
  rcases skipDivisors_spec n edge with ⟨e, h1, h2, h3, h4, h5⟩ | ⟨_, h⟩
  swap
  · obtain ⟨d, d1, d2, d3⟩ := hnd
    exact absurd (h d d1 d2) d3
  have hn : n / 2 + n / 2 ≤ n := by omega
  generalize hh : n / 2 = k at *
  obtain ⟨r1, e1, s1, v1⟩ := setPix_ok n (⟨img.size, fun _ => 0⟩ : Arr R) hs ((k : Int) + e)
    ((k : Int) + e) a (by omega) (by omega) (by omega) (by omega)
  obtain ⟨r2, e2, s2, v2⟩ := setPix_ok n r1 s1 ((k : Int) - e) ((k : Int) - e) b (by omega)
    (by omega) (by omega) (by omega)
  obtain ⟨r3, e3, s3, v3⟩ := setPix_ok n r2 s2 ((k : Int) + e) ((k : Int) - e - 1) a (by omega)
    (by omega) (by omega) (by omega)
  obtain ⟨r4, e4, s4, v4⟩ := setPix_ok n r3 s3 ((k : Int) - e - 1) ((k : Int) + e) b (by omega)
    (by omega) (by omega) (by omega)
  refine ⟨e, r4, h2, h3, h4, h5, ?_, by rw [s4, hs], fun x y hx hy => ?_⟩
  · unfold worstCase
    rw [h1]
    simp only [Option.bind_some, hh]
    rw [e1]
    simp only [Option.bind_some]
    rw [e2]
    simp only [Option.bind_some]
    rw [e3]
    exact e4
  · rw [v4 x y hx hy, v3 x y hx hy, v2 x y hx hy, v1 x y hx hy]
    split_ifs <;> first | rfl | omega

/-- **C69 fails when every number up to `edge` divides the image size** (in particular for
`edge = 0`, or `edge` at most 2 and an even size): division by zero. -/
theorem C69_division_false (a b : R) (n edge : Nat) (img : Arr R)
    (h : ∀ d, 0 < d → d ≤ edge → d ∣ n) : worstCase a b n edge img = none := by
  unfold worstCase
  rcases skipDivisors_spec n edge with ⟨e, _, h2, h3, h4, _⟩ | ⟨h1, _⟩
  · exact absurd (h e h2 h3) h4
  · rw [h1]; rfl

/-- **C69 fails for odd image sizes and a field of view equal to the image** (`edge` equal to
half the size, rounded down): a pixel in column and row -1 is written. -/
theorem C69_odd_false (a b : R) (k : Nat) (hk : 2 ≤ k) (img : Arr R) :
    worstCase a b (2 * k + 1) k img = none := by
  unfold worstCase
  have hk1 : ¬ k ∣ 2 * k + 1 := by
    intro h
    have h1 : k ∣ 1 := by
      have h2 : k ∣ 2 * k := Dvd.intro_left 2 rfl
      exact (Nat.dvd_add_right h2).1 h
    have := Nat.le_of_dvd (by omega) h1
    omega
  have hs : skipDivisors (2 * k + 1) k = some k := by
    obtain ⟨j, rfl⟩ : ∃ j, k = j + 1 := ⟨k - 1, by omega⟩
    rw [skipDivisors, if_neg fun h => hk1 (Nat.dvd_of_mod_eq_zero h)]
  rw [hs]
  simp only [Option.bind_some]
  have h2 : ((2 * k + 1) / 2 : Nat) = k := by omega
  rw [h2]
  cases setPix (2 * k + 1) (⟨img.size, fun _ => 0⟩ : Arr R) ((k : Int) + k) ((k : Int) + k) a with
  | none => rfl
  | some i1 =>
    simp only [Option.bind_some]
    cases setPix (2 * k + 1) i1 ((k : Int) - k) ((k : Int) - k) b with
    | none => rfl
    | some i2 =>
      simp only [Option.bind_some]
      unfold setPix
      rw [if_neg (by omega)]
      rfl

/-- Non-vacuity of C69: 16 x 16 image, edge 4 becomes 3. -/
example : (∃ d, 0 < d ∧ d ≤ 4 ∧ ¬ d ∣ 16) ∧ skipDivisors 16 4 = some 3 ∧
    ((worstCase (3 : ℚ) 2 16 4 ⟨256, fun _ => 7⟩).map fun r => r.get (11 * 16 + 4)) = some 3 := by
  refine ⟨⟨3, by decide⟩, by decide, by decide +kernel⟩

end Sdp.Height
