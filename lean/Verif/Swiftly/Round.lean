import Verif.Swiftly.Subgrid

/-!
# C33: preparing and finishing subgrids
-/

namespace Sdp.Swiftly
open Sdp.Fft
noncomputable section

theorem swapHalves_spec (h : Nat) (a : Arr ℂ) (ha : 2 * h ≤ a.size) :
    ∃ r, swapHalves (2 * h) a = some r ∧ r.size = a.size ∧
      (∀ i < h, r.get i = a.get (i + h)) ∧ (∀ i < h, r.get (i + h) = a.get i) := by
  unfold swapHalves
  rw [show 2 * h / 2 = h by omega]
  obtain ⟨r, hr, hs, h1, h2, _⟩ := loop_inv
    (fun (a : Arr ℂ) (i : Nat) => (a.read i).bind fun t => (a.read (i + h : Nat)).bind fun v =>
      (a.write i v).bind fun a => a.write (i + h : Nat) t)
    (fun done r => r.size = a.size ∧ (∀ i ∈ done, r.get i = a.get (i + h)) ∧
      (∀ i ∈ done, r.get (i + h) = a.get i) ∧
      (∀ i < h, i ∉ done → r.get i = a.get i ∧ r.get (i + h) = a.get (i + h)))
    (List.range h) a ⟨rfl, by simp, by simp, by simp⟩ (by
      rintro done x rest s he ⟨hs, h1, h2, h3⟩
      have hx : x < h := List.mem_range.1 (by rw [he]; simp)
      have hnd : (done ++ x :: rest).Nodup := by rw [← he]; exact List.nodup_range
      have hxd : x ∉ done := fun hh => by
        rw [List.nodup_append] at hnd
        exact hnd.2.2 x hh x (by simp) rfl
      have hdl : ∀ i ∈ done, i < h := fun i hi => List.mem_range.1 (by rw [he]; simp [hi])
      obtain ⟨e1, e2⟩ := h3 x hx hxd
      refine ⟨(s.put x (a.get (x + h))).put (x + h) (a.get x), ?_, ?_, ?_, ?_, ?_⟩
      · rw [Arr.read_nat, if_pos (by omega), Option.bind_some, Arr.read_nat, if_pos (by omega),
          Option.bind_some, Arr.write_nat, if_pos (by omega), Option.bind_some, Arr.write_nat,
          if_pos (by rw [Arr.put_size]; omega), e1, e2]
      · simpa using hs
      · intro i hi
        rw [Arr.put_get, Arr.put_get]
        rcases List.mem_append.1 hi with hi2 | hi
        · have := hdl i hi2
          rw [if_neg (by omega), if_neg (by rintro rfl; exact hxd hi2), h1 i hi2]
        · rw [List.mem_singleton] at hi; subst hi
          rw [if_neg (by omega), if_pos rfl]
      · intro i hi
        rw [Arr.put_get, Arr.put_get]
        rcases List.mem_append.1 hi with hi | hi
        · have := hdl i hi
          rw [if_neg (by rintro hh; apply hxd; rwa [show x = i by omega]), if_neg (by omega), h2 i hi]
        · rw [List.mem_singleton] at hi; subst hi
          rw [if_pos rfl]
      · intro i hi hni
        simp only [List.mem_append, List.mem_singleton, not_or] at hni
        rw [Arr.put_get, Arr.put_get, Arr.put_get, Arr.put_get, if_neg (by omega),
          if_neg (by omega), if_neg (by omega), if_neg (by omega)]
        exact h3 i hi hni.1)
  exact ⟨r, hr, hs, fun i hi => h1 i (List.mem_range.2 hi), fun i hi => h2 i (List.mem_range.2 hi)⟩

/-- The swap as a rotation by half the length. -/
theorem swapHalves_rot (h : Nat) (a : Arr ℂ) (ha : 2 * h ≤ a.size) :
    ∃ r, swapHalves (2 * h) a = some r ∧ r.size = a.size ∧
      ∀ i < 2 * h, r.get i = a.get ((i + h) % (2 * h)) := by
  obtain ⟨r, hr, hs, h1, h2⟩ := swapHalves_spec h a ha
  refine ⟨r, hr, hs, fun i hi => ?_⟩
  by_cases hi' : i < h
  · rw [h1 i hi', Nat.mod_eq_of_lt (by omega)]
  · have := h2 (i - h) (by omega)
    rw [show i - h + h = i by omega] at this
    rw [this]
    congr 1
    rw [show i + h = (i - h) + 2 * h by omega, Nat.add_mod_right, Nat.mod_eq_of_lt (by omega)]

theorem rampSwap_rot (h : Nat) (step step2 : ℂ) (a : Arr ℂ) (ha : 2 * h ≤ a.size) :
    ∃ r, rampSwap (2 * h) step step2 a = some r ∧ r.size = a.size ∧
      (∀ i < h, r.get i = step ^ i * a.get (i + h)) ∧
      (∀ i < h, r.get (i + h) = step ^ i * step2 * a.get i) := by
  unfold rampSwap
  rw [show 2 * h / 2 = h by omega]
  obtain ⟨r, hr, hp, hs, h1, h2, _⟩ := loop_inv
    (fun (s : ℂ × Arr ℂ) (i : Nat) =>
    (s.2.read i).bind fun t => (s.2.read (i + h : Nat)).bind fun v =>
    (s.2.write i (s.1 * v)).bind fun a =>
    (a.write (i + h : Nat) (s.1 * step2 * t)).bind fun a => some (s.1 * step, a))
    (fun done r => r.1 = step ^ done.length ∧ r.2.size = a.size ∧
      (∀ i ∈ done, r.2.get i = step ^ i * a.get (i + h)) ∧
      (∀ i ∈ done, r.2.get (i + h) = step ^ i * step2 * a.get i) ∧
      (∀ i < h, i ∉ done → r.2.get i = a.get i ∧ r.2.get (i + h) = a.get (i + h)))
    (List.range h) (1, a) ⟨by simp, rfl, by simp, by simp, by simp⟩ (by
      rintro done x rest s he ⟨hp, hs, h1, h2, h3⟩
      have hx : x < h := List.mem_range.1 (by rw [he]; simp)
      have hnd : (done ++ x :: rest).Nodup := by rw [← he]; exact List.nodup_range
      have hxd : x ∉ done := fun hh => by
        rw [List.nodup_append] at hnd
        exact hnd.2.2 x hh x (by simp) rfl
      have hdl : ∀ i ∈ done, i < h := fun i hi => List.mem_range.1 (by rw [he]; simp [hi])
      have hlen : done.length = x := by
        have := congrArg (fun l => l[done.length]?) he
        simp only [List.getElem?_append_right le_rfl, Nat.sub_self, List.getElem?_cons_zero] at this
        rw [List.getElem?_range (by
          have := congrArg List.length he; simp at this; omega)] at this
        simpa using this
      obtain ⟨e1, e2⟩ := h3 x hx hxd
      rw [hlen] at hp
      refine ⟨(s.1 * step, (s.2.put x (s.1 * a.get (x + h))).put (x + h) (s.1 * step2 * a.get x)),
        ?_, ?_, ?_, ?_, ?_, ?_⟩
      · rw [Arr.read_nat, if_pos (by omega), Option.bind_some, Arr.read_nat, if_pos (by omega),
          Option.bind_some, Arr.write_nat, if_pos (by omega), Option.bind_some, Arr.write_nat,
          if_pos (by rw [Arr.put_size]; omega), e1, e2]
        rfl
      · simp [hp, hlen, pow_succ]
      · simpa using hs
      · intro i hi
        simp only [Arr.put_get]
        rcases List.mem_append.1 hi with hi2 | hi
        · have := hdl i hi2
          rw [if_neg (by omega), if_neg (by rintro rfl; exact hxd hi2), h1 i hi2]
        · rw [List.mem_singleton] at hi; subst hi
          rw [if_neg (by omega), if_pos rfl, hp]
      · intro i hi
        simp only [Arr.put_get]
        rcases List.mem_append.1 hi with hi | hi
        · have := hdl i hi
          rw [if_neg (by rintro hh; apply hxd; rwa [show x = i by omega]), if_neg (by omega), h2 i hi]
        · rw [List.mem_singleton] at hi; subst hi
          rw [if_pos rfl, hp]
      · intro i hi hni
        simp only [List.mem_append, List.mem_singleton, not_or] at hni
        simp only [Arr.put_get]
        rw [if_neg (by omega), if_neg (by omega), if_neg (by omega), if_neg (by omega)]
        exact h3 i hi hni.1)
  refine ⟨r.2, by rw [hr]; rfl, hs, fun i hi => h1 i (List.mem_range.2 hi),
    fun i hi => h2 i (List.mem_range.2 hi)⟩

theorem root_mod (n : Nat) (a : Int) (j : Int) : root n (a * (j % n)) = root n (a * j) := by
  have : a * j = a * (j % n) + n * (a * (j / n)) := by
    have := Int.mul_ediv_add_emod j n
    calc a * j = a * (n * (j / n) + j % n) := by rw [this]
      _ = _ := by ring
  rw [this, root_add_period]

theorem cosSin_root (n : Nat) (m : Int) (ps : ℝ) (h : ps = 2 * Real.pi * m / n) :
    (⟨Real.cos ps, Real.sin ps⟩ : ℂ) = root n m := by
  unfold root
  rw [show (2 * Real.pi * Complex.I * (m / n) : ℂ) = ((2 * Real.pi * m / n : ℝ) : ℂ) * Complex.I by
    push_cast; ring, ← h, Complex.exp_mul_I]
  apply Complex.ext <;> simp [Complex.cos_ofReal_re, Complex.sin_ofReal_re]

/-- What finishing computes: the inverse transform of the subgrid image about its centre,
read at positions shifted by the offset. -/
theorem finishSubgrid_spec (h : Nat) (hh : 0 < h) (o : Int) (sg : Arr ℂ) (hs : sg.size = 2 * h) :
    ∃ r, finishSubgrid (2 * h) o sg = some r ∧ r.size = 2 * h ∧
      ∀ i < 2 * h, r.get i = 1 / ((2 * h : Nat) : ℂ) *
        dft true (2 * h) (fun t => root (2 * h) (t * (o + h)) * sg.get ((t + h) % (2 * h))) i := by
  obtain ⟨y, hy, hys, hyv⟩ := swapHalves_rot h sg (by omega)
  unfold finishSubgrid
  rw [hy]
  simp only [Option.bind_some, fftRow]
  rw [if_pos (by omega)]
  simp only [Option.bind_some]
  unfold copyShifted
  have hpos : (0 : Int) < ((2 * h : Nat) : Int) := by omega
  obtain ⟨r, hr, hrs, hrv, _⟩ := gather_spec
    (⟨y.size, fun k => if k < 2 * h then 1 / ((2 * h : Nat) : ℂ) * dft true (2 * h) y.get k
      else y.get k⟩ : Arr ℂ)
    (fun i => modP ((i : Int) + o + (2 * h / 2 : Nat)) (2 * h : Nat)) (2 * h) y
    (by
      intro i _
      rw [modP_eq _ hpos]
      have := Int.emod_nonneg ((i : Int) + o + (2 * h / 2 : Nat)) (b := ((2 * h : Nat) : Int)) (by omega)
      have := Int.emod_lt_of_pos ((i : Int) + o + (2 * h / 2 : Nat)) hpos
      constructor
      · omega
      · simp only; omega) (by omega)
  refine ⟨r, hr, by omega, fun i hi => ?_⟩
  rw [hrv i hi]
  simp only
  rw [modP_eq _ hpos]
  have h1 := Int.emod_nonneg ((i : Int) + o + (2 * h / 2 : Nat)) (b := ((2 * h : Nat) : Int)) (by omega)
  have h2 := Int.emod_lt_of_pos ((i : Int) + o + (2 * h / 2 : Nat)) hpos
  rw [if_pos (by omega)]
  congr 1
  unfold dft
  refine Finset.sum_congr rfl fun t ht => ?_
  rw [Finset.mem_range] at ht
  simp only
  rw [hyv t ht, ← mul_assoc (root (2 * h) (sgn true * ((t : Int) * (i : Int))))]
  refine congrArg (· * sg.get ((t + h) % (2 * h))) ?_
  simp only [sgn, if_true, one_mul, Int.toNat_of_nonneg h1]
  rw [root_mod, ← root_add]
  congr 1
  rw [show (2 * h / 2 : Nat) = h by omega]; ring

/-- What preparing computes. -/
theorem prepareSubgrid_spec (h : Nat) (hh : 0 < h) (o : Int) (sg : Arr ℂ) (hs : sg.size = 2 * h) :
    ∃ r, prepareSubgrid (2 * h) o sg = some r ∧ r.size = 2 * h ∧
      ∀ i < 2 * h, r.get i = root (2 * h) (-((o + h) * i)) *
        dft false (2 * h) sg.get ((i + h) % (2 * h)) := by
  unfold prepareSubgrid
  simp only
  unfold fftRow
  rw [if_pos (by omega)]
  simp only [Option.bind_some]
  have hn : ((2 * h : Nat) : ℝ) ≠ 0 := by positivity
  rw [cosSin_root (2 * h) (-(o + h)) _ (by rw [show 2 * h / 2 = h by omega]; push_cast; ring),
    cosSin_root (2 * h) (-((o + h) * h)) _ (by
      rw [show 2 * h / 2 = h by omega]; field_simp; push_cast; ring)]
  obtain ⟨r, hr, hrs, h1, h2⟩ := rampSwap_rot h (root (2 * h) (-(o + h)))
    (root (2 * h) (-((o + h) * h)))
    ⟨sg.size, fun k => if k < 2 * h then 1 * dft false (2 * h) sg.get k else sg.get k⟩
    (by show 2 * h ≤ sg.size; omega)
  refine ⟨r, hr, by rw [hrs]; exact hs, fun i hi => ?_⟩
  by_cases hi' : i < h
  · rw [h1 i hi', Nat.mod_eq_of_lt (by omega), root_pow]
    simp only
    rw [if_pos (by omega), one_mul]
    congr 2; ring
  · have := h2 (i - h) (by omega)
    rw [show i - h + h = i by omega] at this
    rw [this, root_pow, ← root_add]
    simp only
    rw [if_pos (by omega), one_mul]
    rw [show (i + h) % (2 * h) = i - h by
      rw [show i + h = (i - h) + 2 * h by omega, Nat.add_mod_right, Nat.mod_eq_of_lt (by omega)]]
    congr 2
    rw [Nat.cast_sub (by omega)]; ring

theorem root_half_turn (h : Nat) (hh : 0 < h) (s : Int) : root (2 * h) (s * h) = (-1) ^ s := by
  rw [← root_half hh]
  unfold root
  rw [← Complex.exp_int_mul]
  congr 1
  push_cast; ring

theorem dft_linear (inv : Bool) (n : Nat) (a : ℂ) (x : Nat → ℂ) (k : Nat) :
    dft inv n (fun i => a * x i) k = a * dft inv n x k := by
  unfold dft; rw [Finset.mul_sum]; exact Finset.sum_congr rfl fun _ _ => by ring

/-- C33: preparing a finished subgrid at the same offset gives the subgrid back up to the sign
`(-1)^(offset + M/2)`; exactly the subgrid when `offset + M/2` is even. -/
theorem C33_prepare_finish_partial (M : Nat) (hM : 0 < M) (he : Even M) (o : Int) (sg : Arr ℂ)
    (hs : sg.size = M) :
    ∃ f r, finishSubgrid M o sg = some f ∧ prepareSubgrid M o f = some r ∧ r.size = M ∧
      ∀ i < M, r.get i = (-1) ^ (o + (M / 2 : Nat) : Int) * sg.get i := by
  obtain ⟨h, rfl⟩ := even_iff_two_dvd.1 he
  have hh : 0 < h := by omega
  obtain ⟨f, hf, hfs, hfv⟩ := finishSubgrid_spec h hh o sg hs
  obtain ⟨r, hr, hrs, hrv⟩ := prepareSubgrid_spec h hh o f hfs
  refine ⟨f, r, hf, hr, hrs, fun i hi => ?_⟩
  have hlt : (i + h) % (2 * h) < 2 * h := Nat.mod_lt _ (by omega)
  rw [hrv i hi, dft_congr false (2 * h) hfv, dft_linear]
  have := dft_dft true (2 * h) (fun t => root (2 * h) (t * (o + h)) * sg.get ((t + h) % (2 * h)))
    ((i + h) % (2 * h)) hlt
  simp only [Bool.not_true] at this
  rw [this]
  have hn : ((2 * h : Nat) : ℂ) ≠ 0 := by
    have : (2 * h : Nat) ≠ 0 := by omega
    exact_mod_cast this
  rw [← mul_assoc (1 / _), one_div, inv_mul_cancel₀ hn, one_mul, ← mul_assoc]
  congr 1
  · rw [show ((((i + h) % (2 * h) : Nat) : Int) * (o + h)) = (o + h) * (((i + h : Nat) : Int) % ((2 * h : Nat) : Int)) by
      push_cast; ring, root_mod, ← root_add, show -((o + h) * i) + (o + h) * ((i + h : Nat) : Int) =
        (o + h) * h by push_cast; ring, root_half_turn h hh, show 2 * h / 2 = h by omega]
  · congr 1
    rw [Nat.mod_add_mod, show i + h + h = i + 2 * h by omega, Nat.add_mod_right, Nat.mod_eq_of_lt hi]

/-- C33: and the other way round. -/
theorem C33_finish_prepare_partial (M : Nat) (hM : 0 < M) (he : Even M) (o : Int) (sg : Arr ℂ)
    (hs : sg.size = M) :
    ∃ p r, prepareSubgrid M o sg = some p ∧ finishSubgrid M o p = some r ∧ r.size = M ∧
      ∀ i < M, r.get i = (-1) ^ (o + (M / 2 : Nat) : Int) * sg.get i := by
  obtain ⟨h, rfl⟩ := even_iff_two_dvd.1 he
  have hh : 0 < h := by omega
  obtain ⟨p, hp, hps, hpv⟩ := prepareSubgrid_spec h hh o sg hs
  obtain ⟨r, hr, hrs, hrv⟩ := finishSubgrid_spec h hh o p hps
  refine ⟨p, r, hp, hr, hrs, fun i hi => ?_⟩
  rw [hrv i hi]
  have e : ∀ t < 2 * h, root (2 * h) (t * (o + h)) * p.get ((t + h) % (2 * h)) =
      root (2 * h) (-((o + h) * h)) * dft false (2 * h) sg.get t := by
    intro t ht
    have hlt : (t + h) % (2 * h) < 2 * h := Nat.mod_lt _ (by omega)
    rw [hpv _ hlt, ← mul_assoc]
    congr 1
    · rw [show -((o + h) * (((t + h) % (2 * h) : Nat) : Int)) =
        (-(o + h)) * (((t + h : Nat) : Int) % ((2 * h : Nat) : Int)) by push_cast; ring, root_mod,
        ← root_add]
      congr 1; push_cast; ring
    · congr 1
      rw [Nat.mod_add_mod, show t + h + h = t + 2 * h by omega, Nat.add_mod_right, Nat.mod_eq_of_lt ht]
  rw [dft_congr true (2 * h) e, dft_linear]
  have := dft_dft false (2 * h) sg.get i hi
  simp only [Bool.not_false] at this
  rw [this]
  have hn : ((2 * h : Nat) : ℂ) ≠ 0 := by
    have : (2 * h : Nat) ≠ 0 := by omega
    exact_mod_cast this
  rw [show -((o + h) * h) = (-(o + h)) * (h : Int) by ring, root_half_turn h hh, zpow_neg,
    show 2 * h / 2 = h by omega]
  have hsq : ((-1 : ℂ) ^ (o + h : Int))⁻¹ = (-1) ^ (o + h : Int) := by
    rw [← zpow_neg]
    rcases Int.even_or_odd (o + h) with hev | hod
    · rw [hev.neg_one_zpow, hev.neg.neg_one_zpow]
    · rw [hod.neg_one_zpow, hod.neg.neg_one_zpow]
  rw [hsq]
  field_simp

/-- C33 is violated: when `offset + M/2` is odd the documented inverse changes the sign. -/
theorem C33_sign_false (M : Nat) (hM : 0 < M) (he : Even M) (o : Int) (ho : Odd (o + (M / 2 : Nat)))
    (sg : Arr ℂ) (hs : sg.size = M) (h0 : sg.get 0 ≠ 0) :
    ∃ f r, finishSubgrid M o sg = some f ∧ prepareSubgrid M o f = some r ∧
      r.get 0 = -sg.get 0 ∧ r.get 0 ≠ sg.get 0 := by
  obtain ⟨f, r, hf, hr, _, hv⟩ := C33_prepare_finish_partial M hM he o sg hs
  have := hv 0 hM
  rw [ho.neg_one_zpow, neg_one_mul] at this
  refine ⟨f, r, hf, hr, this, ?_⟩
  rw [this]
  intro hh
  exact h0 (self_eq_neg.1 hh.symm)

example : 0 < 4 ∧ Even 4 ∧ Odd ((3 : Int) + (4 / 2 : Nat)) := ⟨by norm_num, by decide, by decide⟩

end
end Sdp.Swiftly
