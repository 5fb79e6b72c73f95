import Verif.Clamp.Props

/-!
# C34 on whole arrays: `sdp_gridder_clamp_channels_single` and `_uv`

For every row in the selected row range the output channel range is exactly the set of
input channels selected by the coordinate test(s); rows outside the row range keep
their old contents; no access is out of bounds.
-/

namespace Sdp.Clamp

variable {K : Type} [Field K] [LinearOrder K] [IsStrictOrderedRing K] [FloorRing K]

/-- Input channel range of row `i` at the time of the call. -/
def inOf (c : Chans) (out : Arr Int × Arr Int) (i : Nat) : Int × Int :=
  ((if c.inPlace then out.1 else c.inS).get i, (if c.inPlace then out.2 else c.inE).get i)

/-- Channel range held by the arrays for row `i`. -/
def rangeOf (st : Arr Int × Arr Int) (i : Nat) : Int × Int := (st.1.get i, st.2.get i)

/-- All arrays of the call cover rows `[0, n)`. -/
def Covers (n : Nat) (c : Chans) (out : Arr Int × Arr Int) : Prop :=
  n ≤ out.1.size ∧ n ≤ out.2.size ∧
    (c.inPlace = false → n ≤ c.inS.size ∧ n ≤ c.inE.size)

theorem rowsOf_nodup (a b : Int) : (rowsOf a b).Nodup := by
  unfold rowsOf
  apply List.Nodup.map _ List.nodup_range
  intro x y h
  have : a + (x : Int) = a + (y : Int) := h
  omega

theorem mem_rowsOf {a b i : Int} : i ∈ rowsOf a b ↔ a ≤ i ∧ i < b := by
  unfold rowsOf
  simp only [List.mem_map, List.mem_range]
  constructor
  · rintro ⟨k, h, rfl⟩; omega
  · rintro ⟨h1, h2⟩; exact ⟨(i - a).toNat, by omega, by omega⟩

/-- The row loop: each row is rewritten once, from its own input. -/
theorem row_loop (c : Chans) (out : Arr Int × Arr Int) (n : Nat) (hc : Covers n c out)
    (a b : Int) (ha : 0 ≤ a) (hb : b ≤ n)
    (f : Arr Int × Arr Int → Int → Option (Arr Int × Arr Int))
    (g : Int → Int × Int → Option (Int × Int)) (P : Int → Int × Int → Int × Int → Prop)
    (hf : ∀ st i, a ≤ i → i < b →
      f st i = (readIn c st i).bind fun se => (g i se).bind fun r => writeOut st i r)
    (hg : ∀ i se, a ≤ i → i < b → ∃ r, g i se = some r ∧ P i se r) :
    ∃ st, loop f out (rowsOf a b) = some st ∧
      st.1.size = out.1.size ∧ st.2.size = out.2.size ∧
      (∀ i : Nat, a ≤ (i : Int) → (i : Int) < b → P i (inOf c out i) (rangeOf st i)) ∧
      (∀ i : Nat, ¬ (a ≤ (i : Int) ∧ (i : Int) < b) → rangeOf st i = rangeOf out i) := by
  obtain ⟨st, h, h1, h2, h3, h4⟩ := loop_inv f
    (fun done st => st.1.size = out.1.size ∧ st.2.size = out.2.size ∧
      (∀ i : Nat, (i : Int) ∈ done → P i (inOf c out i) (rangeOf st i)) ∧
      (∀ i : Nat, (i : Int) ∉ done → rangeOf st i = rangeOf out i))
    (rowsOf a b) out ⟨rfl, rfl, by simp, by simp⟩ (by
      rintro done x rest st he ⟨s1, s2, hd, hn⟩
      have hx : x ∈ rowsOf a b := by rw [he]; simp
      have hnd := rowsOf_nodup a b
      rw [he] at hnd
      have hxd : x ∉ done := by
        intro hxd
        rw [List.nodup_append] at hnd
        exact hnd.2.2 x hxd x (by simp) rfl
      obtain ⟨hx1, hx2⟩ := mem_rowsOf.1 hx
      obtain ⟨k, hk⟩ := Int.eq_ofNat_of_zero_le (le_trans ha hx1)
      have hkn : k < n := by omega
      obtain ⟨c1, c2, c3⟩ := hc
      have hold := hn k (by rw [← hk]; exact hxd)
      have hin : readIn c st x = some (inOf c out k) := by
        unfold readIn inOf
        unfold rangeOf at hold
        rw [Prod.mk.injEq] at hold
        rw [hk]
        cases hp : c.inPlace
        · obtain ⟨c4, c5⟩ := c3 hp
          simp only [Bool.false_eq_true, if_false]
          rw [Arr.read_nat, Arr.read_nat, if_pos (by omega), if_pos (by omega)]
          rfl
        · simp only [if_true]
          rw [Arr.read_nat, Arr.read_nat, if_pos (by omega), if_pos (by omega)]
          simp only [Option.bind_some]
          rw [hold.1, hold.2]
      obtain ⟨r, hr, hP⟩ := hg x (inOf c out k) hx1 hx2
      refine ⟨(st.1.put k r.1, st.2.put k r.2), ?_, s1, s2, ?_, ?_⟩
      · rw [hf st x hx1 hx2, hin]
        simp only [Option.bind_some]
        rw [hr]
        simp only [Option.bind_some]
        unfold writeOut
        rw [hk, Arr.write_nat, if_pos (by omega)]
        simp only [Option.bind_some]
        rw [Arr.write_nat, if_pos (by omega)]
        rfl
      · intro i hi
        by_cases hik : i = k
        · subst hik
          have : rangeOf (st.1.put i r.1, st.2.put i r.2) i = r := by
            simp [rangeOf, Arr.put_get]
          rw [this, ← hk]
          exact hP
        · have hid : (i : Int) ∈ done := by
            rcases List.mem_append.1 hi with h | h
            · exact h
            · rw [List.mem_singleton, hk] at h
              exact absurd (by exact_mod_cast h) hik
          have : rangeOf (st.1.put k r.1, st.2.put k r.2) i = rangeOf st i := by
            simp [rangeOf, Arr.put_get, hik]
          rw [this]
          exact hd i hid
      · intro i hi
        rw [List.mem_append, List.mem_singleton, not_or, hk] at hi
        have hik : i ≠ k := fun h => hi.2 (by rw [h])
        have : rangeOf (st.1.put k r.1, st.2.put k r.2) i = rangeOf st i := by
          simp [rangeOf, Arr.put_get, hik]
        rw [this]
        exact hn i hi.1)
  exact ⟨st, h, h1, h2, fun i hi1 hi2 => h3 i (mem_rowsOf.2 ⟨hi1, hi2⟩),
    fun i hi => h4 i fun hm => hi (mem_rowsOf.1 hm)⟩

/-- The row range actually used. -/
theorem rowRange_ok (n : Nat) (startRow endRow : Int) (he : endRow ≤ n) :
    0 ≤ (rowRange n startRow endRow).1 ∧ (rowRange n startRow endRow).2 ≤ n := by
  unfold rowRange
  split <;> constructor <;> simp <;> omega

/-- C34, `sdp_gridder_clamp_channels_single`: every row of the row range gets exactly
the input channels selected in the given coordinate; other rows are untouched. -/
theorem C34_single (c0 : K) (uvw : Arr K) (n : Nat) (dim : Nat) (freq0 dfreq : K)
    (c : Chans) (lo hi : K) (out : Arr Int × Arr Int) (startRow endRow : Int)
    (hu : uvw.size = 3 * n) (hdim : dim < 3) (hc : Covers n c out) (he : endRow ≤ n) :
    ∃ st, clampSingle c0 uvw n dim freq0 dfreq c lo hi out startRow endRow = some st ∧
      st.1.size = out.1.size ∧ st.2.size = out.2.size ∧
      (∀ i : Nat, (rowRange n startRow endRow).1 ≤ i → i < (rowRange n startRow endRow).2 →
        (rangeOf st i).1 ≤ (rangeOf st i).2 ∧
        ∀ ch : Int, ((rangeOf st i).1 ≤ ch ∧ ch < (rangeOf st i).2) ↔
          ((inOf c out i).1 ≤ ch ∧ ch < (inOf c out i).2 ∧
            Sel (uvw.get (3 * i + dim) * (freq0 / c0)) (uvw.get (3 * i + dim) * (dfreq / c0))
              lo hi ch)) ∧
      (∀ i : Nat, ¬ ((rowRange n startRow endRow).1 ≤ i ∧ i < (rowRange n startRow endRow).2) →
        rangeOf st i = rangeOf out i) := by
  obtain ⟨r1, r2⟩ := rowRange_ok n startRow endRow he
  have hrd : ∀ i : Int, (rowRange n startRow endRow).1 ≤ i → i < (rowRange n startRow endRow).2 →
      uvw.read (3 * i + dim) = some (uvw.get (3 * i.toNat + dim)) := by
    intro i h1 h2
    obtain ⟨k, hk⟩ := Int.eq_ofNat_of_zero_le (le_trans r1 h1)
    have h3 : (3 * i + dim : Int) = ((3 * k + dim : Nat) : Int) := by omega
    rw [h3, Arr.read_nat, if_pos (by omega), hk]
    simp
  obtain ⟨st, h, h1, h2, h3, h4⟩ := row_loop c out n hc _ _ r1 r2
    (fun st (i : Int) =>
      (uvw.read (3 * i + dim)).bind fun u =>
      (readIn c st i).bind fun se =>
      (clampAxis (u * (freq0 / c0)) (u * (dfreq / c0)) lo hi se.1 se.2).bind fun r =>
      writeOut st i r)
    (fun i se => clampAxis (uvw.get (3 * i.toNat + dim) * (freq0 / c0))
      (uvw.get (3 * i.toNat + dim) * (dfreq / c0)) lo hi se.1 se.2)
    (fun i se r => r.1 ≤ r.2 ∧ ∀ ch : Int, (r.1 ≤ ch ∧ ch < r.2) ↔ (se.1 ≤ ch ∧ ch < se.2 ∧
      Sel (uvw.get (3 * i.toNat + dim) * (freq0 / c0))
        (uvw.get (3 * i.toNat + dim) * (dfreq / c0)) lo hi ch))
    (by intro st i h1 h2; rw [hrd i h1 h2]; rfl)
    (by
      intro i se _ _
      obtain ⟨s', e', h, hle, hs⟩ := clampAxis_spec (uvw.get (3 * i.toNat + dim) * (freq0 / c0))
        (uvw.get (3 * i.toNat + dim) * (dfreq / c0)) lo hi se.1 se.2
      exact ⟨(s', e'), h, hle, hs⟩)
  refine ⟨st, h, h1, h2, fun i hi1 hi2 => ?_, h4⟩
  have := h3 i hi1 hi2
  rw [Int.toNat_natCast] at this
  exact this

/-- One row of the uv version: both tests. -/
theorem clampAxis2_spec (u0 du v0 dv loU hiU loV hiV : K) (s e : Int) :
    ∃ s' e', clampAxis2 u0 du v0 dv loU hiU loV hiV s e = some (s', e') ∧ s' ≤ e' ∧
      ∀ ch : Int, (s' ≤ ch ∧ ch < e') ↔
        (s ≤ ch ∧ ch < e ∧ Sel u0 du loU hiU ch ∧ Sel v0 dv loV hiV ch) := by
  obtain ⟨s1, e1, h1, hle1, hs1⟩ := clampAxis_spec u0 du loU hiU s e
  unfold clampAxis2
  rw [h1]
  simp only [Option.bind_some]
  by_cases h : e1 ≤ s1
  · rw [if_pos h]
    refine ⟨s1, e1, rfl, hle1, fun ch => ?_⟩
    constructor
    · omega
    · rintro ⟨a, b, c, -⟩
      exact (hs1 ch).2 ⟨a, b, c⟩
  · rw [if_neg h]
    obtain ⟨s2, e2, h2, hle2, hs2⟩ := clampAxis_spec v0 dv loV hiV s1 e1
    refine ⟨s2, e2, h2, hle2, fun ch => ?_⟩
    rw [hs2 ch]
    constructor
    · rintro ⟨a, b, d⟩
      obtain ⟨p, q, r⟩ := (hs1 ch).1 ⟨a, b⟩
      exact ⟨p, q, r, d⟩
    · rintro ⟨p, q, r, d⟩
      obtain ⟨a, b⟩ := (hs1 ch).2 ⟨p, q, r⟩
      exact ⟨a, b, d⟩

/-- C34, `sdp_gridder_clamp_channels_uv`: every row of the row range gets exactly the
input channels selected in both coordinates; other rows are untouched. -/
theorem C34_uv (c0 : K) (uvw : Arr K) (n : Nat) (freq0 dfreq : K)
    (c : Chans) (loU hiU loV hiV : K) (out : Arr Int × Arr Int) (startRow endRow : Int)
    (hu : uvw.size = 3 * n) (hc : Covers n c out) (he : endRow ≤ n) :
    ∃ st, clampUv c0 uvw n freq0 dfreq c loU hiU loV hiV out startRow endRow = some st ∧
      st.1.size = out.1.size ∧ st.2.size = out.2.size ∧
      (∀ i : Nat, (rowRange n startRow endRow).1 ≤ i → i < (rowRange n startRow endRow).2 →
        (rangeOf st i).1 ≤ (rangeOf st i).2 ∧
        ∀ ch : Int, ((rangeOf st i).1 ≤ ch ∧ ch < (rangeOf st i).2) ↔
          ((inOf c out i).1 ≤ ch ∧ ch < (inOf c out i).2 ∧
            Sel (uvw.get (3 * i) * (freq0 / c0)) (uvw.get (3 * i) * (dfreq / c0)) loU hiU ch ∧
            Sel (uvw.get (3 * i + 1) * (freq0 / c0)) (uvw.get (3 * i + 1) * (dfreq / c0))
              loV hiV ch)) ∧
      (∀ i : Nat, ¬ ((rowRange n startRow endRow).1 ≤ i ∧ i < (rowRange n startRow endRow).2) →
        rangeOf st i = rangeOf out i) := by
  obtain ⟨r1, r2⟩ := rowRange_ok n startRow endRow he
  have hrd : ∀ (i : Int) (d : Nat), d < 3 → (rowRange n startRow endRow).1 ≤ i →
      i < (rowRange n startRow endRow).2 →
      uvw.read (3 * i + d) = some (uvw.get (3 * i.toNat + d)) := by
    intro i d hd h1 h2
    obtain ⟨k, hk⟩ := Int.eq_ofNat_of_zero_le (le_trans r1 h1)
    have h3 : (3 * i + d : Int) = ((3 * k + d : Nat) : Int) := by omega
    rw [h3, Arr.read_nat, if_pos (by omega), hk]
    simp
  obtain ⟨st, h, h1, h2, h3, h4⟩ := row_loop c out n hc _ _ r1 r2
    (fun st (i : Int) =>
      (uvw.read (3 * i)).bind fun u =>
      (uvw.read (3 * i + 1)).bind fun v =>
      (readIn c st i).bind fun se =>
      (clampAxis2 (u * (freq0 / c0)) (u * (dfreq / c0)) (v * (freq0 / c0)) (v * (dfreq / c0))
        loU hiU loV hiV se.1 se.2).bind fun r =>
      writeOut st i r)
    (fun i se => clampAxis2 (uvw.get (3 * i.toNat) * (freq0 / c0))
      (uvw.get (3 * i.toNat) * (dfreq / c0)) (uvw.get (3 * i.toNat + 1) * (freq0 / c0))
      (uvw.get (3 * i.toNat + 1) * (dfreq / c0)) loU hiU loV hiV se.1 se.2)
    (fun i se r => r.1 ≤ r.2 ∧ ∀ ch : Int, (r.1 ≤ ch ∧ ch < r.2) ↔ (se.1 ≤ ch ∧ ch < se.2 ∧
      Sel (uvw.get (3 * i.toNat) * (freq0 / c0))
        (uvw.get (3 * i.toNat) * (dfreq / c0)) loU hiU ch ∧
      Sel (uvw.get (3 * i.toNat + 1) * (freq0 / c0))
        (uvw.get (3 * i.toNat + 1) * (dfreq / c0)) loV hiV ch))
    (by
      intro st i h1 h2
      have a := hrd i 0 (by omega) h1 h2
      have b := hrd i 1 (by omega) h1 h2
      simp only [Nat.cast_zero, add_zero, Nat.cast_one] at a b
      rw [a, b]; rfl)
    (by
      intro i se _ _
      obtain ⟨s', e', h, hle, hs⟩ := clampAxis2_spec (uvw.get (3 * i.toNat) * (freq0 / c0))
        (uvw.get (3 * i.toNat) * (dfreq / c0)) (uvw.get (3 * i.toNat + 1) * (freq0 / c0))
        (uvw.get (3 * i.toNat + 1) * (dfreq / c0)) loU hiU loV hiV se.1 se.2
      exact ⟨(s', e'), h, hle, hs⟩)
  refine ⟨st, h, h1, h2, fun i hi1 hi2 => ?_, h4⟩
  have := h3 i hi1 hi2
  rw [Int.toNat_natCast] at this
  exact this

/-- Non-vacuity: two rows, in place, one row selected by an explicit row range. -/
example : (clampSingle (1 : ℚ) ⟨6, fun k => if k = 3 then 1 else 7⟩ 2 0 0 1
      ⟨⟨0, fun _ => 0⟩, ⟨0, fun _ => 0⟩, true⟩ 2 5 (⟨2, fun _ => 0⟩, ⟨2, fun _ => 10⟩) 1 2).map
        (fun st => (rangeOf st 0, rangeOf st 1)) =
      some ((0, 10), (2, 5)) ∧
    (clampUv (1 : ℚ) ⟨6, fun k => if k = 3 then 1 else if k = 4 then 2 else 7⟩ 2 0 1
      ⟨⟨2, fun _ => 0⟩, ⟨2, fun _ => 10⟩, false⟩ 2 5 5 9
      (⟨2, fun _ => 0⟩, ⟨2, fun _ => 0⟩) (-1) (-1)).map
        (fun st => (rangeOf st 0, rangeOf st 1)) =
      some ((1, 1), (3, 5)) := by
  constructor <;> decide +kernel

end Sdp.Clamp
