import Mathlib.Analysis.SpecialFunctions.Complex.Log
import Mathlib.Analysis.Complex.Norm
import Mathlib.Analysis.Complex.Trigonometric
import Mathlib.Tactic.Ring
import Mathlib.Tactic.LinearCombination
import Mathlib.Tactic.NormNum
import Verif.PhaseRotate.Model

/-!
# C19, C20 — phase rotation
-/

namespace Sdp.PhaseRotate
noncomputable section

/-! ## uvw rotation -/

/-- Matrix-vector product of the 3×3 matrix stored row by row. -/
def apply (m : Nat → ℝ) (x : Fin 3 → ℝ) (i : Fin 3) : ℝ :=
  m (3 * i) * x 0 + m (3 * i + 1) * x 1 + m (3 * i + 2) * x 2

/-- The `k`-th (u, v, w) triple of a buffer. -/
def triple (a : Arr ℝ) (k : Nat) (i : Fin 3) : ℝ := a.get (k * 3 + i)

theorem rotateUvw_spec (m : Nat → ℝ) (src : Option (Arr ℝ)) (n : Nat) (out : Arr ℝ)
    (ho : n * 3 ≤ out.size) (hs : ∀ a, src = some a → n * 3 ≤ a.size) :
    ∃ r, rotateUvw n m src out = some r ∧ r.size = out.size ∧
      (∀ k < n, ∀ i, triple r k i = apply m (triple (src.getD out) k) i) ∧
      (∀ j, n * 3 ≤ j → r.get j = out.get j) := by
  induction n with
  | zero => exact ⟨out, rfl, rfl, by simp, fun _ _ => rfl⟩
  | succ n ih =>
    obtain ⟨r, hr, hrs, hv, hf⟩ := ih (by omega) fun a ha => by have := hs a ha; omega
    have hsz : n * 3 + 2 < (src.getD r).size := by
      cases src with
      | none => simp [hrs]; omega
      | some a => have := hs a rfl; simp; omega
    have hget : ∀ i : Nat, (src.getD r).get (n * 3 + i) = (src.getD out).get (n * 3 + i) := by
      intro i
      cases src with
      | none => simp only [Option.getD_none]; exact hf _ (by omega)
      | some a => rfl
    have hrd : ∀ i : Nat, i ≤ 2 → readSrc src r ((n : Int) * 3 + i) =
        some ((src.getD out).get (n * 3 + i)) := by
      intro i hi
      unfold readSrc
      rw [show (n : Int) * 3 + i = ((n * 3 + i : Nat) : Int) by push_cast; ring, Arr.read_nat,
        if_pos (by omega), hget]
    have h0 := hrd 0 (by omega)
    have h1 := hrd 1 (by omega)
    have h2 := hrd 2 (by omega)
    set u := (src.getD out).get (n * 3 + 0)
    set v := (src.getD out).get (n * 3 + 1)
    set w := (src.getD out).get (n * 3 + 2)
    have hw : ∀ (a : Arr ℝ) (i : Nat) (x : ℝ), i ≤ 2 → a.size = out.size →
        a.write ((n : Int) * 3 + i) x = some (a.put (n * 3 + i) x) := by
      intro a i x hi ha
      rw [show (n : Int) * 3 + i = ((n * 3 + i : Nat) : Int) by push_cast; ring, Arr.write_nat,
        if_pos (by omega)]
    refine ⟨((r.put (n * 3 + 0) (m 0 * u + m 1 * v + m 2 * w)).put (n * 3 + 1)
      (m 3 * u + m 4 * v + m 5 * w)).put (n * 3 + 2) (m 6 * u + m 7 * v + m 8 * w), ?_, hrs, ?_, ?_⟩
    · unfold rotateUvw at hr ⊢
      rw [List.range_succ, loop_append, hr, Option.bind_some]
      simp only [loop, uvwBody]
      push_cast at h0 h1 h2
      rw [h0, h1, h2]
      simp only [Option.bind_some]
      have e0 := hw r 0 (m 0 * u + m 1 * v + m 2 * w) (by omega) hrs
      push_cast at e0
      rw [e0]
      simp only [Option.bind_some]
      have e1 := hw (r.put (n * 3 + 0) (m 0 * u + m 1 * v + m 2 * w)) 1
        (m 3 * u + m 4 * v + m 5 * w) (by omega) hrs
      push_cast at e1
      rw [e1]
      simp only [Option.bind_some]
      have e2 := hw ((r.put (n * 3 + 0) (m 0 * u + m 1 * v + m 2 * w)).put (n * 3 + 1)
        (m 3 * u + m 4 * v + m 5 * w)) 2 (m 6 * u + m 7 * v + m 8 * w) (by omega) hrs
      push_cast at e2
      rw [e2]
      rfl
    · intro k hk i
      unfold triple
      by_cases hkn : k = n
      · subst hkn
        fin_cases i <;> simp [Arr.put_get, apply, triple, u, v, w]
      · rw [Arr.put_get, if_neg (by omega), Arr.put_get, if_neg (by omega), Arr.put_get,
          if_neg (by omega)]
        exact hv k (by omega) i
    · intro j hj
      rw [Arr.put_get, if_neg (by omega), Arr.put_get, if_neg (by omega), Arr.put_get,
        if_neg (by omega)]
      exact hf j (by omega)

/-- Squared length. -/
def len2 (x : Fin 3 → ℝ) : ℝ := x 0 ^ 2 + x 1 ^ 2 + x 2 ^ 2

theorem apply_len (a b : Coord) (x : Fin 3 → ℝ) : len2 (apply (mat a b) x) = len2 x := by
  have h1 := Real.sin_sq_add_cos_sq (-(b.ra - a.ra))
  have h2 := Real.sin_sq_add_cos_sq (b.dec - a.dec)
  simp only [len2, apply, mat, Fin.val_zero, Fin.val_one, Fin.val_two, mul_zero, zero_add, mul_one,
    Nat.reduceMul, Nat.reduceAdd]
  set sa := Real.sin (-(b.ra - a.ra))
  set ca := Real.cos (-(b.ra - a.ra))
  set sd := Real.sin (b.dec - a.dec)
  set cd := Real.cos (b.dec - a.dec)
  linear_combination (x 0 ^ 2 + x 2 ^ 2) * h1 +
    (x 1 ^ 2 + (sa * x 0 - ca * x 2) ^ 2) * h2

/-- C19 (1): rotating preserves the length of every baseline, in place
(`src = none`) or into another buffer. -/
theorem C19_length (a b : Coord) (n : Nat) (src : Option (Arr ℝ)) (out : Arr ℝ)
    (ho : out.size = n * 3) (hs : ∀ x, src = some x → x.size = n * 3) :
    ∃ r, rotateUvw n (mat a b) src out = some r ∧ r.size = out.size ∧
      ∀ k < n, len2 (triple r k) = len2 (triple (src.getD out) k) := by
  obtain ⟨r, hr, hrs, hv, -⟩ := rotateUvw_spec (mat a b) src n out (by omega)
    fun x hx => by have := hs x hx; omega
  refine ⟨r, hr, hrs, fun k hk => ?_⟩
  rw [show triple r k = apply (mat a b) (triple (src.getD out) k) from funext (hv k hk), apply_len]

/-- C19 (2): the in-place result equals the out-of-place result. -/
theorem C19_in_place (a b : Coord) (n : Nat) (inp out : Arr ℝ)
    (ho : out.size = n * 3) (hi : inp.size = n * 3) :
    ∃ r r', rotateUvw n (mat a b) none inp = some r ∧
      rotateUvw n (mat a b) (some inp) out = some r' ∧
      ∀ k < n, ∀ i, triple r k i = triple r' k i := by
  obtain ⟨r, hr, -, hv, -⟩ := rotateUvw_spec (mat a b) none n inp (by omega) (by simp)
  obtain ⟨r', hr', -, hv', -⟩ := rotateUvw_spec (mat a b) (some inp) n out (by omega)
    (by simp; omega)
  exact ⟨r, r', hr, hr', fun k hk i => by rw [hv k hk, hv' k hk]; rfl⟩

/-- C19 (3): equal centres give the identity. -/
theorem C19_identity (a : Coord) (n : Nat) (src : Option (Arr ℝ)) (out : Arr ℝ)
    (ho : out.size = n * 3) (hs : ∀ x, src = some x → x.size = n * 3) :
    ∃ r, rotateUvw n (mat a a) src out = some r ∧
      ∀ k < n, ∀ i, triple r k i = triple (src.getD out) k i := by
  obtain ⟨r, hr, -, hv, -⟩ := rotateUvw_spec (mat a a) src n out (by omega)
    fun x hx => by have := hs x hx; omega
  refine ⟨r, hr, fun k hk i => ?_⟩
  rw [hv k hk]
  fin_cases i <;> simp [apply, mat]

/-- C19 (4, partial): rotating A → B and then B → A restores the coordinates when the two
centres share their right ascension or their declination.  Missing: both differ
(`C19_roundtrip_false`). -/
theorem C19_roundtrip_partial (a b : Coord) (h : a.ra = b.ra ∨ a.dec = b.dec) (n : Nat)
    (inp : Arr ℝ) (hi : inp.size = n * 3) :
    ∃ r r', rotateUvw n (mat a b) none inp = some r ∧ rotateUvw n (mat b a) none r = some r' ∧
      ∀ k < n, ∀ i, triple r' k i = triple inp k i := by
  obtain ⟨r, hr, hrs, hv, -⟩ := rotateUvw_spec (mat a b) none n inp (by omega) (by simp)
  obtain ⟨r', hr', -, hv', -⟩ := rotateUvw_spec (mat b a) none n r (by omega) (by simp)
  refine ⟨r, r', hr, hr', fun k hk i => ?_⟩
  rw [hv' k hk]
  simp only [Option.getD_none] at *
  rw [show triple r k = apply (mat a b) (triple inp k) from funext (hv k hk)]
  set x := triple inp k
  have e1 : -(a.ra - b.ra) = -(-(b.ra - a.ra)) := by ring
  have hsd : Real.sin (a.dec - b.dec) = -Real.sin (b.dec - a.dec) := by
    rw [← Real.sin_neg]; congr 1; ring
  have hcd : Real.cos (a.dec - b.dec) = Real.cos (b.dec - a.dec) := by
    rw [← Real.cos_neg]; congr 1; ring
  have h1 := Real.sin_sq_add_cos_sq (-(b.ra - a.ra))
  have h2 := Real.sin_sq_add_cos_sq (b.dec - a.dec)
  rcases h with h | h
  · have z : -(b.ra - a.ra) = 0 := by rw [h]; ring
    have z' : -(a.ra - b.ra) = 0 := by rw [h]; ring
    fin_cases i
    · simp [apply, mat, z, z']
    · simp [apply, mat, z, z', hsd, hcd]
      linear_combination (x 1) * h2
    · simp [apply, mat, z, z', hsd, hcd]
      linear_combination (x 2) * h2
  · have z : b.dec - a.dec = 0 := by rw [h]; ring
    have z' : a.dec - b.dec = 0 := by rw [h]; ring
    set t := -(b.ra - a.ra) with ht
    fin_cases i
    · simp only [apply, mat, e1, z, z', Real.sin_neg, Real.cos_neg, Real.sin_zero, Real.cos_zero,
        ← ht]
      simp
      linear_combination (x 0) * h1
    · simp [apply, mat, z, z']
    · simp only [apply, mat, e1, z, z', Real.sin_neg, Real.cos_neg, Real.sin_zero, Real.cos_zero,
        ← ht]
      simp
      linear_combination (x 2) * h1

/-- Violation of C19 (4): with both coordinates different the round trip does not restore
the baseline (1, 0, 0). -/
theorem C19_roundtrip_false :
    ∃ (a b : Coord) (inp r r' : Arr ℝ), inp.size = 3 ∧
      rotateUvw 1 (mat a b) none inp = some r ∧ rotateUvw 1 (mat b a) none r = some r' ∧
      triple r' 0 0 ≠ triple inp 0 0 := by
  set a : Coord := ⟨0, 0⟩ with ha
  set b : Coord := ⟨-(Real.pi / 2), Real.pi / 2⟩ with hb
  set inp : Arr ℝ := ⟨3, fun i => if i = 0 then 1 else 0⟩ with hinp
  obtain ⟨r, hr, hrs, hv, -⟩ := rotateUvw_spec (mat a b) none 1 inp (by simp [inp]) (by simp)
  obtain ⟨r', hr', -, hv', -⟩ := rotateUvw_spec (mat b a) none 1 r (by rw [hrs])
    (by simp)
  refine ⟨a, b, inp, r, r', rfl, hr, hr', ?_⟩
  rw [hv' 0 (by omega)]
  simp only [Option.getD_none] at *
  rw [show triple r 0 = apply (mat a b) (triple inp 0) from funext (hv 0 (by omega))]
  have e : ∀ i, triple inp 0 i = if i = 0 then 1 else 0 := by
    intro i; fin_cases i <;> simp [triple, inp]
  have h1 : -(b.ra - a.ra) = Real.pi / 2 := by simp [a, b]
  have h2 : -(a.ra - b.ra) = -(Real.pi / 2) := by simp [a, b]
  have h3 : b.dec - a.dec = Real.pi / 2 := by simp [a, b]
  simp [apply, mat, h1, h2, h3, e, Real.sin_neg, Real.cos_neg]

end
end Sdp.PhaseRotate
