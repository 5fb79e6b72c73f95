import Mathlib.Data.Int.Interval
import Mathlib.Data.Nat.Factorial.Basic
import Mathlib.Analysis.SpecialFunctions.Complex.Log
import Verif.Legendre.Props
import Mathlib.Analysis.Real.Pi.Bounds
import Verif.Element.Wave
import Verif.WTower.Edges

/-!
# C76: the spherical-wave element beam
-/

set_option linter.unusedSectionVars false

namespace Sdp.Element

open Finset Sdp.Legendre
open Sdp.WTower (loop_fail)

noncomputable section

/-! ## Specification -/

/-- Position in the coefficient array of coefficient `c` (TE and TM of X, TE and TM of Y) of degree `l`
and order `m`. -/
def place (l : Nat) (m : Int) (c : Nat) : Nat := (4 * ((l : Int) ^ 2 + l - 1 + m)).toNat + c

/-- Normalisation of a mode. -/
def norm (l m : Nat) : ℝ := Real.sqrt ((2 * l + 1) / (4 * Real.pi * l * (l + 1)) *
  ((l - m).factorial / (l + m).factorial))

/-- `P_l^m(cos t)` as a function of the angle. -/
def legendreAt (l m : Nat) (t : ℝ) : ℝ := assoc l m (Real.cos t) (Real.sin t)

/-- Phase factor with normalisation. -/
def phase (l : Nat) (m : Int) (phi : ℝ) : ℂ := norm l m.natAbs * Complex.exp (Complex.I * m * phi)

/-- Theta component of a mode: `i m P / sin` for TM, `dP/dtheta` for TE. -/
def modeTheta (l : Nat) (m : Int) (t phi : ℝ) (te tm : ℂ) : ℂ :=
  phase l m phi * (Complex.I * m * (legendreAt l m.natAbs t / Real.sin t : ℝ) * tm +
    (deriv (legendreAt l m.natAbs) t : ℝ) * te)

/-- Phi component of a mode: `dP/dtheta` for TM, minus `i m P / sin` for TE. -/
def modePhi (l : Nat) (m : Int) (t phi : ℝ) (te tm : ℂ) : ℂ :=
  phase l m phi * ((deriv (legendreAt l m.natAbs) t : ℝ) * tm -
    Complex.I * m * (legendreAt l m.natAbs t / Real.sin t : ℝ) * te)

/-- The sum over all modes up to degree `L`; antenna `c` is 0 (X) or 2 (Y). -/
def total (L : Nat) (alpha : Arr ℂ) (c : Nat) (mode : Nat → Int → ℂ → ℂ → ℂ) : ℂ :=
  ∑ l ∈ Icc 1 L, ∑ m ∈ Icc (-(l : Int)) l,
    mode l m (alpha.get (place l m c)) (alpha.get (place l m (c + 1)))

/-! ## Coefficients -/

/-- **C76, coefficients.**  Up to degree `L`, each of the first `4 L (L + 2)` coefficients belongs to
exactly one degree, order and kind. -/
theorem C76_place (L : Nat) (j : Nat) (hj : j < 4 * (L * (L + 2))) :
    ∃! x : Nat × Int × Nat, 1 ≤ x.1 ∧ x.1 ≤ L ∧ -(x.1 : Int) ≤ x.2.1 ∧ x.2.1 ≤ x.1 ∧ x.2.2 < 4 ∧
      place x.1 x.2.1 x.2.2 = j := by
  obtain ⟨l, h1, h2⟩ : ∃ l, l ^ 2 ≤ j / 4 + 1 ∧ j / 4 + 1 < (l + 1) ^ 2 :=
    ⟨Nat.sqrt (j / 4 + 1), Nat.sqrt_le' _, Nat.lt_succ_sqrt' _⟩
  have hl1 : 1 ≤ l := by
    rcases Nat.eq_zero_or_pos l with h | h
    · subst h; omega
    · exact h
  have hlL : l ≤ L := by
    by_contra hc
    have h3 : L + 1 ≤ l := by omega
    have h4 := Nat.pow_le_pow_left h3 2
    have h5 : j / 4 < L * (L + 2) := by omega
    nlinarith
  have e2 : (l + 1) ^ 2 = l ^ 2 + 2 * l + 1 := by ring
  have hpos : (1 : Int) ≤ (l : Int) ^ 2 := by
    have : 1 ≤ l ^ 2 := Nat.one_le_pow _ _ hl1
    exact_mod_cast this
  refine ⟨(l, (j / 4 : Nat) + 1 - (l : Int) ^ 2 - l, j % 4), ⟨hl1, hlL, ?_, ?_, Nat.mod_lt _ (by omega), ?_⟩, ?_⟩
  · have : ((l ^ 2 : Nat) : Int) ≤ ((j / 4 + 1 : Nat) : Int) := by exact_mod_cast h1
    push_cast at this ⊢
    omega
  · have : ((j / 4 + 1 : Nat) : Int) < (((l + 1) ^ 2 : Nat) : Int) := by exact_mod_cast h2
    rw [e2] at this
    push_cast at this ⊢
    omega
  · unfold place
    simp only
    rw [show (4 * ((l : Int) ^ 2 + l - 1 + (((j / 4 : Nat) : Int) + 1 - (l : Int) ^ 2 - l))) =
      ((4 * (j / 4) : Nat) : Int) by push_cast; ring, Int.toNat_natCast]
    omega
  · rintro ⟨l', m', c'⟩ ⟨g1, g2, g3, g4, g5, g6⟩
    simp only at g1 g2 g3 g4 g5 g6
    unfold place at g6
    have hpos' : (1 : Int) ≤ (l' : Int) ^ 2 := by
      have : 1 ≤ l' ^ 2 := Nat.one_le_pow _ _ g1
      exact_mod_cast this
    have e : (l' : Int) ^ 2 + l' - 1 + m' = ((j / 4 : Nat) : Int) ∧ c' = j % 4 := by omega
    have b1 : l' ^ 2 ≤ j / 4 + 1 := by
      have : ((l' ^ 2 : Nat) : Int) ≤ ((j / 4 + 1 : Nat) : Int) := by
        have e3 : ((l' ^ 2 : Nat) : Int) = (l' : Int) ^ 2 := by push_cast; rfl
        rw [e3]
        push_cast
        omega
      exact_mod_cast this
    have b2 : j / 4 + 1 < (l' + 1) ^ 2 := by
      have : ((j / 4 + 1 : Nat) : Int) < (((l' + 1) ^ 2 : Nat) : Int) := by
        rw [show (l' + 1) ^ 2 = l' ^ 2 + 2 * l' + 1 by ring]
        have e3 : ((l' ^ 2 + 2 * l' + 1 : Nat) : Int) = (l' : Int) ^ 2 + 2 * l' + 1 := by push_cast; rfl
        rw [e3]
        push_cast
        omega
      exact_mod_cast this
    have hll : l' = l := by
      have c1 : l' < l + 1 := lt_of_pow_lt_pow_left₀ 2 (by omega) (lt_of_le_of_lt b1 h2)
      have c2 : l < l' + 1 := lt_of_pow_lt_pow_left₀ 2 (by omega) (lt_of_le_of_lt h1 b2)
      omega
    subst hll
    refine Prod.ext rfl (Prod.ext ?_ e.2)
    simp only
    omega

theorem place_lt (L l : Nat) (m : Int) (c : Nat) (h1 : 1 ≤ l) (h2 : l ≤ L) (h3 : -(l : Int) ≤ m)
    (h4 : m ≤ l) (hc : c < 4) :
    place l m c < 4 * (L * (L + 2)) ∧
      4 * ((l : Int) * l - 1 + l + m) + c = ((place l m c : Nat) : Int) := by
  have hpos : (1 : Int) ≤ (l : Int) ^ 2 := by
    have : 1 ≤ l ^ 2 := Nat.one_le_pow _ _ h1
    exact_mod_cast this
  have e : (((4 * ((l : Int) ^ 2 + l - 1 + m)).toNat : Nat) : Int) = 4 * ((l : Int) ^ 2 + l - 1 + m) :=
    Int.toNat_of_nonneg (by omega)
  have hLL : l * (l + 2) ≤ L * (L + 2) := Nat.mul_le_mul h2 (by omega)
  constructor
  · have : ((place l m c : Nat) : Int) < ((4 * (L * (L + 2)) : Nat) : Int) := by
      have g : ((l * (l + 2) : Nat) : Int) ≤ ((L * (L + 2) : Nat) : Int) := by exact_mod_cast hLL
      have g2 : ((l * (l + 2) : Nat) : Int) = (l : Int) ^ 2 + 2 * l := by push_cast; ring
      rw [g2] at g
      unfold place
      rw [Nat.cast_add, Nat.cast_mul, e]
      push_cast at g ⊢
      omega
    exact_mod_cast this
  · unfold place
    rw [Nat.cast_add, e]
    ring

/-! ## Values -/

theorem fact_eq (n : Nat) : fact n = n.factorial := by
  unfold fact
  rcases n with _ | n
  · simp
  · rw [show n + 1 + 1 - 2 = n by omega]
    induction n with
    | zero => simp
    | succ n ih =>
      rw [List.range'_concat, List.foldl_append, ih]
      simp only [List.foldl_cons, List.foldl_nil, one_mul]
      rw [Nat.factorial_succ (n + 1)]
      push_cast
      ring

theorem exp_parts (a : ℝ) (r : ℝ) (m : Int) (h : a = m * r) :
    Complex.exp (Complex.I * m * r) = ⟨Real.cos a, Real.sin a⟩ := by
  rw [show Complex.I * (m : ℂ) * (r : ℂ) = ((a : ℝ) : ℂ) * Complex.I by rw [h]; push_cast; ring,
    Complex.exp_mul_I]
  apply Complex.ext <;> simp [-Complex.ofReal_cos, -Complex.ofReal_sin, Complex.cos_ofReal_re,
    Complex.sin_ofReal_re, Complex.cos_ofReal_im, Complex.sin_ofReal_im]

theorem harp_eq (l : Nat) (m : Int) (t phi a : ℝ) (te tm : ℂ) (ha : a = m * phi) (hm : m.natAbs ≤ l)
    (hs : Real.sin t ≠ 0) :
    harp (m : ℝ) (Real.cos a * norm l m.natAbs) (Real.sin a * norm l m.natAbs)
      (legendre2 l m.natAbs (Real.cos t) (Real.sin t)).2.1
      (legendre2 l m.natAbs (Real.cos t) (Real.sin t)).2.2 te tm =
      (modeTheta l m t phi te tm, modePhi l m t phi te tm) := by
  have h1 := C54_ratio l m.natAbs hm (Real.cos t) (Real.sin t) hs
  have h2 : deriv (legendreAt l m.natAbs) t = -(legendre2 l m.natAbs (Real.cos t) (Real.sin t)).2.2 := by
    rw [out2_spec l m.natAbs hm _ _ hs]
    exact (angle_deriv l m.natAbs t hs).deriv
  rw [h1]
  unfold harp modeTheta modePhi phase
  rw [h2, exp_parts a phi m ha]
  simp only
  have q : ∀ c s N D : ℝ, (⟨-(c * N) * D, -(s * N) * D⟩ : ℂ) = (N : ℂ) * ⟨c, s⟩ * ((-D : ℝ) : ℂ) := by
    intro c s N D
    apply Complex.ext
    · simp only [Complex.mul_re, Complex.mul_im, Complex.ofReal_re, Complex.ofReal_im]; ring
    · simp only [Complex.mul_re, Complex.mul_im, Complex.ofReal_re, Complex.ofReal_im]; ring
  have d : ∀ c s N R M : ℝ, (⟨-(s * N) * R * M, (c * N) * R * M⟩ : ℂ) =
      (N : ℂ) * ⟨c, s⟩ * (Complex.I * ((M : ℝ) : ℂ) * ((R : ℝ) : ℂ)) := by
    intro c s N R M
    apply Complex.ext
    · simp only [Complex.mul_re, Complex.mul_im, Complex.ofReal_re, Complex.ofReal_im, Complex.I_re,
        Complex.I_im]; ring
    · simp only [Complex.mul_re, Complex.mul_im, Complex.ofReal_re, Complex.ofReal_im, Complex.I_re,
        Complex.I_im]; ring
  unfold legendreAt
  rw [q, d, Complex.ofReal_intCast]
  refine Prod.ext ?_ ?_
  · simp only; ring
  · simp only; ring

/-- What one degree and order adds to the four sums. -/
def contrib (alpha : Arr ℂ) (t phiX phiY : ℝ) (l : Nat) (m : Int) : Sums :=
  (modeTheta l m t phiX (alpha.get (place l m 0)) (alpha.get (place l m 1)),
    modePhi l m t phiX (alpha.get (place l m 0)) (alpha.get (place l m 1)),
    modeTheta l m t phiY (alpha.get (place l m 2)) (alpha.get (place l m 3)),
    modePhi l m t phiY (alpha.get (place l m 2)) (alpha.get (place l m 3)))

theorem coeffs_ok (alpha : Arr ℂ) (L l : Nat) (m : Int) (h1 : 1 ≤ l) (h2 : l ≤ L)
    (h3 : -(l : Int) ≤ m) (h4 : m ≤ l) (ha : 4 * (L * (L + 2)) ≤ alpha.size) :
    coeffs alpha (4 * ((l : Int) * l - 1 + l + m)) =
      some (alpha.get (place l m 0), alpha.get (place l m 1), alpha.get (place l m 2),
        alpha.get (place l m 3)) := by
  have p : ∀ c : Nat, c < 4 → alpha.read (4 * ((l : Int) * l - 1 + l + m) + c) =
      some (alpha.get (place l m c)) := by
    intro c hc
    obtain ⟨q1, q2⟩ := place_lt L l m c h1 h2 h3 h4 hc
    rw [q2, Arr.read_nat, if_pos (by omega)]
  unfold coeffs
  have p0 := p 0 (by omega)
  have p1 := p 1 (by omega)
  have p2 := p 2 (by omega)
  have p3 := p 3 (by omega)
  push_cast at p0 p1 p2 p3
  rw [p0, p1, p2, p3]
  rfl

theorem addXY_eq (s : Sums) (a b c d : ℂ) : addXY s (a, b) (c, d) = s + ((a, b, c, d) : Sums) := rfl

theorem norm_zero (l : Nat) : norm l 0 = Real.sqrt (fl l) := by
  unfold norm fl
  congr 1
  rw [Nat.sub_zero, Nat.add_zero, div_self, mul_one]
  exact_mod_cast l.factorial_ne_zero

theorem norm_eq (l m : Nat) : norm l m = Real.sqrt (fl l * fact (l - m) / fact (l + m)) := by
  unfold norm fl
  rw [fact_eq, fact_eq, mul_div_assoc]

theorem stepM_ok (alpha : Arr ℂ) (L l : Nat) (h1 : 1 ≤ l) (h2 : l ≤ L)
    (ha : 4 * (L * (L + 2)) ≤ alpha.size) (t phiX phiY : ℝ) (hs : Real.sin t ≠ 0) (m : Nat) (hm : m ≤ l)
    (s : Sums) :
    stepM alpha (Real.sin t) (Real.cos t) phiX phiY l s m = some (s +
      if m = 0 then contrib alpha t phiX phiY l 0
      else contrib alpha t phiX phiY l (-(m : Int)) + contrib alpha t phiX phiY l m) := by
  unfold stepM
  simp only
  by_cases hm0 : m = 0
  · subst hm0
    rw [if_pos rfl, if_pos rfl]
    have c := coeffs_ok alpha L l 0 h1 h2 (by omega) (by omega) ha
    rw [add_zero] at c
    rw [c, Option.map_some]
    have hx := fun (phi : ℝ) (te tm : ℂ) => harp_eq l 0 t phi 0 te tm (by simp) (by simp) hs
    simp only [Int.natAbs_zero, Int.cast_zero, Real.cos_zero, Real.sin_zero, one_mul, zero_mul] at hx
    simp only
    rw [← norm_zero, hx phiX, hx phiY, addXY_eq]
    rfl
  · rw [if_neg hm0, if_neg hm0]
    have cm := coeffs_ok alpha L l (-(m : Int)) h1 h2 (by omega) (by omega) ha
    have cp := coeffs_ok alpha L l m h1 h2 (by omega) (by omega) ha
    rw [← sub_eq_add_neg] at cm
    rw [cm, Option.bind_some, cp, Option.map_some]
    have hx := fun (phi : ℝ) (te tm : ℂ) => harp_eq l (-(m : Int)) t phi (-(m : ℝ) * phi) te tm
      (by push_cast; ring) (by simpa using hm) hs
    have hy := fun (phi : ℝ) (te tm : ℂ) => harp_eq l (m : Int) t phi ((m : ℝ) * phi) te tm
      (by push_cast; ring) (by simpa using hm) hs
    simp only [Int.natAbs_neg, Int.natAbs_natCast, Int.cast_neg, Int.cast_natCast] at hx hy
    simp only [← norm_eq]
    rw [hx phiX, hx phiY, addXY_eq]
    have hc : ∀ phi : ℝ, Real.cos (-(m : ℝ) * phi) * norm l m = Real.cos ((m : ℝ) * phi) * norm l m := by
      intro phi; rw [neg_mul, Real.cos_neg]
    have hsn : ∀ phi : ℝ, -(Real.sin (-(m : ℝ) * phi) * norm l m) = Real.sin ((m : ℝ) * phi) * norm l m := by
      intro phi; rw [neg_mul, Real.sin_neg]; ring
    rw [hc, hc, hsn, hsn, hy phiX, hy phiY, addXY_eq, add_assoc]
    rfl

theorem loop_sum {α M : Type} [AddCommMonoid M] (l : List α) (f : M → α → Option M) (g : α → M)
    (h : ∀ x ∈ l, ∀ acc, f acc x = some (acc + g x)) (m : M) :
    loop f m l = some (m + (l.map g).sum) := by
  induction l generalizing m with
  | nil => simp [loop]
  | cons x l ih =>
    simp only [loop]
    rw [h x (by simp)]
    simp only [Option.bind_some]
    rw [ih (fun y hy => h y (by simp [hy]))]
    simp [add_assoc]

theorem sum_orders {M : Type} [AddCommMonoid M] (g : Int → M) (n : Nat) :
    ∑ m ∈ Icc (-(n : Int)) n, g m =
      ∑ k ∈ range (n + 1), if k = 0 then g 0 else g (-(k : Int)) + g k := by
  induction n with
  | zero => simp
  | succ n ih =>
    rw [sum_range_succ, ← ih]
    have e : Icc (-((n + 1 : Nat) : Int)) ((n + 1 : Nat) : Int) =
        insert (-((n + 1 : Nat) : Int)) (insert ((n + 1 : Nat) : Int) (Icc (-(n : Int)) n)) := by
      ext x
      simp only [mem_Icc, mem_insert]
      push_cast
      omega
    rw [e, sum_insert, sum_insert, if_neg (by omega)]
    · rw [add_comm (∑ m ∈ Icc (-(n : Int)) n, g m), add_assoc]
    · rw [mem_Icc]; push_cast; omega
    · rw [mem_insert, mem_Icc]; push_cast; omega

theorem sums_ok (alpha : Arr ℂ) (L : Nat) (ha : 4 * (L * (L + 2)) ≤ alpha.size) (t phiX phiY : ℝ)
    (hs : Real.sin t ≠ 0) :
    sums alpha (Real.sin t) (Real.cos t) phiX phiY L =
      some (∑ l ∈ Icc 1 L, ∑ m ∈ Icc (-(l : Int)) l, contrib alpha t phiX phiY l m) := by
  unfold sums
  rw [loop_sum _ _ (fun l : Nat => ∑ m ∈ Icc (-(l : Int)) l, contrib alpha t phiX phiY l m), zero_add]
  · congr 1
  · intro l hl acc
    rw [List.mem_range'_1] at hl
    rw [loop_sum _ _ (fun m : Nat => if m = 0 then contrib alpha t phiX phiY l 0
      else contrib alpha t phiX phiY l (-(m : Int)) + contrib alpha t phiX phiY l m)]
    · rw [sum_orders, List.map_reverse, List.sum_reverse, list_sum_range]
    · intro m hm s
      rw [List.mem_reverse, List.mem_range] at hm
      exact stepM_ok alpha L l hl.1 (by omega) ha t phiX phiY hs m (by omega) s

/-- Components of the total. -/
theorem total_fst (alpha : Arr ℂ) (L : Nat) (t phiX phiY : ℝ) :
    (∑ l ∈ Icc 1 L, ∑ m ∈ Icc (-(l : Int)) l, contrib alpha t phiX phiY l m) =
      (total L alpha 0 (fun l m => modeTheta l m t phiX), total L alpha 0 (fun l m => modePhi l m t phiX),
        total L alpha 2 (fun l m => modeTheta l m t phiY), total L alpha 2 (fun l m => modePhi l m t phiY)) := by
  unfold total
  refine Prod.ext ?_ (Prod.ext ?_ (Prod.ext ?_ ?_)) <;>
    simp only [Prod.fst_sum, Prod.snd_sum, contrib]

/-- **C76.**  For every maximum degree, every direction and every order of the points, the four outputs
of a point are, for X and then Y, the phi and the theta component of the sum over all degrees and
orders of the modes with their coefficients; nothing else is written.  The angle is the one given, or
1e-5 if that is less. -/
theorem C76_wave (theta phiX phiY : Arr ℝ) (L n : Nat) (alpha : Arr ℂ) (offset : Nat) (out : Arr ℂ)
    (ha : 4 * (L * (L + 2)) ≤ alpha.size) (ht : n ≤ theta.size) (hx : n ≤ phiX.size) (hy : n ≤ phiY.size)
    (ho : 4 * (n + offset) ≤ out.size) (hsin : ∀ i, i < n → Real.sin (max (theta.get i) 1e-5) ≠ 0)
    (order : List Nat) (horder : order.Perm (List.range n)) :
    ∃ r, wave theta phiX phiY L alpha offset out order = some r ∧ r.size = out.size ∧
      (∀ i, i < n →
        r.get (4 * (i + offset)) = total L alpha 0 (fun l m => modePhi l m (max (theta.get i) 1e-5) (phiX.get i)) ∧
        r.get (4 * (i + offset) + 1) =
          total L alpha 0 (fun l m => modeTheta l m (max (theta.get i) 1e-5) (phiX.get i)) ∧
        r.get (4 * (i + offset) + 2) =
          total L alpha 2 (fun l m => modePhi l m (max (theta.get i) 1e-5) (phiY.get i)) ∧
        r.get (4 * (i + offset) + 3) =
          total L alpha 2 (fun l m => modeTheta l m (max (theta.get i) 1e-5) (phiY.get i))) ∧
      ∀ j, j < 4 * offset ∨ 4 * (n + offset) ≤ j → r.get j = out.get j := by
  have hclamp : ∀ t : ℝ, clampTheta t = max t 1e-5 := by
    intro t
    unfold clampTheta
    rw [show (1 / 100000 : ℝ) = 1e-5 by norm_num]
    split_ifs with h
    · rw [max_eq_right h.le]
    · rw [max_eq_left (not_lt.1 h)]
  have hmem : ∀ i ∈ order, i < n := fun i hi => List.mem_range.1 (horder.mem_iff.1 hi)
  have hnd : order.Nodup := horder.nodup_iff.2 List.nodup_range
  let V : Nat → Nat → ℂ := fun i c => match c with
    | 0 => total L alpha 0 (fun l m => modePhi l m (max (theta.get i) 1e-5) (phiX.get i))
    | 1 => total L alpha 0 (fun l m => modeTheta l m (max (theta.get i) 1e-5) (phiX.get i))
    | 2 => total L alpha 2 (fun l m => modePhi l m (max (theta.get i) 1e-5) (phiY.get i))
    | _ => total L alpha 2 (fun l m => modeTheta l m (max (theta.get i) 1e-5) (phiY.get i))
  obtain ⟨r, r1, r2, r3, r4⟩ := loop_inv (waveAt theta phiX phiY L alpha offset)
    (fun done r => r.size = out.size ∧ (∀ i ∈ done, ∀ c, c < 4 → r.get (4 * (i + offset) + c) = V i c) ∧
      ∀ j, (∀ i ∈ done, ∀ c, c < 4 → j ≠ 4 * (i + offset) + c) → r.get j = out.get j)
    order out ⟨rfl, by simp, fun _ _ => rfl⟩ (by
      intro done i rest s hsplit hP
      have hi := hmem i (by rw [hsplit]; simp)
      have hnot : i ∉ done := by
        rw [hsplit, List.nodup_append] at hnd
        intro hd
        exact hnd.2.2 i hd i (by simp) rfl
      unfold waveAt
      rw [Arr.read_nat, if_pos (by omega), Option.bind_some, Arr.read_nat, if_pos (by omega),
        Option.bind_some, Arr.read_nat, if_pos (by omega), Option.bind_some, hclamp,
        sums_ok alpha L ha _ _ _ (hsin i hi), Option.bind_some, total_fst]
      simp only
      rw [show (4 * ((i : Int) + (offset : Int)) + 0) = ((4 * (i + offset) : Nat) : Int) by push_cast; ring,
        show (4 * ((i : Int) + (offset : Int)) + 1) = ((4 * (i + offset) + 1 : Nat) : Int) by push_cast; ring,
        show (4 * ((i : Int) + (offset : Int)) + 2) = ((4 * (i + offset) + 2 : Nat) : Int) by push_cast; ring,
        show (4 * ((i : Int) + (offset : Int)) + 3) = ((4 * (i + offset) + 3 : Nat) : Int) by push_cast; ring,
        Arr.write_nat, if_pos (by rw [hP.1]; omega), Option.bind_some,
        Arr.write_nat, if_pos (by simp only [Arr.put_size]; rw [hP.1]; omega), Option.bind_some,
        Arr.write_nat, if_pos (by simp only [Arr.put_size]; rw [hP.1]; omega), Option.bind_some,
        Arr.write_nat, if_pos (by simp only [Arr.put_size]; rw [hP.1]; omega)]
      refine ⟨_, rfl, hP.1, ?_, ?_⟩
      · intro j hj c hc
        simp only [Arr.put_get]
        by_cases hij : j = i
        · subst hij
          have : c = 0 ∨ c = 1 ∨ c = 2 ∨ c = 3 := by omega
          rcases this with rfl | rfl | rfl | rfl
          · rw [if_neg (by omega), if_neg (by omega), if_neg (by omega), if_pos (by omega)]; rfl
          · rw [if_neg (by omega), if_neg (by omega), if_pos (by omega)]; rfl
          · rw [if_neg (by omega), if_pos (by omega)]; rfl
          · rw [if_pos (by omega)]; rfl
        · have hj' : j ∈ done := by
            rcases List.mem_append.1 hj with h | h
            · exact h
            · simp at h; exact absurd h hij
          rw [if_neg (by omega), if_neg (by omega), if_neg (by omega), if_neg (by omega)]
          exact hP.2.1 j hj' c hc
      · intro j hj
        have h1 := hj i (by simp)
        have a0 : j ≠ 4 * (i + offset) := h1 0 (by omega)
        have a1 := h1 1 (by omega)
        have a2 := h1 2 (by omega)
        have a3 := h1 3 (by omega)
        simp only [Arr.put_get]
        rw [if_neg a3, if_neg a2, if_neg a1, if_neg a0]
        exact hP.2.2 j fun i' hi' => hj i' (by simp [hi']))
  refine ⟨r, r1, r2, fun i hi => ?_, fun j hj => r4 j fun i hi c hc => ?_⟩
  · have := r3 i (horder.mem_iff.2 (List.mem_range.2 hi))
    exact ⟨this 0 (by omega), this 1 (by omega), this 2 (by omega), this 3 (by omega)⟩
  · have := hmem i hi
    omega

/-- **C76, linearity in the coefficients.** -/
theorem C76_linear (L : Nat) (alpha a b : Arr ℂ) (z : ℂ) (h : ∀ j, alpha.get j = z * a.get j + b.get j)
    (c : Nat) (t phi : ℝ) :
    total L alpha c (fun l m => modeTheta l m t phi) =
      z * total L a c (fun l m => modeTheta l m t phi) + total L b c (fun l m => modeTheta l m t phi) ∧
    total L alpha c (fun l m => modePhi l m t phi) =
      z * total L a c (fun l m => modePhi l m t phi) + total L b c (fun l m => modePhi l m t phi) := by
  unfold total
  constructor <;>
  · rw [mul_sum, ← sum_add_distrib]
    apply sum_congr rfl; intro l _
    rw [mul_sum, ← sum_add_distrib]
    apply sum_congr rfl; intro m _
    rw [h, h]
    simp only [modeTheta, modePhi]
    ring

/-- **C76, directions.**  For every angle from the zenith up to but not including the nadir the condition
of `C76_wave` on the sine holds: the zenith itself is handled by the lower limit 1e-5. -/
theorem C76_directions (t : ℝ) (h : t < Real.pi) : Real.sin (max t 1e-5) ≠ 0 := by
  have h5 : (1e-5 : ℝ) < Real.pi := by
    have := Real.pi_gt_three
    norm_num
    linarith
  exact (Real.sin_pos_of_pos_of_lt_pi (lt_of_lt_of_le (by norm_num) (le_max_right _ _)) (max_lt h h5)).ne'

/-- **C76, violated.**  The function does not look at the size of the coefficient array: with at least
one point and fewer than `4 L (L + 2)` coefficients it reads beyond the end, for every degree,
direction and order of the points. -/
theorem C76_short_false (theta phiX phiY : Arr ℝ) (L n : Nat) (alpha : Arr ℂ) (offset : Int) (out : Arr ℂ)
    (hL : 1 ≤ L) (ha : alpha.size < 4 * (L * (L + 2))) (hn : 1 ≤ n) (order : List Nat)
    (horder : order.Perm (List.range n)) :
    wave theta phiX phiY L alpha offset out order = none := by
  unfold wave
  refine loop_fail _ 0 (fun s => ?_) _ _ (horder.mem_iff.2 (List.mem_range.2 hn))
  unfold waveAt
  have hc : coeffs alpha (4 * ((L : Int) * L - 1 + L + L)) = none := by
    unfold coeffs
    have e : alpha.read (4 * ((L : Int) * L - 1 + L + L) + 3) = none := by
      have q : (4 * ((L : Int) * L - 1 + L + L) + 3) = ((4 * (L * (L + 2)) - 1 : Nat) : Int) := by
        have : 1 ≤ L * (L + 2) := Nat.mul_pos hL (by omega)
        have q2 : ((L * (L + 2) : Nat) : Int) = (L : Int) * L + L + L := by push_cast; ring
        omega
      rw [q, Arr.read_nat, if_neg (by omega)]
    rw [e]
    cases alpha.read (4 * ((L : Int) * L - 1 + L + L) + 0) <;>
    cases alpha.read (4 * ((L : Int) * L - 1 + L + L) + 1) <;>
    cases alpha.read (4 * ((L : Int) * L - 1 + L + L) + 2) <;> rfl
  have hsum : ∀ a b x y : ℝ, sums alpha a b x y L = none := by
    intro a b x y
    unfold sums
    refine loop_fail _ L (fun s => ?_) _ _ (by rw [List.mem_range'_1]; omega)
    refine loop_fail _ L (fun s => ?_) _ _ (by simp)
    unfold stepM
    simp only
    rw [if_neg (by omega), hc]
    cases coeffs alpha (4 * ((L : Int) * L - 1 + L - L)) <;> rfl
  cases theta.read (0 : Nat) with
  | none => rfl
  | some t =>
    cases phiX.read (0 : Nat) with
    | none => rfl
    | some px =>
      cases phiY.read (0 : Nat) with
      | none => rfl
      | some py =>
        simp only [Option.bind_some]
        rw [hsum]
        rfl

/-- Two points, degree 2 (32 coefficients), an offset of one point: the conditions of `C76_wave` hold. -/
example : ∃ (theta phiX phiY : Arr ℝ) (alpha out : Arr ℂ) (order : List Nat),
    4 * (2 * (2 + 2)) ≤ alpha.size ∧ 2 ≤ theta.size ∧ 2 ≤ phiX.size ∧ 2 ≤ phiY.size ∧
      4 * (2 + 1) ≤ out.size ∧ (∀ i, i < 2 → Real.sin (max (theta.get i) 1e-5) ≠ 0) ∧
      order.Perm (List.range 2) ∧ order = [1, 0] :=
  ⟨⟨2, fun i => i⟩, ⟨2, fun _ => 1⟩, ⟨2, fun _ => 2⟩, ⟨32, fun i => i⟩, ⟨12, fun _ => 0⟩, [1, 0],
    by decide, by decide, by decide, by decide, by decide,
    fun i hi => C76_directions _ (by
      have h : (i : ℝ) ≤ 1 := by exact_mod_cast (by omega : i ≤ 1)
      have := Real.pi_gt_three
      show (i : ℝ) < Real.pi
      linarith),
    by decide, rfl⟩

/-- The first coefficient of degree 2, order -2, and the last of degree 2, order 2. -/
example : place 2 (-2) 0 = 12 ∧ place 2 2 3 = 31 := by decide

end

end Sdp.Element
