import Verif.Pswf.Sturm
import Mathlib.Analysis.Matrix.Order
import Mathlib.Algebra.BigOperators.Fin

/-!
# Least eigenvalues of tridiagonal matrices
-/

namespace Sdp.Pswf
open Matrix

/-- Row `i` of the tridiagonal matrix times `z`. -/
noncomputable def row (T : Tri) (z : Nat → ℝ) (i : Nat) : ℝ :=
  T.d i * z i + T.e (i + 1) * z (i + 1) + (if i = 0 then 0 else T.e i * z (i - 1))

theorem sum_row (T : Tri) (z : Nat → ℝ) (n : Nat) :
    ∑ i ∈ Finset.range (n + 1), z i * row T z i = form T 0 z n + T.e (n + 1) * z n * z (n + 1) := by
  induction n with
  | zero => simp only [Finset.sum_range_succ, Finset.sum_range_zero, row, form, if_true]; ring
  | succ n ih =>
    rw [Finset.sum_range_succ, ih]
    simp only [form, row]
    rw [if_neg (by omega), Nat.add_sub_cancel]
    ring

theorem sum_len2 (z : Nat → ℝ) (n : Nat) : ∑ i ∈ Finset.range (n + 1), z i * z i = len2 z n := by
  induction n with
  | zero => simp only [Finset.sum_range_succ, Finset.sum_range_zero, len2]; ring
  | succ n ih => rw [Finset.sum_range_succ, ih]; simp only [len2]; ring

/-- The matrix of the first `n + 1` rows. -/
noncomputable def mat (T : Tri) (n : Nat) : Matrix (Fin (n + 1)) (Fin (n + 1)) ℝ := fun i j =>
  (if (j : Nat) = i then T.d i else 0) + (if (j : Nat) = i + 1 then T.e j else 0) +
    (if (i : Nat) = j + 1 then T.e i else 0)

theorem mat_hermitian (T : Tri) (n : Nat) : (mat T n).IsHermitian := by
  ext i j
  simp only [conjTranspose_apply, star_trivial, mat]
  by_cases h : (i : Nat) = j
  · rw [h]
  · have h1 : ¬ (j : Nat) = i := fun e => h e.symm
    simp only [h, h1, if_false]
    ring

/-- A vector continued by zeros. -/
def ext0 {n : Nat} (v : Fin (n + 1) → ℝ) (i : Nat) : ℝ := if h : i < n + 1 then v ⟨i, h⟩ else 0

theorem ext0_fin {n : Nat} (v : Fin (n + 1) → ℝ) (i : Fin (n + 1)) : ext0 v i = v i := by
  unfold ext0
  rw [dif_pos i.2]

theorem mulVec_row (T : Tri) (n : Nat) (v : Fin (n + 1) → ℝ) (i : Fin (n + 1)) :
    (mat T n *ᵥ v) i = row T (ext0 v) i := by
  have e : (mat T n *ᵥ v) i = ∑ j ∈ Finset.range (n + 1),
      ((if j = (i : Nat) then T.d i else 0) + (if j = (i : Nat) + 1 then T.e j else 0) +
        (if (i : Nat) = j + 1 then T.e i else 0)) * ext0 v j := by
    rw [Finset.sum_range]
    simp only [mulVec, dotProduct, mat]
    refine Finset.sum_congr rfl fun j _ => ?_
    rw [ext0_fin]
  rw [e]
  simp only [add_mul, Finset.sum_add_distrib, ite_mul, zero_mul]
  unfold row
  congr 1
  · congr 1
    · rw [Finset.sum_ite_eq', if_pos (Finset.mem_range.2 i.2)]
    · rw [Finset.sum_ite_eq']
      by_cases h : (i : Nat) + 1 ∈ Finset.range (n + 1)
      · rw [if_pos h]
      · rw [if_neg h, ext0, dif_neg (by simpa using h), mul_zero]
  · by_cases h : (i : Nat) = 0
    · rw [if_pos h]
      refine Finset.sum_eq_zero fun j _ => ?_
      rw [if_neg (by omega)]
    · rw [if_neg h, Finset.sum_eq_single_of_mem ((i : Nat) - 1) (by rw [Finset.mem_range]; have := i.2; omega)]
      · rw [if_pos (by omega)]
      · intro j _ hj
        rw [if_neg (by omega)]

theorem dot_form (T : Tri) (n : Nat) (v : Fin (n + 1) → ℝ) : v ⬝ᵥ (mat T n *ᵥ v) = form T 0 (ext0 v) n := by
  have : v ⬝ᵥ (mat T n *ᵥ v) = ∑ i ∈ Finset.range (n + 1), ext0 v i * row T (ext0 v) i := by
    rw [Finset.sum_range]
    simp only [dotProduct]
    refine Finset.sum_congr rfl fun i _ => ?_
    rw [mulVec_row, ext0_fin]
  rw [this, sum_row]
  have h0 : ext0 v (n + 1) = 0 := dif_neg (by omega)
  rw [h0]
  ring

theorem dot_len2 {n : Nat} (v : Fin (n + 1) → ℝ) : v ⬝ᵥ v = len2 (ext0 v) n := by
  rw [← sum_len2, Finset.sum_range]
  simp only [dotProduct]
  refine Finset.sum_congr rfl fun i _ => ?_
  rw [ext0_fin]

/-- An eigenvector of the first `n + 1` rows, continued by zeros. -/
def Eigen (T : Tri) (n : Nat) (lam : ℝ) : Prop :=
  ∃ z : Nat → ℝ, (∃ i, z i ≠ 0) ∧ (∀ i, n < i → z i = 0) ∧ ∀ i ≤ n, row T z i = lam * z i

/-- There is a least eigenvalue, and it is the least value of the form. -/
theorem exists_least (T : Tri) (n : Nat) : ∃ lam, Least T n lam ∧ Eigen T n lam := by
  have hA := mat_hermitian T n
  obtain ⟨i0, -, hmin⟩ := Finset.exists_min_image Finset.univ hA.eigenvalues ⟨0, Finset.mem_univ _⟩
  have hps : (mat T n - (algebraMap ℝ (Matrix (Fin (n + 1)) (Fin (n + 1)) ℝ)) (hA.eigenvalues i0)).PosSemidef := by
    rw [posSemidef_iff_isHermitian_and_spectrum_nonneg]
    constructor
    · refine hA.sub ?_
      rw [Matrix.algebraMap_eq_diagonal]
      exact isHermitian_diagonal _
    · rw [← spectrum.sub_singleton_eq]
      rintro x ⟨y, hy, z, hz, rfl⟩
      rw [hA.spectrum_real_eq_range_eigenvalues] at hy
      obtain ⟨j, rfl⟩ := hy
      rw [Set.mem_singleton_iff] at hz
      subst hz
      have := hmin j (Finset.mem_univ _)
      show (0 : ℝ) ≤ _ - _
      exact sub_nonneg.2 this
  have hform : ∀ v : Fin (n + 1) → ℝ, hA.eigenvalues i0 * len2 (ext0 v) n ≤ form T 0 (ext0 v) n := by
    intro v
    have := hps.dotProduct_mulVec_nonneg v
    rw [sub_mulVec, dotProduct_sub, star_trivial, dot_form, Algebra.algebraMap_eq_smul_one, smul_mulVec, one_mulVec,
      dotProduct_smul, dot_len2, smul_eq_mul] at this
    linarith
  have hev := hA.mulVec_eigenvectorBasis i0
  have hne : (⇑(hA.eigenvectorBasis i0) : Fin (n + 1) → ℝ) ≠ 0 :=
    (WithLp.ofLp_eq_zero 2).ne.2 (hA.eigenvectorBasis.orthonormal.ne_zero i0)
  generalize (⇑(hA.eigenvectorBasis i0) : Fin (n + 1) → ℝ) = v at hev hne
  obtain ⟨i, hi⟩ := Function.ne_iff.1 hne
  have hi' : ext0 v i ≠ 0 := by rw [ext0_fin]; exact hi
  refine ⟨hA.eigenvalues i0, ⟨fun y => ?_, ext0 v, len2_pos (by have := i.2; omega) hi', ?_⟩,
    ext0 v, ⟨i, hi'⟩, fun j hj => dif_neg (by omega), fun j hj => ?_⟩
  · have := hform fun i => y i
    have e : ∀ j ≤ n, ext0 (fun i : Fin (n + 1) => y i) j = y j := fun j hj => dif_pos (by omega)
    rw [form_congr T 0 n e] at this
    have e2 : len2 (ext0 fun i : Fin (n + 1) => y i) n = len2 y n := by
      rw [← sum_len2, ← sum_len2]
      refine Finset.sum_congr rfl fun j hj => ?_
      rw [e j (by have := Finset.mem_range.1 hj; omega)]
    rw [e2] at this
    exact this
  · rw [← dot_form, hev, dotProduct_smul, dot_len2, smul_eq_mul]
  · have := congrFun hev ⟨j, by omega⟩
    rw [mulVec_row] at this
    rw [this, Pi.smul_apply, smul_eq_mul]
    congr 1
    exact (ext0_fin v ⟨j, by omega⟩).symm

theorem eigen_ge {T : Tri} {n : Nat} {lam mu : ℝ} (h : Least T n lam) (he : Eigen T n mu) : lam ≤ mu := by
  obtain ⟨z, ⟨i, hi⟩, hz, hr⟩ := he
  have hi' : i ≤ n := by
    by_contra hc
    exact hi (hz i (by omega))
  have hpos := len2_pos hi' hi
  have e : form T 0 z n = mu * len2 z n := by
    have := sum_row T z n
    rw [hz (n + 1) (by omega), mul_zero, add_zero] at this
    rw [← this, ← sum_len2, Finset.mul_sum]
    refine Finset.sum_congr rfl fun j hj => ?_
    rw [hr j (by have := Finset.mem_range.1 hj; omega)]
    ring
  have := h.1 z
  rw [e] at this
  exact le_of_mul_le_mul_right this hpos

end Sdp.Pswf
