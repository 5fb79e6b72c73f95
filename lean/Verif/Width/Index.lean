import Verif.Width.Facts
import Verif.Width.Spec

/-
The index macros give row-major positions while the array fits the type.
-/
namespace Sdp.Width

theorem rowMajor1 (n i : Nat) : rowMajor [(n, i)] = i := by
  simp [rowMajor]

theorem rowMajor2 (n m i j : Nat) : rowMajor [(n, i), (m, j)] = i * m + j := by
  simp [rowMajor]

theorem rowMajor3 (n m l i j k : Nat) :
    rowMajor [(n, i), (m, j), (l, k)] = (i * m + j) * l + k := by
  simp [rowMajor]

theorem rowMajor4 (n m l o i j k p : Nat) :
    rowMajor [(n, i), (m, j), (l, k), (o, p)] =
      ((i * m + j) * l + k) * o + p := by
  simp [rowMajor]

theorem rowMajor2_lt {n m i j : Nat} (hi : i < n) (hj : j < m) :
    rowMajor [(n, i), (m, j)] < n * m := by
  rw [rowMajor2]
  exact step_lt n m i j hi hj

theorem rowMajor3_lt {n m l i j k : Nat} (hi : i < n) (hj : j < m)
    (hk : k < l) : rowMajor [(n, i), (m, j), (l, k)] < n * m * l := by
  rw [rowMajor3]
  exact step_lt (n * m) l _ _ (step_lt n m i j hi hj) hk

theorem rowMajor4_lt {n m l o i j k p : Nat} (hi : i < n) (hj : j < m)
    (hk : k < l) (hp : p < o) :
    rowMajor [(n, i), (m, j), (l, k), (o, p)] < n * m * l * o := by
  rw [rowMajor4]
  exact step_lt (n * m * l) o _ _
    (step_lt (n * m) l _ _ (step_lt n m i j hi hj) hk) hp

/-- INDEX_2D. -/
theorem index2_lit (X : Num) (t1 s2 s1 r : Ty) (N2 N1 i2 i1 : Nat)
    (b2 : i2 < N2) (b1 : i1 < N1) (L : Nat) (h : N2 * N1 ≤ L)
    (hL : (L : Int) ≤ (t1.join s2).hi ∧ (L : Int) ≤ ((t1.join s2).join s1).hi ∧
      (t1.join s2).join s1 = r) :
    INDEX_2D X (lit t1 N1) (lit s2 i2) (lit s1 i1) =
      lit r (rowMajor [(N2, i2), (N1, i1)] : Int) := by
  obtain ⟨h1, h2, rfl⟩ := hL
  rw [rowMajor2]
  exact step_lit t1 s2 s1 N2 N1 i2 i1 b2 b1 (by omega) (by omega)

/-- INDEX_3D. -/
theorem index3_lit (X : Num) (t2 t1 s3 s2 s1 r : Ty)
    (N3 N2 N1 i3 i2 i1 : Nat) (b3 : i3 < N3) (b2 : i2 < N2) (b1 : i1 < N1)
    (L : Nat) (h : N3 * N2 * N1 ≤ L)
    (hL : (L : Int) ≤ (t2.join s3).hi ∧ (L : Int) ≤ ((t2.join s3).join s2).hi ∧
      (L : Int) ≤ (t1.join ((t2.join s3).join s2)).hi ∧
      (L : Int) ≤ ((t1.join ((t2.join s3).join s2)).join s1).hi ∧
      (t1.join ((t2.join s3).join s2)).join s1 = r) :
    INDEX_3D X (lit t2 N2) (lit t1 N1) (lit s3 i3) (lit s2 i2) (lit s1 i1) =
      lit r (rowMajor [(N3, i3), (N2, i2), (N1, i1)] : Int) := by
  obtain ⟨h1, h2, h3, h4, rfl⟩ := hL
  have hle : N3 * N2 ≤ N3 * N2 * N1 := Nat.le_mul_of_pos_right _ (by omega)
  unfold INDEX_3D
  rw [step_lit t2 s3 s2 N3 N2 i3 i2 b3 b2 (by omega) (by omega), rowMajor3]
  exact step_lit t1 _ s1 (N3 * N2) N1 _ i1 (step_lt _ _ _ _ b3 b2) b1
    (by omega) (by omega)

/-- INDEX_4D. -/
theorem index4_lit (X : Num) (t3 t2 t1 s4 s3 s2 s1 r : Ty)
    (N4 N3 N2 N1 i4 i3 i2 i1 : Nat) (b4 : i4 < N4) (b3 : i3 < N3)
    (b2 : i2 < N2) (b1 : i1 < N1)
    (L : Nat) (h : N4 * N3 * N2 * N1 ≤ L)
    (hL : (L : Int) ≤ (t3.join s4).hi ∧ (L : Int) ≤ ((t3.join s4).join s3).hi ∧
      (L : Int) ≤ (t2.join ((t3.join s4).join s3)).hi ∧
      (L : Int) ≤ ((t2.join ((t3.join s4).join s3)).join s2).hi ∧
      (L : Int) ≤ (t1.join ((t2.join ((t3.join s4).join s3)).join s2)).hi ∧
      (L : Int) ≤
        ((t1.join ((t2.join ((t3.join s4).join s3)).join s2)).join s1).hi ∧
      (t1.join ((t2.join ((t3.join s4).join s3)).join s2)).join s1 = r) :
    INDEX_4D X (lit t3 N3) (lit t2 N2) (lit t1 N1) (lit s4 i4) (lit s3 i3)
        (lit s2 i2) (lit s1 i1) =
      lit r (rowMajor [(N4, i4), (N3, i3), (N2, i2), (N1, i1)] : Int) := by
  obtain ⟨h1, h2, h3, h4, h5, h6, rfl⟩ := hL
  have hle : N4 * N3 ≤ N4 * N3 * N2 := Nat.le_mul_of_pos_right _ (by omega)
  have hle2 : N4 * N3 * N2 ≤ N4 * N3 * N2 * N1 :=
    Nat.le_mul_of_pos_right _ (by omega)
  unfold INDEX_4D
  rw [step_lit t3 s4 s3 N4 N3 i4 i3 b4 b3 (by omega) (by omega),
    step_lit t2 _ s2 (N4 * N3) N2 _ i2 (step_lt _ _ _ _ b4 b3) b2 (by omega)
      (by omega), rowMajor4]
  exact step_lit t1 _ s1 (N4 * N3 * N2) N1 _ i1
    (step_lt _ _ _ _ (step_lt _ _ _ _ b4 b3) b2) b1 (by omega) (by omega)

theorem intDim_fits (n : Nat) (h : FitsInt n) : intDim n = lit .i32 n :=
  as_lit .i32 .i64 n (by unfold FitsInt at h; simp only [Ty.hi]; omega)

/-- An index that an `int` can hold survives being stored in an
`unsigned int`. -/
theorem as_u32 (t : Ty) (v L : Nat) (h : v < L) (hL : L ≤ 4294967296) :
    as .u32 (lit t v) = lit .u32 v :=
  as_lit .u32 t v (by simp only [Ty.hi]; omega)

end Sdp.Width
