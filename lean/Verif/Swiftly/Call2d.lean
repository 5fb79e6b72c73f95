import Verif.Swiftly.CallRows
import Verif.Swiftly.Call2dSpec
import Verif.Swiftly.Window2d

/-! # C110: the two-dimensional calls in closed form -/

namespace Sdp.Swiftly
open Finset Sdp.Fft Sdp.GridUtil
noncomputable section

theorem In.resize {m : Mem} {a b : Arr ℂ} {n0 n1 : Nat} {pos : Nat → Nat → Nat} (h : In m a n0 n1 pos) (e : b.size = a.size) :
    In m b n0 n1 pos := ⟨h.type, h.loc, by rw [e]; exact h.plane⟩

theorem Out.resize {m : Mem} {a b : Arr ℂ} {n0 n1 : Nat} {pos : Nat → Nat → Nat} (h : Out m a n0 n1 pos) (e : b.size = a.size) :
    Out m b n0 n1 pos := ⟨h.toIn.resize e, h.data, h.writeable, h.distinct⟩

/-- What pixel `j` of a facet row contributes to element `a` of its contribution row. -/
def axisIn (n m F : Nat) (Fb : Arr ℝ) (o w : Int) (a j : Nat) : ℂ :=
  ∑ d ∈ range m, Spec.phase m (w + d) (-a) * (1 / (n : ℂ) * (Spec.phase n ((w + d) % n).toNat (o - (F / 2 : Nat) + j) *
    Fb.get (j + n / 2 - F / 2)))

theorem swap_sums (m F : Nat) (E : Nat → ℂ) (A : Nat → Nat → ℂ) (y : Nat → ℂ) :
    ∑ d ∈ range m, E d * ∑ j ∈ range F, A d j * y j = ∑ j ∈ range F, (∑ d ∈ range m, E d * A d j) * y j := by
  simp only [mul_sum, sum_mul]
  rw [sum_comm]
  exact sum_congr rfl fun j _ => sum_congr rfl fun d _ => by ring

/-- Transforms along the two axes in either order. -/
theorem tensor_sums (m F0 F1 : Nat) (E0 E1 : Nat → ℂ) (A0 A1 : Nat → Nat → ℂ) (x : Nat → Nat → ℂ) :
    ∑ d1 ∈ range m, E1 d1 * ∑ d0 ∈ range m, E0 d0 * ∑ j1 ∈ range F1, A1 d1 j1 * ∑ j0 ∈ range F0, A0 d0 j0 * x j0 j1 =
      ∑ j1 ∈ range F1, (∑ d ∈ range m, E1 d * A1 d j1) * ∑ j0 ∈ range F0, (∑ d ∈ range m, E0 d * A0 d j0) * x j0 j1 := by
  rw [← swap_sums]
  refine sum_congr rfl fun d1 _ => ?_
  congr 1
  simp only [← swap_sums]
  simp only [mul_sum]
  rw [sum_comm]
  exact sum_congr rfl fun j1 _ => sum_congr rfl fun d0 _ => sum_congr rfl fun j0 _ => by ring

/-- The arrays of one facet: shapes, and the transposed views are of the same memory. -/
structure Arrays2 (c : Cfg) (f : FacetArrays) (F0 F1 n m : Nat) (pF p0 p q0 q : Nat → Nat → Nat) : Prop where
  facetT : In f.facetT f.data F1 F0 fun r j => pF j r
  prep0T : Out f.prep0T f.buf0 F1 n fun r k => p0 k r
  prep0 : In f.prep0 f.buf0 n F1 p0
  prep : Out f.prep f.buf n n p
  prepT : In f.prepT f.buf n n fun r k => p k r
  contrib0T : Out f.contrib0T f.cbuf0 n m fun r k => q0 k r
  contrib0 : In f.contrib0 f.cbuf0 m n q0
  contrib : Out f.contrib f.cbuf m m q

/-- The four calls that make a contribution. -/
theorem contribution_spec (c : Cfg) (hc : createCheck c = .success) (n m : Nat) (hn : (n : Int) = c.yN) (hm : (m : Int) = c.m)
    (Fb : Arr ℝ) (hb : Fb.size = n) (u0 u1 : Int) (f : FacetArrays) (F0 F1 : Nat) (pF p0 p q0 q : Nat → Nat → Nat)
    (hA : Arrays2 c f F0 F1 n m pF p0 p q0 q) (h0 : 1 ≤ F0) (h1 : 1 ≤ F1) (h0' : F0 ≤ n) (h1' : F1 ≤ n) :
    ∃ z0 z1 z2 z3, prepareFacetCall c Fb f.facetT f.prep0T f.off0 .success f.data f.buf0 = some (.success, z0) ∧
      prepareFacetCall c Fb f.prep0 f.prep f.off1 .success z0 f.buf = some (.success, z1) ∧
      extractFromFacetCall c f.prepT f.contrib0T u0 .success z1 f.cbuf0 = some (.success, z2) ∧
      extractFromFacetCall c f.contrib0 f.contrib u1 .success z2 f.cbuf = some (.success, z3) ∧ z3.size = f.cbuf.size ∧
      ∀ a0 a1, a0 < m → a1 < m → z3.get (q a0 a1) = ∑ j1 ∈ range F1, axisIn n m F1 Fb f.off1 (winStart c u1) a1 j1 *
        ∑ j0 ∈ range F0, axisIn n m F0 Fb f.off0 (winStart c u0) a0 j0 * f.data.get (pF j0 j1) := by
  have hm0 := m_pos hc
  have hn0 : 0 < n := by omega
  obtain ⟨z0, e0, s0, v0, _⟩ := C110_prepare_facet c hc Fb (by omega) f.off0 hA.facetT hA.prep0T h0 (by omega) hn
  obtain ⟨z1, e1, s1, v1, _⟩ := C110_prepare_facet c hc Fb (by omega) f.off1 (hA.prep0.resize s0) hA.prep h1 (by omega) hn
  obtain ⟨z2, e2, s2, v2, _⟩ := C110_extract_from_facet c hc u0 (hA.prepT.resize s1) hA.contrib0T hn hm
  obtain ⟨z3, e3, s3, v3, _⟩ := C110_extract_from_facet c hc u1 (hA.contrib0.resize s2) hA.contrib hn hm
  refine ⟨z0, z1, z2, z3, e0, e1, e2, e3, s3, fun a0 a1 ha0 ha1 => ?_⟩
  have hw : ∀ (w : Int) (d : Nat), ((w + d) % (n : Int)).toNat < n := fun w d => by
    have := Int.emod_nonneg (w + d) (b := (n : Int)) (by omega)
    have := Int.emod_lt_of_pos (w + d) (b := (n : Int)) (by omega)
    omega
  unfold axisIn
  rw [← tensor_sums]
  rw [v3 a0 a1 ha0 ha1]
  refine sum_congr rfl fun d1 _ => ?_
  rw [v2 _ a0 (hw _ _) ha0]
  congr 1
  refine sum_congr rfl fun d0 _ => ?_
  rw [v1 _ _ (hw _ _) (hw _ _)]
  congr 1
  beta_reduce
  rw [mul_sum]
  refine sum_congr rfl fun j1 hj1 => ?_
  rw [mem_range] at hj1
  rw [v0 j1 _ hj1 (hw _ _)]
  beta_reduce
  simp only [mul_sum, sum_mul]
  exact sum_congr rfl fun j0 _ => by ring

/-- One axis from facet pixel to grid point. -/
theorem axis_eq (c : Cfg) (s t m : Nat) (hs : 0 < s) (ht : 0 < t) (hm : 0 < m) (em : c.m = m) (he : m % 2 = 0)
    (p : Nat → ℝ) (Fn Fb : Arr ℝ) (hp : ∀ i < m, Fn.get i = p (s * i)) (F j : Nat) (off o w u : Int) :
    ∑ i ∈ range m, (root (t * m) ((o - (m / 2 : Nat) + i) * u) * Fn.get i) *
      axisIn (s * m) m F Fb off w (contribPos c o i).toNat j =
      (t * m : Nat) * (Fb.get (j + s * m / 2 - F / 2) * interp s t m p o w (off - (F / 2 : Nat) + j) u) := by
  have hn : 0 < s * m := Nat.mul_pos hs hm
  have hx : 0 < t * m := Nat.mul_pos ht hm
  have e3 : ∀ i ∈ range m, (root (t * m) ((o - (m / 2 : Nat) + i) * u) * Fn.get i) *
      axisIn (s * m) m F Fb off w (contribPos c o i).toNat j =
      Fb.get (j + s * m / 2 - F / 2) * (1 / ((s * m : Nat) : ℂ) *
        (p (s * i) * root (t * m) ((o - (m / 2 : Nat) + i) * u) * ∑ d ∈ range m, root (s * m) ((w + d) *
          (off - (F / 2 : Nat) + j - s * (o - (m / 2 : Nat) + i))))) := by
    intro i hi
    rw [hp i (mem_range.1 hi)]
    unfold axisIn contribPos
    simp only [mul_sum]
    refine sum_congr rfl fun d _ => ?_
    have h4 : Spec.phase m (w + d) (-(((o + c.m / 2 + i) % c.m).toNat : Int)) = root m (-((w + d) * (o - (m / 2 : Nat) + i))) := by
      rw [phase_root, em, show ∀ z : Int, (w + d) * -z = z * -(w + d) by intros; ring, root_emod m hm,
        ← root_add_period m _ (w + d)]
      congr 1
      have : (m : Int) = 2 * (m / 2 : Nat) := by omega
      have h7 : ((m : Int) / 2) = (m / 2 : Nat) := by omega
      rw [h7]
      generalize ((m / 2 : Nat) : Int) = q at *
      rw [this]
      ring
    have h5 : Spec.phase (s * m) (((w + d) % (s * m : Nat)).toNat : Int) (off - (F / 2 : Nat) + j) =
        root (s * m) ((w + d) * (off - (F / 2 : Nat) + j)) := by
      rw [phase_root, root_emod _ hn]
    have h6 : root m (-((w + d) * (o - (m / 2 : Nat) + i))) *
        root (s * m) ((w + d) * (off - (F / 2 : Nat) + j)) =
        root (s * m) ((w + d) * (off - (F / 2 : Nat) + j - s * (o - (m / 2 : Nat) + i))) := by
      rw [← root_scale s m hs, ← root_add]
      congr 1
      ring
    rw [h4, h5, ← h6]
    ring
  rw [sum_congr rfl e3]
  unfold interp
  rw [← mul_sum, ← mul_sum]
  have hn' : ((s * m : Nat) : ℂ) ≠ 0 := by exact_mod_cast hn.ne'
  have hx' : ((t * m : Nat) : ℂ) ≠ 0 := by exact_mod_cast hx.ne'
  field_simp

end
end Sdp.Swiftly
