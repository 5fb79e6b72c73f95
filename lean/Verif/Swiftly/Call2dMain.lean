import Verif.Swiftly.Call2dAdd

/-! # C110: facets to a subgrid in two dimensions, against direct Fourier sums -/

namespace Sdp.Swiftly
open Finset Sdp.Fft Sdp.GridUtil
noncomputable section

/-- One facet of a sequence: sizes and places of the elements in its arrays. -/
structure Shape2 where
  size0 : Nat
  size1 : Nat
  facet : Nat → Nat → Nat
  prep0 : Nat → Nat → Nat
  prep : Nat → Nat → Nat
  contrib0 : Nat → Nat → Nat
  contrib : Nat → Nat → Nat

/-- What one facet adds to a grid point through window `p`. -/
def facetSum (c : Cfg) (s t m : Nat) (p : Nat → ℝ) (Fb : Arr ℝ) (u0 u1 : Int) (f : FacetArrays) (h : Shape2) (u v : Int) : ℂ :=
  ∑ j1 ∈ range h.size1, (Fb.get (j1 + s * m / 2 - h.size1 / 2) *
      interp s t m p (f.off1 / s) (winStart c u1) (f.off1 - (h.size1 / 2 : Nat) + j1) v) *
    ∑ j0 ∈ range h.size0, (Fb.get (j0 + s * m / 2 - h.size0 / 2) *
      interp s t m p (f.off0 / s) (winStart c u0) (f.off0 - (h.size0 / 2 : Nat) + j0) u) * f.data.get (h.facet j0 j1)

/-- Values placed at the positions of a facet in both directions. -/
theorem gridSum2_placed (c : Cfg) (m M : Nat) (hm : 0 < m) (hmM : m ≤ M) (em : c.m = m) (eM : c.xM = M) (f0 f1 : Int)
    (x : Nat → Nat → ℂ) (g0 g1 : Nat → ℂ) (y : Nat → Nat → ℂ)
    (hpos : ∀ i : Nat, (subgridPos c f0 i).toNat < M)
    (hx : ∀ i j, i < m → j < m → x (subgridPos c f0 i).toNat (subgridPos c f1 j).toNat = g0 i * g1 j * y i j)
    (hz : ∀ r q, r < M → q < M → (∀ i j, i < m → j < m → ¬ (subgridPos c f0 i = r ∧ subgridPos c f1 j = q)) → x r q = 0)
    (u v : Int) :
    gridSum2 M x u v = ∑ i1 ∈ range m, (root M ((f1 - (m / 2 : Nat) + i1) * v) * g1 i1) * ∑ i0 ∈ range m,
      (root M ((f0 - (m / 2 : Nat) + i0) * u) * g0 i0) * y i0 i1 := by
  unfold gridSum2
  rw [gridSum_placed c m M hm hmM em eM f0 (fun r => gridSum M (x r) v)
    (fun i0 => ∑ i1 ∈ range m, root M ((f1 - (m / 2 : Nat) + i1) * v) * (g0 i0 * g1 i1 * y i0 i1))]
  · simp only [mul_sum]
    rw [sum_comm]
    exact sum_congr rfl fun i1 _ => sum_congr rfl fun i0 _ => by ring
  · intro i0 hi0
    refine gridSum_placed c m M hm hmM em eM f1 _ _ (fun i1 hi1 => hx i0 i1 hi0 hi1) (fun q hq hh => ?_) v
    refine hz _ q (hpos _) hq fun i j hi hj hij => hh j hj hij.2
  · intro r hr hh
    refine gridSum_zero _ _ (fun q hq => ?_) v
    exact hz r q hr hq fun i j hi hj hij => hh i hi hij.1

theorem gridSum2_sub (M : Nat) (x y : Nat → Nat → ℂ) (u v : Int) (w : ℂ)
    (h : gridSum2 M (fun r q => y r q - x r q) u v = w) : gridSum2 M y u v = gridSum2 M x u v + w := by
  rw [← h, ← gridSum2_add]
  congr 1
  funext r q
  ring

/-- Accumulation as a Fourier sum. -/
theorem add_gridSum2 (c : Cfg) (hc : createCheck c = .success) (m M : Nat) (em : c.m = m) (eM : c.xM = M) (Fn : Arr ℝ)
    (hFn : Fn.size = m) (o0 o1 f0 f1 : Int) (hf0 : f0 = o0.tdiv (c.image / c.xM)) (hf1 : f1 = o1.tdiv (c.image / c.xM))
    (n0 : -((m / 2 : Nat) : Int) ≤ f0) (n1 : -((m / 2 : Nat) : Int) ≤ f1) {mi mo : Mem} {src out : Arr ℂ}
    {pi po : Nat → Nat → Nat} (hi : In mi src m m pi) (ho : Out mo out M M po) :
    ∃ z, addToSubgrid2dCall c Fn mi mo o0 o1 .success src out = some (.success, z) ∧ z.size = out.size ∧ ∀ u v,
      gridSum2 M (fun r q => z.get (po r q)) u v = gridSum2 M (fun r q => out.get (po r q)) u v +
        ∑ i1 ∈ range m, (root M ((f1 - (m / 2 : Nat) + i1) * v) * Fn.get i1) * ∑ i0 ∈ range m,
          (root M ((f0 - (m / 2 : Nat) + i0) * u) * Fn.get i0) *
            src.get (pi (contribPos c f0 i0).toNat (contribPos c f1 i1).toNat) := by
  have hm0 := m_pos hc
  have hx := m_le_xM hc
  have hpos : ∀ (i : Nat), (subgridPos c f0 i).toNat < M := by
    intro i
    have := subgridPos_range hc f0 i
    omega
  obtain ⟨z, ez, sz, vz, wz, _⟩ := C110_add_to_subgrid_2d_partial c hc Fn (by omega) o0 o1
    hi ho em.symm eM.symm f0 f1 hf0 hf1 (by rw [em]; omega) (by rw [em]; omega)
  refine ⟨z, ez, sz, fun u v => ?_⟩
  refine gridSum2_sub M _ _ u v _ ?_
  exact gridSum2_placed c m M (by omega) (by omega) em eM f0 f1 (fun r q => z.get (po r q) - out.get (po r q))
    (fun i => (Fn.get i : ℂ)) (fun i => (Fn.get i : ℂ))
    (fun i0 i1 => src.get (pi (contribPos c f0 i0).toNat (contribPos c f1 i1).toNat)) hpos
    (fun i j hi hj => by
      rw [vz i j hi hj]
      ring)
    (fun r q hr hq hh => by rw [wz r q hr hq hh, sub_self]) u v

/-- One facet: all five calls succeed, and add its Fourier sum. -/
theorem addFacet2d_spec (c : Cfg) (hc : createCheck c = .success) (s t m : Nat) (hs : 0 < s) (ht : 0 < t) (hm : 0 < m)
    (em : c.m = m) (ey : c.yN = (s * m : Nat)) (ex : c.xM = (t * m : Nat)) (es : c.image / c.xM = s) (he : m % 2 = 0)
    (p : Nat → ℝ) (Fn Fb : Arr ℝ) (hFn : Fn.size = m) (hFb : Fb.size = s * m) (hp : ∀ i < m, Fn.get i = p (s * i))
    (u0 u1 : Int) (f : FacetArrays) (h : Shape2)
    (hA : Arrays2 c f h.size0 h.size1 (s * m) m h.facet h.prep0 h.prep h.contrib0 h.contrib)
    (h0 : 1 ≤ h.size0) (h1 : 1 ≤ h.size1) (h0' : h.size0 ≤ s * m) (h1' : h.size1 ≤ s * m) (d0 : (s : Int) ∣ f.off0)
    (d1 : (s : Int) ∣ f.off1) (n0 : -((m / 2 : Nat) : Int) ≤ f.off0 / s) (n1 : -((m / 2 : Nat) : Int) ≤ f.off1 / s)
    (ma : Mem) (a : Arr ℂ) (po : Nat → Nat → Nat) (ha : Out ma a (t * m) (t * m) po) :
    ∃ z, addFacet2d c Fn Fb u0 u1 ma (.success, a) f = some (.success, z) ∧ z.size = a.size ∧ ∀ u v,
      gridSum2 (t * m) (fun r q => z.get (po r q)) u v = gridSum2 (t * m) (fun r q => a.get (po r q)) u v +
        (t * m : Nat) ^ 2 * facetSum c s t m p Fb u0 u1 f h u v := by
  obtain ⟨z0, z1, z2, z3, e0, e1, e2, e3, s3, v3⟩ := contribution_spec c hc (s * m) m ey.symm em.symm Fb hFb u0 u1 f _ _ _ _ _ _ _
    hA h0 h1 h0' h1'
  have hd : ∀ o : Int, (s : Int) ∣ o → o / (s : Int) = o.tdiv (c.image / c.xM) := by
    rintro _ ⟨k, rfl⟩
    rw [es, Int.mul_tdiv_cancel_left _ (by omega), Int.mul_ediv_cancel_left _ (by omega)]
  obtain ⟨z, ez, sz, vz⟩ := add_gridSum2 c hc m (t * m) em ex Fn hFn f.off0 f.off1 _ _ (hd _ d0) (hd _ d1) n0 n1
    (hA.contrib.toIn.resize s3) ha
  refine ⟨z, ?_, sz, fun u v => ?_⟩
  · unfold addFacet2d
    simp only [e0, Option.bind_some, e1, e2, e3]
    exact ez
  rw [vz, add_right_inj]
  have hcon : ∀ (o : Int) (i : Nat), (contribPos c o i).toNat < m := by
    intro o i
    have := contribPos_range hc o i
    omega
  unfold facetSum
  clear e0 e1 e2 e3 hA ha vz
  generalize f.off0 / (s : Int) = f0
  generalize f.off1 / (s : Int) = f1
  have e5 : ∀ i0 i1 : Nat, z3.get (h.contrib (contribPos c f0 i0).toNat (contribPos c f1 i1).toNat) =
      ∑ j1 ∈ range h.size1, axisIn (s * m) m h.size1 Fb f.off1 (winStart c u1) (contribPos c f1 i1).toNat j1 *
        ∑ j0 ∈ range h.size0, axisIn (s * m) m h.size0 Fb f.off0 (winStart c u0) (contribPos c f0 i0).toNat j0 *
          f.data.get (h.facet j0 j1) := fun i0 i1 => v3 _ _ (hcon _ _) (hcon _ _)
  simp only [e5]
  rw [tensor_sums m h.size0 h.size1
    (fun i0 => root (t * m) ((f0 - (m / 2 : Nat) + i0) * u) * Fn.get i0)
    (fun i1 => root (t * m) ((f1 - (m / 2 : Nat) + i1) * v) * Fn.get i1)
    (fun i0 j0 => axisIn (s * m) m h.size0 Fb f.off0 (winStart c u0) (contribPos c f0 i0).toNat j0)
    (fun i1 j1 => axisIn (s * m) m h.size1 Fb f.off1 (winStart c u1) (contribPos c f1 i1).toNat j1)
    (fun j0 j1 => f.data.get (h.facet j0 j1))]
  simp only [axis_eq c s t m hs ht hm em he p Fn Fb hp]
  rw [sq, mul_assoc, mul_sum, mul_sum]
  refine sum_congr rfl fun j1 _ => ?_
  simp only [mul_sum]
  exact sum_congr rfl fun j0 _ => by ring

end
end Sdp.Swiftly
