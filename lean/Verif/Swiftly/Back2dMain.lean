import Verif.Swiftly.Back2dCalls
import Verif.Swiftly.Back2dSpec
import Verif.Swiftly.Call2dFinal

/-! # C116: subgrids to a facet in two dimensions in closed form -/

namespace Sdp.Swiftly
open Finset Sdp.Fft Sdp.GridUtil
noncomputable section

/-- Fourier sum over a plane, as finishing a facet takes it. -/
def faceSum2 (n : Nat) (y : Nat → Nat → ℂ) (X0 X1 : Int) : ℂ := faceSum n (fun r => faceSum n (y r) X1) X0

theorem faceSum_congr (n : Nat) (x y : Nat → ℂ) (u : Int) (h : ∀ r < n, x r = y r) : faceSum n x u = faceSum n y u := by
  unfold faceSum
  exact sum_congr rfl fun r hr => by rw [h r (mem_range.1 hr)]

/-- Adding a contribution within a window, as a Fourier sum. -/
theorem faceSum_window (n m : Nat) (hn : 0 < n) (hmn : m ≤ n) (w : Int) (x out src : Nat → ℂ)
    (hx : ∀ k : Int, w ≤ k → k < w + m → x (k % n).toNat = out (k % n).toNat + src (k % m).toNat)
    (hz : ∀ j < n, (∀ k : Int, w ≤ k → k < w + m → k % n ≠ j) → x j = out j) (X : Int) :
    faceSum n x X = faceSum n out X + ∑ d ∈ range m, root n ((w + d) * -X) * src ((w + d) % m).toNat := by
  have e1 : x = fun k => out k + (x k - out k) := by
    funext k
    ring
  rw [e1, faceSum_add]
  congr 1
  unfold faceSum
  rw [sum_placed n m hn hmn w (fun k => x k - out k) (fun d => src ((w + d) % m).toNat) (fun k => root n (-(k * X)))]
  · refine sum_congr rfl fun d _ => ?_
    rw [show ∀ z v : Int, -(z * v) = z * -v by intros; ring, root_emod _ hn]
  · intro d hd
    rw [hx (w + d) (by omega) (by omega)]
    ring
  · intro i hi hh
    rw [hz i hi, sub_self]
    intro k k1 k2 k3
    refine hh (k - w).toNat (by omega) ?_
    rw [Int.toNat_of_nonneg (by omega), add_sub_cancel, k3]

/-- Places of the elements in the arrays of one subgrid. -/
structure SubgridShape where
  sub : Nat → Nat → Nat
  ext0 : Nat → Nat → Nat
  ext : Nat → Nat → Nat
  acc0 : Nat → Nat → Nat

/-- What is known of one subgrid and its arrays: shapes; the transposed views are of the same memory; the array that a
contribution is added to along the first axis is zero. -/
structure Subgrid2Ok (c : Cfg) (g : SubgridArrays) (h : SubgridShape) : Prop where
  sub : Out g.sub g.data c.xM.toNat c.xM.toNat h.sub
  subT : In g.subT g.data c.xM.toNat c.xM.toNat fun r j => h.sub j r
  ext0T : Out g.ext0T g.xbuf0 c.xM.toNat c.m.toNat fun r k => h.ext0 k r
  ext0 : In g.ext0 g.xbuf0 c.m.toNat c.xM.toNat h.ext0
  ext : Out g.ext g.xbuf c.m.toNat c.m.toNat h.ext
  extT : In g.extT g.xbuf c.m.toNat c.m.toNat fun r k => h.ext k r
  acc0T : Out g.acc0T g.abuf0 c.m.toNat c.yN.toNat fun r k => h.acc0 k r
  acc0 : In g.acc0 g.abuf0 c.yN.toNat c.m.toNat h.acc0
  zero : ∀ i, g.abuf0.get i = 0

/-- One axis from grid point to facet pixel. -/
def axisBack (c : Cfg) (n m M : Nat) (Fn : Arr ℝ) (f w u X : Int) (v : Nat) : ℂ :=
  ∑ i ∈ range m, (∑ d ∈ range m, root n ((w + d) * -X) *
    (1 / (m : ℂ) * Spec.phase m (f + (m / 2 : Nat) + i) ((w + d) % m).toNat * Fn.get i)) *
    ((-1) ^ (u + (M / 2 : Nat)) * Spec.phase M ((subgridPos c f i).toNat - (M / 2 : Nat)) (-(u + v - (M / 2 : Nat))))

theorem axisBack_eq (c : Cfg) (s t m : Nat) (hs : 0 < s) (ht : 0 < t) (hm : 0 < m) (em : c.m = m) (ex : c.xM = (t * m : Nat))
    (he : m % 2 = 0) (p : Nat → ℝ) (Fn : Arr ℝ) (hp : ∀ i < m, Fn.get i = p (s * i)) (f w u X : Int) (v : Nat) :
    axisBack c (s * m) m (t * m) Fn f w u X v = (-1) ^ (u + (t * m / 2 : Nat)) * ((s * t * m : Nat) *
      (starRingEnd ℂ) (interp s t m p f w X (u + v - (t * m / 2 : Nat)))) := by
  have hn : 0 < s * m := Nat.mul_pos hs hm
  have hx : 0 < t * m := Nat.mul_pos ht hm
  unfold axisBack interp
  simp only [map_mul, map_sum, root_conj, map_div₀, map_one, map_natCast, Complex.conj_ofReal, mul_sum, sum_mul]
  refine sum_congr rfl fun i hi => sum_congr rfl fun d _ => ?_
  rw [hp i (mem_range.1 hi)]
  have h1 : Spec.phase m (f + (m / 2 : Nat) + i) ((w + d) % m).toNat = root m ((w + d) * (f - (m / 2 : Nat) + i)) := by
    rw [phase_root, mul_comm, root_emod m hm, ← root_add_period m ((w + d) * (f - (m / 2 : Nat) + i)) (w + d)]
    congr 1
    have : (m : Int) = 2 * (m / 2 : Nat) := by omega
    generalize ((m / 2 : Nat) : Int) = q at *
    rw [this]
    ring
  have h2 : Spec.phase (t * m) ((subgridPos c f i).toNat - (t * m / 2 : Nat)) (-(u + v - (t * m / 2 : Nat))) =
      root (t * m) (-((f - (m / 2 : Nat) + i) * (u + v - (t * m / 2 : Nat)))) := by
    unfold subgridPos
    rw [phase_root, ex, em, sub_mul, sub_eq_add_neg, root_add, root_emod _ hx, ← root_add]
    congr 1
    rw [show ((t * m : Nat) : Int) / 2 = (t * m / 2 : Nat) by norm_cast, show (m : Int) / 2 = (m / 2 : Nat) by norm_cast]
    ring
  have h3 : root (s * m) ((w + d) * -X) * root m ((w + d) * (f - (m / 2 : Nat) + i)) =
      root (s * m) (-((w + d) * (X - s * (f - (m / 2 : Nat) + i)))) := by
    rw [← root_scale s m hs, ← root_add]
    congr 1
    ring
  rw [h1, h2, ← h3]
  have q1 : (s : ℂ) ≠ 0 := by exact_mod_cast hs.ne'
  have q2 : (t : ℂ) ≠ 0 := by exact_mod_cast ht.ne'
  have q3 : (m : ℂ) ≠ 0 := by exact_mod_cast hm.ne'
  push_cast
  field_simp

/-- The extraction of a contribution, in one call or in two. -/
theorem extract_spec (c : Cfg) (hc : createCheck c = .success) (Fn : Arr ℝ) (hF : (Fn.size : Int) = c.m) (once : Bool)
    (o0 o1 f0 f1 : Int) (hf0 : f0 = o0.tdiv (c.image / c.xM)) (hf1 : f1 = o1.tdiv (c.image / c.xM)) (n0 : 0 ≤ f0 + c.m / 2)
    (n1 : 0 ≤ f1 + c.m / 2) (g : SubgridArrays) (h : SubgridShape) (hg : Subgrid2Ok c g h) (a : Arr ℂ)
    (ha : a.size = g.data.size) :
    ∃ z, (if once then extractOnce c Fn o0 o1 g .success a else extractTwice c Fn o0 o1 g .success a) = some (.success, z) ∧
      HasRows h.ext c.m.toNat c.m.toNat (extractedAt c c.m.toNat Fn f0 f1 fun r q => a.get (h.sub r q)) g.xbuf z := by
  have hm0 := m_pos hc
  have hx := m_le_xM hc
  cases once with
  | true =>
    rw [if_pos rfl]
    unfold extractOnce
    exact C116_extract_from_subgrid_2d_partial c hc Fn hF o0 o1 (hg.sub.toIn.resize ha) hg.ext (by omega) (by omega) f0 f1 hf0
      hf1 n0 n1
  | false =>
    rw [if_neg Bool.false_ne_true]
    exact extractTwice_spec c hc Fn hF o0 o1 f0 f1 hf0 hf1 n0 n1 g c.m.toNat c.xM.toNat (by omega) (by omega) a _ h.ext0 h.ext
      (hg.subT.resize ha) hg.ext0T hg.ext0 hg.ext

/-- What one subgrid adds to pixel `(X0, X1)` before the correction. -/
def subgridSum (c : Cfg) (n m M : Nat) (Fn : Arr ℝ) (f0 f1 : Int) (g : SubgridArrays) (h : SubgridShape) (X0 X1 : Int) : ℂ :=
  ∑ v1 ∈ range M, axisBack c n m M Fn f1 (winStart c g.off1) g.off1 X1 v1 * ∑ v0 ∈ range M,
    axisBack c n m M Fn f0 (winStart c g.off0) g.off0 X0 v0 * g.data.get (h.sub v0 v1)

/-- One subgrid: all calls succeed, and add its Fourier sum. -/
theorem addSubgrid2d_spec (c : Cfg) (hc : createCheck c = .success) (Fn : Arr ℝ) (hF : (Fn.size : Int) = c.m) (once : Bool)
    (o0 o1 f0 f1 : Int) (hf0 : f0 = o0.tdiv (c.image / c.xM)) (hf1 : f1 = o1.tdiv (c.image / c.xM)) (n0 : 0 ≤ f0 + c.m / 2)
    (n1 : 0 ≤ f1 + c.m / 2) (g : SubgridArrays) (h : SubgridShape) (hg : Subgrid2Ok c g h) (n m M : Nat) (hn : c.yN = n)
    (hm : c.m = m) (hM : c.xM = M) (ma : Mem) (a : Arr ℂ) (pa : Nat → Nat → Nat) (ha : Out ma a n n pa) :
    ∃ z, addSubgrid2d c Fn once o0 o1 ma (.success, a) g = some (.success, z) ∧ z.size = a.size ∧ ∀ X0 X1,
      faceSum2 n (fun r q => z.get (pa r q)) X0 X1 = faceSum2 n (fun r q => a.get (pa r q)) X0 X1 +
        subgridSum c n m M Fn f0 f1 g h X0 X1 := by
  have hm0 := m_pos hc
  have hmn := m_le_yN hc
  have en : c.yN.toNat = n := by omega
  have em : c.m.toNat = m := by omega
  have eM : c.xM.toNat = M := by omega
  obtain ⟨zp, e1, s1, v1, _⟩ := C116_prepare_subgrid_2d c hc g.off0 g.off1 hg.sub (by omega)
  obtain ⟨ze, e2, s2, v2, _⟩ := extract_spec c hc Fn hF once o0 o1 f0 f1 hf0 hf1 n0 n1 g h hg zp s1
  have hextT := hg.extT.resize s2
  have hacc0T := hg.acc0T
  have hacc0 := hg.acc0
  rw [em] at hextT
  rw [em, en] at hacc0T hacc0
  rw [em] at v2
  obtain ⟨z0, e3, s3, v3, w3, _⟩ := C110_add_to_facet c hc g.off0 hextT hacc0T hm.symm hn.symm
  obtain ⟨z, e4, s4, v4, w4, _⟩ := C110_add_to_facet c hc g.off1 (hacc0.resize s3) ha hm.symm hn.symm
  refine ⟨z, ?_, s4, fun X0 X1 => ?_⟩
  · unfold addSubgrid2d
    rw [e1]
    simp only [Option.bind_some]
    rw [e2]
    simp only [Option.bind_some]
    rw [e3]
    exact e4
  have hw : ∀ k : Int, (k % (m : Int)).toNat < m := fun k => by
    have := Int.emod_nonneg k (b := (m : Int)) (by omega)
    have := Int.emod_lt_of_pos k (b := (m : Int)) (by omega)
    omega
  have a1 : ∀ r < n, faceSum n (fun q => z.get (pa r q)) X1 = faceSum n (fun q => a.get (pa r q)) X1 + ∑ d1 ∈ range m,
      root n ((winStart c g.off1 + d1) * -X1) * z0.get (h.acc0 r ((winStart c g.off1 + d1) % m).toNat) := by
    intro r hr
    refine faceSum_window n m (by omega) (by omega) (winStart c g.off1) (fun q => z.get (pa r q)) (fun q => a.get (pa r q))
      (fun q => z0.get (h.acc0 r q)) (fun k k1 k2 => v4 r hr k k1 (by omega)) (fun j hj hh => w4 r hr j hj fun k k1 k2 => hh k k1 (by omega)) X1
  have a0 : ∀ q < m, faceSum n (fun r => z0.get (h.acc0 r q)) X0 = ∑ d0 ∈ range m,
      root n ((winStart c g.off0 + d0) * -X0) * ze.get (h.ext ((winStart c g.off0 + d0) % m).toNat q) := by
    intro q hq
    have := faceSum_window n m (by omega) (by omega) (winStart c g.off0) (fun r => z0.get (h.acc0 r q))
      (fun r => g.abuf0.get (h.acc0 r q)) (fun r => ze.get (h.ext r q)) (fun k k1 k2 => v3 q hq k k1 (by omega))
      (fun j hj hh => w3 q hq j hj fun k k1 k2 => hh k k1 (by omega)) X0
    rw [this, faceSum_zero _ _ (fun i _ => hg.zero _), zero_add]
  unfold faceSum2
  rw [faceSum_congr n _ _ X0 a1, faceSum_add]
  congr 1
  have b1 : faceSum n (fun r => ∑ d1 ∈ range m, root n ((winStart c g.off1 + d1) * -X1) *
      z0.get (h.acc0 r ((winStart c g.off1 + d1) % m).toNat)) X0 = ∑ d1 ∈ range m, root n ((winStart c g.off1 + d1) * -X1) *
        faceSum n (fun r => z0.get (h.acc0 r ((winStart c g.off1 + d1) % m).toNat)) X0 := by
    unfold faceSum
    simp only [mul_sum]
    rw [sum_comm]
    exact sum_congr rfl fun d1 _ => sum_congr rfl fun r _ => by ring
  rw [b1]
  have b2 : ∀ d1 ∈ range m, root n ((winStart c g.off1 + d1) * -X1) *
      faceSum n (fun r => z0.get (h.acc0 r ((winStart c g.off1 + d1) % m).toNat)) X0 =
      root n ((winStart c g.off1 + d1) * -X1) * ∑ d0 ∈ range m, root n ((winStart c g.off0 + d0) * -X0) *
        ∑ i1 ∈ range m, (1 / (m : ℂ) * Spec.phase m (f1 + (m / 2 : Nat) + i1) ((winStart c g.off1 + d1) % m).toNat * Fn.get i1) *
          ∑ i0 ∈ range m, (1 / (m : ℂ) * Spec.phase m (f0 + (m / 2 : Nat) + i0) ((winStart c g.off0 + d0) % m).toNat * Fn.get i0) *
            zp.get (h.sub (subgridPos c f0 i0).toNat (subgridPos c f1 i1).toNat) := by
    intro d1 _
    rw [a0 _ (hw _)]
    congr 1
    refine sum_congr rfl fun d0 _ => ?_
    congr 1
    rw [v2 _ _ (hw _) (hw _)]
    rfl
  rw [sum_congr rfl b2, tensor_sums m m m (fun d0 => root n ((winStart c g.off0 + d0) * -X0))
    (fun d1 => root n ((winStart c g.off1 + d1) * -X1))
    (fun d0 i0 => 1 / (m : ℂ) * Spec.phase m (f0 + (m / 2 : Nat) + i0) ((winStart c g.off0 + d0) % m).toNat * Fn.get i0)
    (fun d1 i1 => 1 / (m : ℂ) * Spec.phase m (f1 + (m / 2 : Nat) + i1) ((winStart c g.off1 + d1) % m).toNat * Fn.get i1)
    (fun i0 i1 => zp.get (h.sub (subgridPos c f0 i0).toNat (subgridPos c f1 i1).toNat))]
  have b3 : ∀ i0 i1 : Nat, zp.get (h.sub (subgridPos c f0 i0).toNat (subgridPos c f1 i1).toNat) =
      ∑ v1 ∈ range M, ((-1) ^ (g.off1 + (M / 2 : Nat)) * Spec.phase M ((subgridPos c f1 i1).toNat - (M / 2 : Nat))
        (-(g.off1 + v1 - (M / 2 : Nat)))) * ∑ v0 ∈ range M, ((-1) ^ (g.off0 + (M / 2 : Nat)) *
          Spec.phase M ((subgridPos c f0 i0).toNat - (M / 2 : Nat)) (-(g.off0 + v0 - (M / 2 : Nat)))) * g.data.get (h.sub v0 v1) := by
    intro i0 i1
    have p0 := subgridPos_range hc f0 i0
    have p1 := subgridPos_range hc f1 i1
    have := v1 (subgridPos c f0 i0).toNat (subgridPos c f1 i1).toNat (by omega) (by omega)
    rw [eM] at this
    rw [this]
    rfl
  simp only [b3]
  rw [tensor_sums m M M
    (fun i0 => ∑ d ∈ range m, root n ((winStart c g.off0 + d) * -X0) *
      (1 / (m : ℂ) * Spec.phase m (f0 + (m / 2 : Nat) + i0) ((winStart c g.off0 + d) % m).toNat * Fn.get i0))
    (fun i1 => ∑ d ∈ range m, root n ((winStart c g.off1 + d) * -X1) *
      (1 / (m : ℂ) * Spec.phase m (f1 + (m / 2 : Nat) + i1) ((winStart c g.off1 + d) % m).toNat * Fn.get i1))
    (fun i0 v0 => (-1) ^ (g.off0 + (M / 2 : Nat)) * Spec.phase M ((subgridPos c f0 i0).toNat - (M / 2 : Nat))
      (-(g.off0 + v0 - (M / 2 : Nat))))
    (fun i1 v1 => (-1) ^ (g.off1 + (M / 2 : Nat)) * Spec.phase M ((subgridPos c f1 i1).toNat - (M / 2 : Nat))
      (-(g.off1 + v1 - (M / 2 : Nat))))
    (fun v0 v1 => g.data.get (h.sub v0 v1))]
  rfl

/-- All subgrids, from any sum. -/
theorem addSubgrids2d_spec (c : Cfg) (hc : createCheck c = .success) (Fn : Arr ℝ) (hF : (Fn.size : Int) = c.m) (once : Bool)
    (o0 o1 f0 f1 : Int) (hf0 : f0 = o0.tdiv (c.image / c.xM)) (hf1 : f1 = o1.tdiv (c.image / c.xM)) (n0 : 0 ≤ f0 + c.m / 2)
    (n1 : 0 ≤ f1 + c.m / 2) (n m M : Nat) (hn : c.yN = n) (hm : c.m = m) (hM : c.xM = M) (ma : Mem) (pa : Nat → Nat → Nat)
    (gs : List (SubgridArrays × SubgridShape)) (hg : ∀ g ∈ gs, Subgrid2Ok c g.1 g.2) : ∀ a : Arr ℂ, Out ma a n n pa →
    ∃ z, loop (addSubgrid2d c Fn once o0 o1 ma) (.success, a) (gs.map Prod.fst) = some (.success, z) ∧ z.size = a.size ∧
      ∀ X0 X1, faceSum2 n (fun r q => z.get (pa r q)) X0 X1 = faceSum2 n (fun r q => a.get (pa r q)) X0 X1 +
        (gs.map fun g : SubgridArrays × SubgridShape => subgridSum c n m M Fn f0 f1 g.1 g.2 X0 X1).sum := by
  induction gs with
  | nil =>
    intro a _
    exact ⟨a, rfl, rfl, fun X0 X1 => by rw [List.map_nil, List.sum_nil, add_zero]⟩
  | cons g gs ih =>
    intro a ha
    obtain ⟨z, ez, sz, vz⟩ := addSubgrid2d_spec c hc Fn hF once o0 o1 f0 f1 hf0 hf1 n0 n1 g.1 g.2 (hg g (by simp)) n m M hn hm hM
      ma a pa ha
    obtain ⟨y, ey, sy, vy⟩ := ih (fun g' hg' => hg g' (by simp [hg'])) z (ha.resize sz)
    refine ⟨y, ?_, sy.trans sz, fun X0 X1 => ?_⟩
    · rw [List.map_cons]
      unfold loop
      rw [ez]
      exact ey
    · rw [vy, vz, List.map_cons, List.sum_cons, add_assoc]

/-- What is known of the arrays of the facet: shapes; the transposed views are of the same memory; the sum starts at zero. -/
structure FacetOutOk (c : Cfg) (f : FacetOutArrays) (F0 F1 : Nat) (pa p0 p : Nat → Nat → Nat) : Prop where
  acc : Out f.acc f.sum c.yN.toNat c.yN.toNat pa
  accT : Out f.accT f.sum c.yN.toNat c.yN.toNat fun r k => pa k r
  zero : ∀ i, f.sum.get i = 0
  facet0T : Out f.facet0T f.fbuf0 c.yN.toNat F0 fun r j => p0 j r
  facet0 : Out f.facet0 f.fbuf0 F0 c.yN.toNat p0
  facet : Out f.facet f.fbuf F0 F1 p

/-- The whole backward sequence in closed form. -/
theorem toFacet2d_spec (c : Cfg) (hc : createCheck c = .success) (Fn Fb : Arr ℝ) (hF : (Fn.size : Int) = c.m)
    (hB : (Fb.size : Int) = c.yN) (once : Bool) (o0 o1 f0 f1 : Int) (hf0 : f0 = o0.tdiv (c.image / c.xM))
    (hf1 : f1 = o1.tdiv (c.image / c.xM)) (n0 : 0 ≤ f0 + c.m / 2) (n1 : 0 ≤ f1 + c.m / 2) (n m M : Nat) (hn : c.yN = n)
    (hm : c.m = m) (hM : c.xM = M) (gs : List (SubgridArrays × SubgridShape)) (hg : ∀ g ∈ gs, Subgrid2Ok c g.1 g.2)
    (f : FacetOutArrays) (F0 F1 : Nat) (h0 : 1 ≤ F0) (h1 : 1 ≤ F1) (h0' : F0 ≤ n) (h1' : F1 ≤ n) (pa p0 p : Nat → Nat → Nat)
    (hf : FacetOutOk c f F0 F1 pa p0 p) :
    ∃ r, toFacet2d c Fn Fb once (gs.map Prod.fst) o0 o1 f .success = some (.success, r) ∧
      HasRows p F0 F1 (fun j0 j1 => (Fb.get (j0 + n / 2 - F0 / 2) : ℂ) * Fb.get (j1 + n / 2 - F1 / 2) *
        (gs.map fun g : SubgridArrays × SubgridShape => subgridSum c n m M Fn f0 f1 g.1 g.2 (o0 - (F0 / 2 : Nat) + j0)
          (o1 - (F1 / 2 : Nat) + j1)).sum) f.fbuf r := by
  have hm0 := m_pos hc
  have hmn := m_le_yN hc
  have en : c.yN.toNat = n := by omega
  have k1 := hf.acc
  have k2 := hf.accT
  have k3 := hf.facet0T
  have k4 := hf.facet0
  rw [en] at k1 k2 k3 k4
  obtain ⟨z, ez, sz, vz⟩ := addSubgrids2d_spec c hc Fn hF once o0 o1 f0 f1 hf0 hf1 n0 n1 n m M hn hm hM f.acc pa gs hg f.sum k1
  obtain ⟨y0, z0, e0, ⟨s0, v0, _⟩, _⟩ := C110_finish_facet c hc Fb hB o0 (k2.resize sz) k3 h0 hn.symm (by omega)
  obtain ⟨y1, z1, e1, hz1, _⟩ := C110_finish_facet c hc Fb hB o1 (k4.resize s0) hf.facet h1 hn.symm (by omega)
  refine ⟨z1, ?_, hz1.congr fun j0 j1 hj0 hj1 => ?_⟩
  · unfold toFacet2d
    rw [ez]
    simp only [Option.bind_some]
    rw [e0]
    simp only [Option.bind_some]
    rw [e1]
    rfl
  have hv := vz (o0 - (F0 / 2 : Nat) + j0) (o1 - (F1 / 2 : Nat) + j1)
  have hz : faceSum2 n (fun r q => f.sum.get (pa r q)) (o0 - (F0 / 2 : Nat) + j0) (o1 - (F1 / 2 : Nat) + j1) = 0 := by
    unfold faceSum2
    exact faceSum_zero _ _ (fun r _ => faceSum_zero _ _ (fun q _ => hf.zero _) _) _
  rw [hz, zero_add] at hv
  rw [← hv]
  unfold faceSum2 faceSum
  have e2 : ∀ k ∈ range n, Spec.phase n (-(k : Int)) (o1 - (F1 / 2 : Nat) + j1) * z0.get (p0 j0 k) =
      Spec.phase n (-(k : Int)) (o1 - (F1 / 2 : Nat) + j1) * ((∑ k' ∈ range n, Spec.phase n (-(k' : Int))
        (o0 - (F0 / 2 : Nat) + j0) * z.get (pa k' k)) * Fb.get (j0 + n / 2 - F0 / 2)) := by
    intro k hk
    rw [v0 k j0 (mem_range.1 hk) hj0]
  rw [sum_congr rfl e2]
  simp only [mul_sum, sum_mul, phase_root, neg_mul]
  rw [sum_comm]
  exact sum_congr rfl fun r _ => sum_congr rfl fun q _ => by ring

end
end Sdp.Swiftly
