import Verif.Swiftly.Call2d

/-! # C110: accumulating and finishing in two dimensions -/

namespace Sdp.Swiftly
open Finset Sdp.Fft Sdp.GridUtil
noncomputable section

/-- The elements of a plane in row-major order. -/
def blockOf (pos : Nat → Nat → Nat) (n0 n1 : Nat) (a : Arr ℂ) : Arr ℂ :=
  ⟨n0 * n1, fun k => if k < n0 * n1 then a.get (pos (k / n1) (k % n1)) else 0⟩

theorem blockOf_get {pos : Nat → Nat → Nat} {n0 n1 : Nat} {a : Arr ℂ} {i j : Nat} (hi : i < n0) (hj : j < n1) :
    (blockOf pos n0 n1 a).get (n1 * i + j) = a.get (pos i j) := by
  unfold blockOf
  simp only
  rw [if_pos (flat_lt hi hj), Nat.mul_add_div (by omega), Nat.div_eq_of_lt hj, Nat.mul_add_mod, Nat.mod_eq_of_lt hj, add_zero]

theorem takeBlock_ok {m : Mem} {n0 n1 : Nat} {pos : Nat → Nat → Nat} (a : Arr ℂ) (h : Plane m a.size n0 n1 pos) :
    takeBlock (mkView m 2 .success) n0 n1 a = some (blockOf pos n0 n1 a) := by
  unfold takeBlock blockOf
  rw [if_pos]
  · congr 2
    funext k
    by_cases hk : k < n0 * n1
    · have h1 : 0 < n1 := by
        rcases Nat.eq_zero_or_pos n1 with h | h
        · rw [h, mul_zero] at hk
          omega
        · exact h
      rw [if_pos hk, if_pos hk, plane_addr h (Nat.div_lt_of_lt_mul (by rw [mul_comm]; exact hk)) (Nat.mod_lt _ h1),
        Int.toNat_natCast]
    · rw [if_neg hk, if_neg hk]
  · intro i hi j hj
    have := h.fits i j hi hj
    rw [plane_addr h hi hj]
    omega

theorem putBlock_ok {m : Mem} {n0 n1 : Nat} {pos : Nat → Nat → Nat} (a b : Arr ℂ) (h : Plane m a.size n0 n1 pos)
    (hd : Distinct n0 n1 pos) (hb : b.size = n0 * n1) :
    ∃ z, putBlock (mkView m 2 .success) n0 n1 b a = some z ∧ HasRows pos n0 n1 (fun i j => b.get (n1 * i + j)) a z := by
  unfold putBlock
  rw [loop_congr _ (fun (a : Arr ℂ) (p : Nat × Nat) => a.write ((pos p.1 p.2 : Nat) : Int) (b.get (n1 * p.1 + p.2)))]
  · obtain ⟨r, h1, h2, h3, h4⟩ := Arr.store_spec (nest2 n0 n1) (fun p => ((pos p.1 p.2 : Nat) : Int))
      (fun p => b.get (n1 * p.1 + p.2)) (List.Nodup.map_on (fun x hx y hy e => by
        have hx' := mem_nest2.1 hx
        have hy' := mem_nest2.1 hy
        have e' : pos x.1 x.2 = pos y.1 y.2 := by exact_mod_cast e
        exact Prod.ext (hd _ _ _ _ hx'.1 hx'.2 hy'.1 hy'.2 e').1 (hd _ _ _ _ hx'.1 hx'.2 hy'.1 hy'.2 e').2) (nest2_nodup n0 n1)) a
      (fun x hx => by
        have hx' := mem_nest2.1 hx
        have := h.fits _ _ hx'.1 hx'.2
        omega)
    refine ⟨r, h1, h2, fun i j hi hj => ?_, fun x hx => h4 x fun p hp => ?_⟩
    · have := h3 (i, j) (mem_nest2.2 ⟨hi, hj⟩)
      rw [Int.toNat_natCast] at this
      exact this
    · have hp' := mem_nest2.1 hp
      have := hx _ _ hp'.1 hp'.2
      omega
  · intro p hp s
    have hp' := mem_nest2.1 hp
    rw [Arr.read_nat, if_pos (by rw [hb]; exact flat_lt hp'.1 hp'.2)]
    simp only [Option.bind_some]
    rw [← plane_addr h hp'.1 hp'.2]

/-- **C110, `add_to_subgrid_2d`**, for facet offsets that are not too negative and arrays with the rows that the function assumes. -/
theorem C110_add_to_subgrid_2d_partial (c : Cfg) (hc : createCheck c = .success) (Fn : Arr ℝ) (hF : (Fn.size : Int) = c.m) (o0 o1 : Int)
    {mi mo : Mem} {src out : Arr ℂ} {m M : Nat} {pi po : Nat → Nat → Nat} (hi : In mi src m m pi) (ho : Out mo out M M po)
    (hm : (m : Int) = c.m) (hM : (M : Int) = c.xM) (f0 f1 : Int) (hf0 : f0 = o0.tdiv (c.image / c.xM))
    (hf1 : f1 = o1.tdiv (c.image / c.xM)) (h0 : 0 ≤ f0 + c.m / 2) (h1 : 0 ≤ f1 + c.m / 2) :
    ∃ z, addToSubgrid2dCall c Fn mi mo o0 o1 .success src out = some (.success, z) ∧ z.size = out.size ∧
      (∀ i j, i < m → j < m → z.get (po (subgridPos c f0 i).toNat (subgridPos c f1 j).toNat) =
        out.get (po (subgridPos c f0 i).toNat (subgridPos c f1 j).toNat) +
          Fn.get i * Fn.get j * src.get (pi (contribPos c f0 i).toNat (contribPos c f1 j).toNat)) ∧
      (∀ r q, r < M → q < M → (∀ i j, i < m → j < m → ¬ (subgridPos c f0 i = r ∧ subgridPos c f1 j = q)) →
        z.get (po r q) = out.get (po r q)) ∧
      ∀ x, (∀ r q, r < M → q < M → po r q ≠ x) → z.get x = out.get x := by
  have em : c.m.toNat = m := by omega
  have eM : c.xM.toNat = M := by omega
  unfold addToSubgrid2dCall
  simp only [hi.view, hi.plane.dim1 hm, ho.view, ho.plane.dim1 hM, em, eM]
  rw [if_neg (by simp), if_neg (by simp), takeBlock_ok src hi.plane, takeBlock_ok out ho.plane]
  simp only [Option.bind_some]
  obtain ⟨y, ey, sy, vy, wy⟩ := C32_add_2d_partial c hc o0 o1 Fn (blockOf pi m m src) (blockOf po M M out) hF (by rw [em]; rfl)
    (by rw [eM]; rfl) f0 f1 hf0 hf1 h0 h1
  obtain ⟨z, ez, sz, vz, wz⟩ := putBlock_ok (m := mo) out y ho.plane ho.distinct sy
  rw [ey, Option.bind_some, ez]
  refine ⟨z, rfl, sz, fun i j hi' hj' => ?_, fun r q hr hq hh => ?_, wz⟩
  · have a0 := subgridPos_range hc f0 i
    have a1 := subgridPos_range hc f1 j
    have b0 := contribPos_range hc f0 i
    have b1 := contribPos_range hc f1 j
    have := vy i (by omega) j (by omega)
    unfold subgridPos2 contribPos2 at this
    rw [em, eM] at this
    simp only at this
    rw [vz _ _ (by omega) (by omega)]
    beta_reduce
    rw [this, blockOf_get (by omega) (by omega), blockOf_get (by omega) (by omega)]
  · rw [vz r q hr hq]
    beta_reduce
    rw [wy (M * r + q), blockOf_get hr hq]
    intro i hi' j hj' he
    have a0 := subgridPos_range hc f0 i
    have a1 := subgridPos_range hc f1 j
    unfold subgridPos2 at he
    rw [eM] at he
    obtain ⟨e0, e1⟩ := flat_inj (by simp only; omega) hq he
    exact hh i j (by omega) (by omega) ⟨by simp only at e0; omega, by simp only at e1; omega⟩

/-- Fourier sum over a plane, as finishing takes it. -/
def gridSum2 (M : Nat) (y : Nat → Nat → ℂ) (u v : Int) : ℂ := gridSum M (fun r => gridSum M (y r) v) u

theorem gridSum_congr (n : Nat) (x y : Nat → ℂ) (u : Int) (h : ∀ r < n, x r = y r) : gridSum n x u = gridSum n y u := by
  unfold gridSum
  exact sum_congr rfl fun r hr => by rw [h r (mem_range.1 hr)]

theorem gridSum2_add (M : Nat) (x y : Nat → Nat → ℂ) (u v : Int) :
    gridSum2 M (fun r q => x r q + y r q) u v = gridSum2 M x u v + gridSum2 M y u v := by
  unfold gridSum2
  rw [← gridSum_add]
  exact gridSum_congr _ _ _ _ fun r _ => gridSum_add _ _ _ _

/-- Fourier sum over values placed at the positions of a facet. -/
theorem gridSum_placed (c : Cfg) (m M : Nat) (hm : 0 < m) (hmM : m ≤ M) (em : c.m = m) (eM : c.xM = M) (f : Int) (x y : Nat → ℂ)
    (hx : ∀ i < m, x (subgridPos c f i).toNat = y i) (hz : ∀ r < M, (∀ i < m, subgridPos c f i ≠ r) → x r = 0) (u : Int) :
    gridSum M x u = ∑ i ∈ range m, root M ((f - (m / 2 : Nat) + i) * u) * y i := by
  unfold gridSum
  have hp : ∀ i : Nat, subgridPos c f i = (f + (M / 2 : Nat) - (m / 2 : Nat) + i) % M := by
    intro i
    unfold subgridPos
    rw [em, eM]
    push_cast
    rfl
  rw [sum_placed M m (by omega) hmM (f + (M / 2 : Nat) - (m / 2 : Nat)) x y (fun r => root M ((r - (M / 2 : Nat)) * u))]
  · refine sum_congr rfl fun i _ => ?_
    congr 1
    rw [sub_mul, sub_eq_add_neg, root_add, root_emod _ (by omega), ← root_add]
    congr 1
    ring
  · intro i hi
    rw [← hp]
    exact hx i hi
  · intro r hr hh
    refine hz r hr fun i hi => ?_
    rw [hp]
    exact hh i hi

/-- Finishing one axis. -/
theorem finish_axis (h : Nat) (hh : 0 < h) (o : Int) (y : Nat → ℂ) (v : Nat) :
    ∑ t ∈ range (2 * h), root (2 * h) (sgn true * (t * v)) * (root (2 * h) (t * (o + h)) * y ((t + h) % (2 * h))) =
      gridSum (2 * h) y (o + v - h) := by
  have hn : 0 < 2 * h := by omega
  unfold gridSum
  rw [show 2 * h / 2 = h by omega]
  rw [sum_placed (2 * h) (2 * h) hn le_rfl h y (fun t => y ((t + h) % (2 * h)))
    (fun r => root (2 * h) ((r - h) * (o + v - h)))]
  · refine sum_congr rfl fun j _ => ?_
    rw [← mul_assoc]
    congr 1
    simp only [sgn, if_true, one_mul]
    rw [← root_add]
    have e : ∀ z : Int, root (2 * h) ((((z % (2 * h : Nat)).toNat : Int) - h) * (o + v - h)) =
        root (2 * h) ((z - h) * (o + v - h)) := by
      intro z
      rw [sub_mul, sub_eq_add_neg, root_add, root_emod _ hn, ← root_add]
      congr 1
      ring
    rw [e]
    have : (j * v + j * (o + h) : Int) = (h + j - h) * (o + v - h) + (2 * h : Nat) * j := by push_cast; ring
    rw [this, root_add_period]
  · intro j _
    congr 1
    rw [show ((h : Int) + j) = ((j + h : Nat) : Int) by push_cast; ring, ← Int.natCast_mod, Int.toNat_natCast]
  · intro i hi hh
    exfalso
    obtain ⟨k, k1, k2, k3⟩ := window_surj (m := (2 * h : Nat)) (by omega) h i (by omega) (by omega)
    refine hh (k - h).toNat (by omega) ?_
    rw [Int.toNat_of_nonneg (by omega), add_sub_cancel, k3]

/-- **C110, `finish_subgrid_inplace_2d`** on an array with contiguous rows and nothing between or around them. -/
theorem C110_finish_subgrid_2d_partial (c : Cfg) (hc : createCheck c = .success) (u0 u1 : Int) {m : Mem} {a : Arr ℂ} {M : Nat}
    (h : Out m a M M fun i j => M * i + j) (hM : (M : Int) = c.xM) (hs : a.size = M * M) (hs0 : m.strideElementsDim 0 = M)
    (hs1 : m.strideElementsDim 1 = 1) :
    ∃ z, finishSubgrid2dCall c m u0 u1 .success a = some (.success, z) ∧ z.size = M * M ∧ ∀ i j, i < M → j < M →
      z.get (M * i + j) = 1 / (M : ℂ) ^ 2 * gridSum2 M (fun r q => a.get (M * r + q)) (u0 + i - (M / 2 : Nat)) (u1 + j - (M / 2 : Nat)) := by
  obtain ⟨s, t, m', _, _, _, _, _, _, ex, _, _, hx2, _⟩ := sizesN hc
  have hm0 := m_pos hc
  have hx := m_le_xM hc
  obtain ⟨k, hk⟩ : 2 ∣ M := by
    have : M = t * m' := by omega
    rw [this]
    exact hx2
  have eM : c.xM.toNat = M := by omega
  unfold finishSubgrid2dCall
  simp only [h.view, h.plane.dim0 hM, h.plane.dim1 hM, eM]
  have est : ((mkView m 2 .success).stride.getD 0 0, (mkView m 2 .success).stride.getD 1 0) = ((M : Int), (1 : Int)) := by
    simp [mkView, List.range_succ, hs0, hs1]
  rw [if_neg (by simp), if_neg (by simp), est]
  subst hk
  obtain ⟨r, h1, h2, h3⟩ := finishSubgrid2d_spec k (by omega) u0 u1 a hs
  rw [h1]
  refine ⟨r, rfl, h2, fun i j hi hj => ?_⟩
  rw [h3 i hi j hj, show 2 * k / 2 = k by omega]
  have e1 : (1 / ((2 * k : Nat) : ℂ) / ((2 * k : Nat) : ℂ)) = 1 / ((2 * k : Nat) : ℂ) ^ 2 := by
    rw [div_div, sq]
  rw [e1]
  congr 1
  unfold gridSum2
  rw [← finish_axis k (by omega)]
  unfold dft2
  refine sum_congr rfl fun t0 _ => ?_
  rw [← finish_axis k (by omega)]
  simp only [mul_sum]
  exact sum_congr rfl fun t1 _ => by ring

end
end Sdp.Swiftly
