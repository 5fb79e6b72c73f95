import Verif.Swiftly.PipelineProps

/-! # C102: subgrids to a facet in closed form -/

namespace Sdp.Swiftly
open Finset Sdp.Fft
noncomputable section

/-- Fourier sum over a prepared facet, as finishing takes it. -/
def faceSum (n : Nat) (y : Nat → ℂ) (X : Int) : ℂ := ∑ k ∈ range n, root n (-(k * X)) * y k

theorem faceSum_add (n : Nat) (x y : Nat → ℂ) (u : Int) : faceSum n (fun r => x r + y r) u = faceSum n x u + faceSum n y u := by
  unfold faceSum
  simp only [mul_add, sum_add_distrib]

/-- A prepared subgrid at the position `a` counted from its middle. -/
theorem preparedSubgrid_eq (n : Nat) (hn : 0 < n) (he : 2 ∣ n) (o : Int) (sg : Arr ℂ) (hs : sg.size = n) :
    ∃ r, prepareSubgrid n o sg = some r ∧ r.size = n ∧ ∀ a : Int, r.get ((a + (n / 2 : Nat)) % n).toNat =
      (-1) ^ (o + (n / 2 : Nat)) * ∑ v ∈ range n, root n (-(a * (o + v - (n / 2 : Nat)))) * sg.get v := by
  obtain ⟨h, rfl⟩ := he
  obtain ⟨r, h1, h2, h3⟩ := prepareSubgrid_spec h (by omega) o sg hs
  refine ⟨r, h1, h2, fun a => ?_⟩
  rw [show 2 * h / 2 = h by omega]
  have e0 := Int.emod_nonneg (a + h) (b := (2 * h : Nat)) (by omega)
  have e1 := Int.emod_lt_of_pos (a + h) (b := (2 * h : Nat)) (by omega)
  rw [h3 _ (by omega)]
  unfold dft
  rw [mul_sum, mul_sum]
  refine sum_congr rfl fun v _ => ?_
  rw [show ∀ z : Int, -((o + h) * z) = z * -(o + h) by intros; ring, root_emod _ hn]
  have e2 : root (2 * h) (sgn false * (v * (((((a + h) % (2 * h : Nat)).toNat + h) % (2 * h) : Nat) : Int))) =
      root (2 * h) (-(a * v)) := by
    have : (((((a + h) % (2 * h : Nat)).toNat + h) % (2 * h) : Nat) : Int) = (a + h + h) % (2 * h : Nat) := by
      rw [Int.natCast_mod]
      push_cast
      rw [Int.toNat_of_nonneg (by push_cast at e0; exact e0), Int.emod_add_emod]
    rw [this]
    simp only [sgn, Bool.false_eq_true, if_false]
    rw [show ∀ z : Int, (-1 * (v * z) : Int) = (-v) * z by intros; ring, root_mod]
    rw [show (-v * (a + h + h) : Int) = -(a * v) + (2 * h : Nat) * (-v) by push_cast; ring, root_add_period]
  have e3 : root (2 * h) ((a + h) * -(o + h)) * root (2 * h) (-(a * v)) =
      (-1) ^ (o + (h : Int)) * root (2 * h) (-(a * (o + v - h))) := by
    rw [← root_half_turn h (by omega), ← root_add, ← root_add,
      ← root_add_period (2 * h) ((o + h) * h + -(a * (o + v - h))) (-(a + (o + h)))]
    congr 1
    push_cast
    ring
  rw [e2]
  linear_combination sg.get v * e3

/-- What one subgrid adds to a prepared facet, as a Fourier sum. -/
theorem addSubgrid_spec (c : Cfg) (hc : createCheck c = .success) (s t m : Nat) (hs : 0 < s) (ht : 0 < t) (hm : 0 < m)
    (em : c.m = m) (ey : c.yN = (s * m : Nat)) (ex : c.xM = (t * m : Nat)) (es : c.image / c.xM = s) (he : m % 2 = 0)
    (hx2 : 2 ∣ t * m) (p : Nat → ℝ) (Fn : Arr ℝ) (hFn : Fn.size = m) (hp : ∀ i < m, Fn.get i = p (s * i))
    (o f : Int) (hf : o = s * f) (hf0 : 0 ≤ f + (m / 2 : Nat)) (g : SubgridRow) (h1 : g.data.size = t * m)
    (h2 : g.contrib.size = m) (acc : Arr ℂ) (ha : acc.size = s * m) :
    ∃ r, addSubgrid c Fn o acc g = some r ∧ r.size = s * m ∧ ∀ X : Int, faceSum (s * m) r.get X = faceSum (s * m) acc.get X +
      (s * t * m : Nat) * ((-1) ^ (g.offset + (t * m / 2 : Nat)) * ∑ v ∈ range (t * m), g.data.get v *
        (starRingEnd ℂ) (interp s t m p f (winStart c g.offset) X (g.offset + v - (t * m / 2 : Nat)))) := by
  have hn : 0 < s * m := Nat.mul_pos hs hm
  have hx : 0 < t * m := Nat.mul_pos ht hm
  have hmn : m ≤ s * m := Nat.le_mul_of_pos_left m hs
  unfold addSubgrid
  rw [ex, Int.toNat_natCast]
  obtain ⟨R, eR, sR, vR⟩ := preparedSubgrid_eq (t * m) hx hx2 g.offset g.data h1
  rw [eR]
  simp only [Option.bind_some]
  unfold extractFromSubgrid
  have hdiv : f = o.tdiv (c.image / c.xM) := by
    rw [es, hf, Int.mul_tdiv_cancel_left _ (by omega)]
  obtain ⟨W, eW, sW, vW⟩ := C32_extract_partial c hc o Fn R g.contrib (by omega) (by omega) (by omega) f hdiv
    (by rw [em]; omega)
  rw [eW]
  simp only [Option.bind_some, fftRow]
  rw [if_pos (by omega)]
  simp only [Option.bind_some]
  set Z : Arr ℂ := ⟨W.size, fun k => if k < c.m.toNat then 1 / (c.m : ℂ) * dft true c.m.toNat W.get k else W.get k⟩ with hZ
  obtain ⟨r, er, sr, vr, wr⟩ := C31_add c hc g.offset Z acc (by omega) (by rw [hZ]; simp only; omega)
  refine ⟨r, er, by omega, fun X => ?_⟩
  have vZ : ∀ k : Int, Z.get (k % m).toNat = 1 / (m : ℂ) * ∑ i ∈ range m, root m (k * (f - (m / 2 : Nat) + i)) *
      (R.get (subgridPos c f i).toNat * p (s * i)) := by
    intro k
    have e0 := Int.emod_nonneg k (b := m) (by omega)
    have e1 := Int.emod_lt_of_pos k (b := m) (by omega)
    rw [hZ]
    simp only
    rw [if_pos (by omega), em, Int.toNat_natCast, Int.cast_natCast]
    congr 1
    unfold dft
    rw [sum_placed m m hm le_rfl (f + (m / 2 : Nat)) W.get (fun i => R.get (subgridPos c f i).toNat * p (s * i))
      (fun a => root m (sgn true * (a * ((k % m).toNat : Nat))))]
    · refine sum_congr rfl fun i _ => ?_
      congr 1
      simp only [sgn, if_true, one_mul]
      rw [root_emod m hm, mul_comm, root_emod m hm]
      rw [← root_add_period m (k * (f - (m / 2 : Nat) + i)) k]
      congr 1
      have : (m : Int) = 2 * (m / 2 : Nat) := by omega
      generalize ((m / 2 : Nat) : Int) = q at *
      rw [this]
      ring
    · intro i hi
      have := vW i (by omega)
      unfold contribPos at this
      rw [em] at this
      rw [Int.natCast_ediv, Nat.cast_ofNat, this, hp i hi]
    · intro i hi hh
      exfalso
      obtain ⟨k, k1, k2, k3⟩ := window_surj (m := m) (by omega) (f + (m / 2 : Nat)) i (by omega) (by omega)
      refine hh (k - (f + (m / 2 : Nat))).toNat (by omega) ?_
      rw [Int.toNat_of_nonneg (by omega), add_sub_cancel, k3]
  have e1 : r.get = fun k => acc.get k + (r.get k - acc.get k) := by funext k; ring
  rw [e1, faceSum_add]
  congr 1
  unfold faceSum
  rw [sum_placed (s * m) m hn hmn (winStart c g.offset) (fun k => r.get k - acc.get k)
    (fun d => Z.get ((winStart c g.offset + d) % m).toNat) (fun k => root (s * m) (-(k * X)))]
  rotate_left
  · intro d hd
    have := vr (winStart c g.offset + d) (by omega) (by omega)
    rw [ey, em] at this
    rw [this]
    ring
  · intro i hi hh
    rw [wr i, sub_self]
    intro k k1 k2 k3
    refine hh (k - winStart c g.offset).toNat (by omega) ?_
    rw [Int.toNat_of_nonneg (by omega), add_sub_cancel, ← ey, k3]
  have vR2 : ∀ i : Nat, R.get (subgridPos c f i).toNat = (-1) ^ (g.offset + (t * m / 2 : Nat)) * ∑ v ∈ range (t * m),
      root (t * m) (-((f - (m / 2 : Nat) + i) * (g.offset + v - (t * m / 2 : Nat)))) * g.data.get v := by
    intro i
    rw [← vR]
    unfold subgridPos
    rw [ex, em]
    congr 3
    push_cast
    ring
  -- both sides as sums over v, i, d
  have e2 : ∀ d ∈ range m, root (s * m) (-((((winStart c g.offset + d) % (s * m : Nat)).toNat : Int) * X)) *
      Z.get ((winStart c g.offset + d) % m).toNat = ∑ v ∈ range (t * m), ∑ i ∈ range m,
        1 / (m : ℂ) * (-1) ^ (g.offset + (t * m / 2 : Nat)) * g.data.get v * (p (s * i) *
          root (t * m) (-((f - (m / 2 : Nat) + i) * (g.offset + v - (t * m / 2 : Nat)))) *
            root (s * m) (-((winStart c g.offset + d) * (X - s * (f - (m / 2 : Nat) + i))))) := by
    intro d _
    rw [vZ, show ∀ z w : Int, -(z * w) = z * -w by intros; ring, root_emod _ hn]
    simp only [vR2, mul_sum, sum_mul]
    rw [sum_comm]
    refine sum_congr rfl fun v _ => sum_congr rfl fun i _ => ?_
    have h6 : root (s * m) ((winStart c g.offset + d) * -X) * root m ((winStart c g.offset + d) * (f - (m / 2 : Nat) + i)) =
        root (s * m) (-((winStart c g.offset + d) * (X - s * (f - (m / 2 : Nat) + i)))) := by
      rw [← root_scale s m hs, ← root_add]
      congr 1
      ring
    rw [← h6]
    ring
  rw [sum_congr rfl e2, sum_comm, mul_sum, mul_sum]
  refine sum_congr rfl fun v _ => ?_
  rw [sum_comm]
  unfold interp
  simp only [map_mul, map_sum, root_conj, map_div₀, map_one, map_natCast, Complex.conj_ofReal, mul_sum]
  refine sum_congr rfl fun i _ => sum_congr rfl fun d _ => ?_
  have q1 : (s : ℂ) ≠ 0 := by exact_mod_cast hs.ne'
  have q2 : (t : ℂ) ≠ 0 := by exact_mod_cast ht.ne'
  have q3 : (m : ℂ) ≠ 0 := by exact_mod_cast hm.ne'
  push_cast
  field_simp

/-- All subgrids. -/
theorem addSubgrids_spec (c : Cfg) (hc : createCheck c = .success) (s t m : Nat) (hs : 0 < s) (ht : 0 < t) (hm : 0 < m)
    (em : c.m = m) (ey : c.yN = (s * m : Nat)) (ex : c.xM = (t * m : Nat)) (es : c.image / c.xM = s) (he : m % 2 = 0)
    (hx2 : 2 ∣ t * m) (p : Nat → ℝ) (Fn : Arr ℝ) (hFn : Fn.size = m) (hp : ∀ i < m, Fn.get i = p (s * i))
    (o f : Int) (hf : o = s * f) (hf0 : 0 ≤ f + (m / 2 : Nat)) (gs : List SubgridRow)
    (hg : ∀ g ∈ gs, g.data.size = t * m ∧ g.contrib.size = m) (acc : Arr ℂ) (ha : acc.size = s * m) :
    ∃ r, loop (addSubgrid c Fn o) acc gs = some r ∧ r.size = s * m ∧ ∀ X : Int, faceSum (s * m) r.get X =
      faceSum (s * m) acc.get X + (gs.map fun g : SubgridRow => (s * t * m : Nat) * ((-1) ^ (g.offset + (t * m / 2 : Nat)) *
        ∑ v ∈ range (t * m), g.data.get v *
          (starRingEnd ℂ) (interp s t m p f (winStart c g.offset) X (g.offset + v - (t * m / 2 : Nat))))).sum := by
  induction gs generalizing acc with
  | nil => exact ⟨acc, rfl, ha, fun u => by simp⟩
  | cons g gs ih =>
    obtain ⟨q1, q2⟩ := hg g (by simp)
    obtain ⟨r, er, sr, vr⟩ := addSubgrid_spec c hc s t m hs ht hm em ey ex es he hx2 p Fn hFn hp o f hf hf0 g q1 q2 acc ha
    obtain ⟨r2, er2, sr2, vr2⟩ := ih (fun g hg' => hg g (by simp [hg'])) r sr
    refine ⟨r2, ?_, sr2, fun u => ?_⟩
    · simp only [loop, er, Option.bind_some, er2]
    · rw [vr2, vr, List.map_cons, List.sum_cons, add_assoc]

end
end Sdp.Swiftly
