import Verif.Swiftly.Pipeline
import Verif.Swiftly.PipelineSpec

/-! # C102: the sequences in closed form -/

namespace Sdp.Swiftly
open Finset Sdp.Fft
noncomputable section

/-- The sizes of an accepted plan as naturals. -/
theorem sizesN {c : Cfg} (h : createCheck c = .success) :
    ∃ s t m : Nat, 0 < s ∧ 0 < t ∧ 0 < m ∧ c.m = m ∧ c.image = (s * t * m : Nat) ∧ c.yN = (s * m : Nat) ∧
      c.xM = (t * m : Nat) ∧ c.image / c.xM = s ∧ c.image.tdiv c.yN = t ∧ 2 ∣ t * m ∧ 2 ∣ s * m := by
  obtain ⟨s, t, hs, ht, hm, hi, hy, hx, h1, h2, h3, h4⟩ := sizes h
  obtain ⟨s, rfl⟩ := Int.eq_ofNat_of_zero_le hs.le
  obtain ⟨t, rfl⟩ := Int.eq_ofNat_of_zero_le ht.le
  obtain ⟨m, em⟩ := Int.eq_ofNat_of_zero_le hm.le
  rw [em] at hm hi hy hx
  have hi0 : 0 ≤ c.image := by rw [hi]; positivity
  refine ⟨s, t, m, by omega, by omega, by omega, em, by rw [hi]; push_cast; ring, by rw [hy]; push_cast; ring,
    by rw [hx]; push_cast; ring, ?_, h2, ?_, ?_⟩
  · rw [← h1, Int.tdiv_eq_ediv_of_nonneg hi0]
  · rw [hx] at h3; exact_mod_cast h3
  · rw [hy] at h4; exact_mod_cast h4

/-- Sum over `n` positions of values placed at consecutive positions modulo `n`. -/
theorem sum_placed (n F : Nat) (hn : 0 < n) (hF : F ≤ n) (a : Int) (x y G : Nat → ℂ)
    (hx : ∀ j < F, x ((a + j) % n).toNat = y j)
    (hz : ∀ i : Nat, i < n → (∀ j : Nat, j < F → (a + j) % (n : Int) ≠ i) → x i = 0) :
    ∑ i ∈ range n, G i * x i = ∑ j ∈ range F, G ((a + j) % n).toNat * y j := by
  have hn' : (n : Int) ≠ 0 := by omega
  have hr : ∀ j : Nat, 0 ≤ (a + j) % (n : Int) ∧ (a + j) % (n : Int) < n := fun j =>
    ⟨Int.emod_nonneg _ hn', Int.emod_lt_of_pos _ (by omega)⟩
  symm
  refine sum_of_injOn (fun j : Nat => ((a + j) % (n : Int)).toNat) ?_ ?_ ?_ ?_
  · intro i hi j hj h
    simp only [coe_range, Set.mem_Iio] at hi hj
    have h1 := hr i
    have h2 := hr j
    have h3 : (a + i) % (n : Int) = (a + j) % (n : Int) := by
      simp only at h
      omega
    have := window_inj (m := F) (n := n) (a := a) (k := a + i) (l := a + j) (by omega) (by omega) (by omega) h3
    omega
  · intro j hj
    have := hr j
    simp only [coe_range, Set.mem_Iio]
    omega
  · intro i hi hni
    rw [mem_range] at hi
    rw [hz i hi, mul_zero]
    intro j hj he
    apply hni
    refine ⟨j, by simpa using hj, ?_⟩
    simp only [he, Int.toNat_natCast]
  · intro j hj
    rw [mem_range] at hj
    simp only [hx j hj]

theorem root_emod (n : Nat) (hn : 0 < n) (a z : Int) : root n (((a % n).toNat : Int) * z) = root n (a * z) := by
  rw [Int.toNat_of_nonneg (Int.emod_nonneg _ (by omega)), mul_comm, root_mod, mul_comm]

/-- A prepared facet at position `k`. -/
theorem prepared_eq (c : Cfg) (hc : createCheck c = .success) (n : Nat) (hn : c.yN = n) (F : Nat) (o : Int) (hF : 1 ≤ F)
    (hF' : F ≤ n) (fct : Arr ℂ) (Fb : Arr ℝ) (out : Arr ℂ) (hf : fct.size = F) (hb : Fb.size = n) (ho : out.size = n) :
    ∃ r, prepareFacet c F o fct Fb out = some r ∧ r.size = n ∧ ∀ k : Int, r.get (k % n).toNat = 1 / (n : ℂ) *
      ∑ j ∈ range F, root n (k * (o - (F / 2 : Nat) + j)) * (fct.get j * Fb.get (j + n / 2 - F / 2)) := by
  have hn0 : 0 < n := by omega
  obtain ⟨r, x, h1, h2, h3, h4, h5⟩ := C59_prepare_facet c hc F o (by omega) (by omega) fct Fb out (by omega) (by omega) (by omega)
  refine ⟨r, h1, by omega, fun k => ?_⟩
  have e0 := Int.emod_nonneg k (b := n) (by omega)
  have e1 := Int.emod_lt_of_pos k (b := n) (by omega)
  rw [h3 _ (by omega), hn]
  rw [Int.toNat_natCast, Int.cast_natCast]
  congr 1
  unfold dft
  rw [sum_placed n F hn0 hF' (o - (F / 2 : Nat)) x (fun j => fct.get j * Fb.get (j + n / 2 - F / 2))
    (fun a => root n (sgn true * (a * ((k % n).toNat : Nat))))]
  · refine sum_congr rfl fun j _ => ?_
    congr 1
    simp only [sgn, if_true, one_mul]
    rw [root_emod n hn0, mul_comm, root_emod n hn0]
  · intro j hj
    have := h4 j (by omega)
    rw [hn] at this
    rw [Int.natCast_ediv, Nat.cast_ofNat, this]
    congr 3
    omega
  · intro i hi hh
    refine h5 i (by omega) fun j hj => ?_
    have := hh j (by omega)
    rw [hn]
    rw [Int.natCast_ediv, Nat.cast_ofNat] at this
    exact this

/-- An extracted contribution at position `a`. -/
theorem extracted_eq (c : Cfg) (hc : createCheck c = .success) (n m : Nat) (hn : c.yN = n) (hm : c.m = m) (hm0 : 0 < m) (u0 : Int)
    (fct out : Arr ℂ) (hf : fct.size = n) (ho : out.size = m) :
    ∃ r, extractFromFacet c u0 fct out = some r ∧ r.size = m ∧ ∀ a : Int, r.get (a % m).toNat =
      ∑ d ∈ range m, root m (-((winStart c u0 + d) * a)) * fct.get ((winStart c u0 + d) % n).toNat := by
  obtain ⟨r, x, h1, h2, h3, h4⟩ := C31_extract c hc u0 fct out (by omega) (by omega)
  refine ⟨r, h1, by omega, fun a => ?_⟩
  have e0 := Int.emod_nonneg a (b := m) (by omega)
  have e1 := Int.emod_lt_of_pos a (b := m) (by omega)
  rw [h3 _ (by omega), hm, Int.toNat_natCast]
  unfold dft
  rw [sum_placed m m hm0 le_rfl (winStart c u0) x (fun d => fct.get ((winStart c u0 + d) % n).toNat)
    (fun b => root m (sgn false * (b * ((a % m).toNat : Nat))))]
  · refine sum_congr rfl fun j _ => ?_
    congr 1
    simp only [sgn, Bool.false_eq_true, if_false]
    rw [show ∀ z w : Int, -1 * (z * w) = z * -w by intros; ring, root_emod m hm0,
      show ∀ z w : Int, z * -w = w * -z by intros; ring, root_emod m hm0]
    congr 1
    ring
  · intro j hj
    have := h4 (winStart c u0 + j) (by omega) (by omega)
    rw [hm, hn] at this
    exact this
  · intro i hi hh
    exfalso
    obtain ⟨k, k1, k2, k3⟩ := window_surj (m := m) (by omega) (winStart c u0) i (by omega) (by omega)
    refine hh (k - winStart c u0).toNat (by omega) ?_
    rw [Int.toNat_of_nonneg (by omega), add_sub_cancel, k3]

/-- Fourier sum over a subgrid image, as finishing takes it. -/
def gridSum (n : Nat) (y : Nat → ℂ) (u : Int) : ℂ := ∑ r ∈ range n, root n ((r - (n / 2 : Nat)) * u) * y r

/-- A finished subgrid. -/
theorem finish_eq (n : Nat) (hn : 0 < n) (he : 2 ∣ n) (o : Int) (sg : Arr ℂ) (hs : sg.size = n) :
    ∃ r, finishSubgrid n o sg = some r ∧ r.size = n ∧
      ∀ v < n, r.get v = 1 / (n : ℂ) * gridSum n sg.get (o + v - (n / 2 : Nat)) := by
  obtain ⟨h, rfl⟩ := he
  obtain ⟨r, h1, h2, h3⟩ := finishSubgrid_spec h (by omega) o sg hs
  refine ⟨r, h1, h2, fun v hv => ?_⟩
  rw [h3 v hv]
  congr 1
  unfold gridSum dft
  rw [show 2 * h / 2 = h by omega]
  rw [sum_placed (2 * h) (2 * h) hn le_rfl h sg.get (fun t => sg.get ((t + h) % (2 * h)))
    (fun r => root (2 * h) ((r - h) * (o + v - h)))]
  · refine sum_congr rfl fun j _ => ?_
    rw [← mul_assoc]
    congr 1
    simp only [sgn, if_true, one_mul]
    rw [← root_add]
    have e : ∀ z : Int, root (2 * h) ((((z % (2 * h : Nat)).toNat : Int) - h) * (o + v - h)) =
        root (2 * h) ((z - h) * (o + v - h)) := by
      intro z
      rw [sub_mul, sub_eq_add_neg, root_add, root_emod _ hn, ← root_add]
      congr 1
      ring
    rw [e]
    have : (j * v + j * (o + h) : Int) = (h + j - h) * (o + v - h) + (2 * h : Nat) * j := by push_cast; ring
    rw [this, root_add_period]
  · intro j _
    congr 1
    rw [show ((h : Int) + j) = ((j + h : Nat) : Int) by push_cast; ring, ← Int.natCast_mod, Int.toNat_natCast]
  · intro i hi hh
    exfalso
    obtain ⟨k, k1, k2, k3⟩ := window_surj (m := (2 * h : Nat)) (by omega) h i (by omega) (by omega)
    refine hh (k - h).toNat (by omega) ?_
    rw [Int.toNat_of_nonneg (by omega), add_sub_cancel, k3]

theorem gridSum_add (n : Nat) (x y : Nat → ℂ) (u : Int) : gridSum n (fun r => x r + y r) u = gridSum n x u + gridSum n y u := by
  unfold gridSum
  simp only [mul_add, sum_add_distrib]

/-- What one facet adds to a subgrid image, as a Fourier sum. -/
theorem addFacet_spec (c : Cfg) (hc : createCheck c = .success) (s t m : Nat) (hs : 0 < s) (ht : 0 < t) (hm : 0 < m)
    (em : c.m = m) (ey : c.yN = (s * m : Nat)) (ex : c.xM = (t * m : Nat)) (es : c.image / c.xM = s) (he : m % 2 = 0)
    (p : Nat → ℝ) (Fn Fb : Arr ℝ) (hFn : Fn.size = m) (hFb : Fb.size = s * m) (hp : ∀ i < m, Fn.get i = p (s * i))
    (u0 : Int) (f : FacetRow) (h1 : 1 ≤ f.size) (h2 : f.size ≤ s * m) (h3 : f.data.size = f.size) (h4 : f.prepared.size = s * m)
    (h5 : f.contrib.size = m) (acc : Arr ℂ) (ha : acc.size = t * m) :
    ∃ r, addFacet c Fn Fb u0 acc f = some r ∧ r.size = t * m ∧ ∀ u : Int, gridSum (t * m) r.get u = gridSum (t * m) acc.get u +
      (t * m : Nat) * ∑ j ∈ range f.size, f.data.get j * Fb.get (j + s * m / 2 - f.size / 2) *
        interp s t m p (f.offset / s) (winStart c u0) (f.offset - (f.size / 2 : Nat) + j) u := by
  have hn : 0 < s * m := Nat.mul_pos hs hm
  have hx : 0 < t * m := Nat.mul_pos ht hm
  unfold addFacet
  obtain ⟨P, eP, sP, vP⟩ := prepared_eq c hc (s * m) ey f.size f.offset h1 h2 f.data Fb f.prepared h3 hFb h4
  rw [eP]
  simp only [Option.bind_some]
  obtain ⟨Q, eQ, sQ, vQ⟩ := extracted_eq c hc (s * m) m ey em hm u0 P f.contrib sP h5
  rw [eQ]
  simp only [Option.bind_some]
  obtain ⟨r, er, sr, vr⟩ := C32_add c hc f.offset Fn Q acc (by omega) (by omega) (by omega)
  refine ⟨r, er, by omega, fun u => ?_⟩
  have e1 : r.get = fun j => acc.get j + ∑ i ∈ range m, if subgridPos c (fo c f.offset) i = j then
      (Fn.get i : ℂ) * Q.get (contribPos c (fo c f.offset) i).toNat else 0 := by
    funext j
    rw [vr j, em, Int.toNat_natCast]
  rw [e1, gridSum_add]
  congr 1
  have efo : fo c f.offset = f.offset / s := by unfold fo; rw [es]
  rw [efo]
  generalize hfo : f.offset / (s : Int) = o
  unfold gridSum
  simp only [mul_sum (range m)]
  rw [sum_comm]
  have e2 : ∀ i ∈ range m, (∑ r ∈ range (t * m), root (t * m) ((r - (t * m / 2 : Nat)) * u) *
      (if subgridPos c o i = r then (Fn.get i : ℂ) * Q.get (contribPos c o i).toNat else 0)) =
      root (t * m) ((o - (m / 2 : Nat) + i) * u) * (p (s * i) * Q.get (contribPos c o i).toNat) := by
    intro i hi
    rw [mem_range] at hi
    have hr := subgridPos_range hc o i
    rw [sum_eq_single_of_mem (subgridPos c o i).toNat (by rw [mem_range]; omega)]
    · rw [if_pos (by omega), hp i hi]
      congr 1
      unfold subgridPos
      rw [ex, em, sub_mul, sub_eq_add_neg, root_add, root_emod _ hx, ← root_add]
      congr 1
      push_cast
      ring
    · intro r hr' hne
      rw [if_neg (by omega), mul_zero]
  rw [sum_congr rfl e2]
  have e3 : ∀ i ∈ range m, root (t * m) ((o - (m / 2 : Nat) + i) * u) * (p (s * i) * Q.get (contribPos c o i).toNat) =
      ∑ j ∈ range f.size, f.data.get j * Fb.get (j + s * m / 2 - f.size / 2) * (1 / ((s * m : Nat) : ℂ) *
        (p (s * i) * root (t * m) ((o - (m / 2 : Nat) + i) * u) * ∑ d ∈ range m, root (s * m) ((winStart c u0 + d) *
          (f.offset - (f.size / 2 : Nat) + j - s * (o - (m / 2 : Nat) + i))))) := by
    intro i hi
    have e4 : Q.get (contribPos c o i).toNat = ∑ d ∈ range m, root m (-((winStart c u0 + d) * (o - (m / 2 : Nat) + i))) *
        P.get ((winStart c u0 + d) % (s * m : Nat)).toNat := by
      unfold contribPos
      rw [em, vQ]
      refine sum_congr rfl fun d _ => ?_
      congr 1
      rw [← root_add_period m _ (winStart c u0 + d)]
      congr 1
      have : (m : Int) = 2 * (m / 2 : Nat) := by omega
      have h7 : ((m : Int) / 2) = (m / 2 : Nat) := by omega
      rw [h7]
      generalize ((m / 2 : Nat) : Int) = q at *
      rw [this]
      ring
    rw [e4]
    simp only [vP, mul_sum]
    rw [sum_comm]
    refine sum_congr rfl fun j _ => ?_
    refine sum_congr rfl fun d _ => ?_
    have h6 : root m (-((winStart c u0 + d) * (o - (m / 2 : Nat) + i))) *
        root (s * m) ((winStart c u0 + d) * (f.offset - (f.size / 2 : Nat) + j)) =
        root (s * m) ((winStart c u0 + d) * (f.offset - (f.size / 2 : Nat) + j - s * (o - (m / 2 : Nat) + i))) := by
      rw [← root_scale s m hs, ← root_add]
      congr 1
      ring
    rw [← h6]
    ring
  rw [sum_congr rfl e3, sum_comm, mul_sum]
  refine sum_congr rfl fun j _ => ?_
  unfold interp
  rw [← mul_sum, ← mul_sum]
  have hn' : ((s * m : Nat) : ℂ) ≠ 0 := by exact_mod_cast hn.ne'
  have hx' : ((t * m : Nat) : ℂ) ≠ 0 := by exact_mod_cast hx.ne'
  field_simp

/-- All facets. -/
theorem addFacets_spec (c : Cfg) (hc : createCheck c = .success) (s t m : Nat) (hs : 0 < s) (ht : 0 < t) (hm : 0 < m)
    (em : c.m = m) (ey : c.yN = (s * m : Nat)) (ex : c.xM = (t * m : Nat)) (es : c.image / c.xM = s) (he : m % 2 = 0)
    (p : Nat → ℝ) (Fn Fb : Arr ℝ) (hFn : Fn.size = m) (hFb : Fb.size = s * m) (hp : ∀ i < m, Fn.get i = p (s * i))
    (u0 : Int) (fs : List FacetRow) (hf : ∀ f ∈ fs, 1 ≤ f.size ∧ f.size ≤ s * m ∧ f.data.size = f.size ∧
      f.prepared.size = s * m ∧ f.contrib.size = m) (acc : Arr ℂ) (ha : acc.size = t * m) :
    ∃ r, loop (addFacet c Fn Fb u0) acc fs = some r ∧ r.size = t * m ∧ ∀ u : Int, gridSum (t * m) r.get u =
      gridSum (t * m) acc.get u + (fs.map fun f : FacetRow => (t * m : Nat) * ∑ j ∈ range f.size, f.data.get j *
        Fb.get (j + s * m / 2 - f.size / 2) *
          interp s t m p (f.offset / s) (winStart c u0) (f.offset - (f.size / 2 : Nat) + j) u).sum := by
  induction fs generalizing acc with
  | nil => exact ⟨acc, rfl, ha, fun u => by simp⟩
  | cons f fs ih =>
    obtain ⟨q1, q2, q3, q4, q5⟩ := hf f (by simp)
    obtain ⟨r, er, sr, vr⟩ := addFacet_spec c hc s t m hs ht hm em ey ex es he p Fn Fb hFn hFb hp u0 f q1 q2 q3 q4 q5 acc ha
    obtain ⟨r2, er2, sr2, vr2⟩ := ih (fun g hg => hf g (by simp [hg])) r sr
    refine ⟨r2, ?_, sr2, fun u => ?_⟩
    · simp only [loop, er, Option.bind_some, er2]
    · rw [vr2, vr, List.map_cons, List.sum_cons, add_assoc]

end
end Sdp.Swiftly
