import Verif.Swiftly.CallProps
import Verif.Swiftly.PipelineBack

/-! # C110: what each whole call computes, on arrays with any strides -/

namespace Sdp.Swiftly
open Finset Sdp.Fft Sdp.GridUtil
noncomputable section

theorem HasRows.congr {pos : Nat → Nat → Nat} {n0 n1 : Nat} {u v : Nat → Nat → ℂ} {a z : Arr ℂ} (h : HasRows pos n0 n1 u a z)
    (e : ∀ r j, r < n0 → j < n1 → u r j = v r j) : HasRows pos n0 n1 v a z :=
  ⟨h.1, fun r j hr hj => by rw [h.2.1 r j hr hj, e r j hr hj], h.2.2⟩

theorem rowOf_get {pos : Nat → Nat → Nat} {n : Nat} {a : Arr ℂ} {r j : Nat} (h : j < n) : (rowOf pos n a r).get j = a.get (pos r j) :=
  if_pos h

/-- Rows chosen at once. -/
theorem rows_choice {n : Nat} {P : Nat → Arr ℂ → Prop} (h : ∀ r < n, ∃ x, P r x) : ∃ val : Nat → Arr ℂ, ∀ r < n, P r (val r) := by
  classical
  exact ⟨fun r => if hr : r < n then (h r hr).choose else ⟨0, fun _ => 0⟩, fun r hr => by
    simp only [dif_pos hr]
    exact (h r hr).choose_spec⟩

section Calls
variable (c : Cfg) (hc : createCheck c = .success) {mi mo : Mem} {src out : Arr ℂ} {n ni no : Nat} {pi po : Nat → Nat → Nat}
include hc

/-- **C110, `prepare_facet`.**  Arrays of the required shapes, with any strides: element `k` of each output row is the stated
Fourier sum over the same row of the facet, whatever the output contained, and no other memory is written. -/
theorem C110_prepare_facet (Fb : Arr ℝ) (hb : (Fb.size : Int) = c.yN) (o : Int) (hi : In mi src n ni pi) (ho : Out mo out n no po)
    (h1 : 1 ≤ ni) (hni : (ni : Int) ≤ c.yN) (hno : (no : Int) = c.yN) :
    ∃ z, prepareFacetCall c Fb mi mo o .success src out = some (.success, z) ∧
      HasRows po n no (fun r k => 1 / (no : ℂ) * ∑ j ∈ range ni, Spec.phase no k (o - (ni / 2 : Nat) + j) *
        (src.get (pi r j) * Fb.get (j + no / 2 - ni / 2))) out z := by
  have H : ∀ r < n, ∃ x : Arr ℂ, (prepareFacet c ni o (rowOf pi ni src r) Fb (rowOf po no out r) = some x ∧ x.size = no) ∧
      ∀ k < no, x.get k = 1 / (no : ℂ) * ∑ j ∈ range ni, Spec.phase no k (o - (ni / 2 : Nat) + j) *
        (src.get (pi r j) * Fb.get (j + no / 2 - ni / 2)) := by
    intro r hr
    obtain ⟨x, e, s, v⟩ := prepared_eq c hc no hno.symm ni o h1 (by omega) (rowOf pi ni src r) Fb (rowOf po no out r) rfl
      (by omega) rfl
    refine ⟨x, ⟨e, s⟩, fun k hk => ?_⟩
    have := v k
    rw [Int.emod_eq_of_lt (by omega) (by omega), Int.toNat_natCast] at this
    rw [this]
    congr 1
    refine sum_congr rfl fun j hj => ?_
    rw [rowOf_get (mem_range.1 hj)]
    rfl
  obtain ⟨val, hv⟩ := rows_choice H
  obtain ⟨z, e, hz⟩ := call_prepare_facet c Fb o hi ho hni hno val fun r hr => (hv r hr).1
  exact ⟨z, e, hz.congr fun r j hr hj => (hv r hr).2 j hj⟩

/-- **C110, `extract_from_facet`.**  Element `a` of each row is the Fourier sum over the `m` elements of the same row of the
prepared facet from `winStart` on, counted modulo `yN`. -/
theorem C110_extract_from_facet (u0 : Int) (hi : In mi src n ni pi) (ho : Out mo out n no po)
    (hni : (ni : Int) = c.yN) (hno : (no : Int) = c.m) :
    ∃ z, extractFromFacetCall c mi mo u0 .success src out = some (.success, z) ∧
      HasRows po n no (fun r a => ∑ d ∈ range no, Spec.phase no (winStart c u0 + d) (-a) *
        src.get (pi r ((winStart c u0 + d) % ni).toNat)) out z := by
  have hm0 := m_pos hc
  have hn0 := m_le_yN hc
  have H : ∀ r < n, ∃ x : Arr ℂ, (extractFromFacet c u0 (rowOf pi ni src r) (rowOf po no out r) = some x ∧ x.size = no) ∧
      ∀ a < no, x.get a = ∑ d ∈ range no, Spec.phase no (winStart c u0 + d) (-a) *
        src.get (pi r ((winStart c u0 + d) % ni).toNat) := by
    intro r hr
    obtain ⟨x, e, s, v⟩ := extracted_eq c hc ni no hni.symm hno.symm (by omega) u0 (rowOf pi ni src r) (rowOf po no out r) rfl rfl
    refine ⟨x, ⟨e, s⟩, fun k hk => ?_⟩
    have := v k
    rw [Int.emod_eq_of_lt (by omega) (by omega), Int.toNat_natCast] at this
    rw [this]
    refine sum_congr rfl fun d hd => ?_
    have e0 := Int.emod_nonneg (winStart c u0 + d) (b := ni) (by omega)
    have e1 := Int.emod_lt_of_pos (winStart c u0 + d) (b := ni) (by omega)
    rw [rowOf_get (by omega), phase_root]
    congr 2
    ring
  obtain ⟨val, hv⟩ := rows_choice H
  obtain ⟨z, e, hz⟩ := call_extract_from_facet c u0 hi ho hni hno val fun r hr => (hv r hr).1
  exact ⟨z, e, hz.congr fun r j hr hj => (hv r hr).2 j hj⟩

/-- **C110, `add_to_subgrid`.** -/
theorem C110_add_to_subgrid (Fn : Arr ℝ) (hF : (Fn.size : Int) = c.m) (o : Int) (hi : In mi src n ni pi) (ho : Out mo out n no po)
    (hni : (ni : Int) = c.m) (hno : (no : Int) = c.xM) :
    ∃ z, addToSubgridCall c Fn mi mo o .success src out = some (.success, z) ∧
      HasRows po n no (fun r j => out.get (po r j) + ∑ i ∈ range ni, if subgridPos c (o / (c.image / c.xM)) i = j then
        (Fn.get i : ℂ) * src.get (pi r (contribPos c (o / (c.image / c.xM)) i).toNat) else 0) out z := by
  have H : ∀ r < n, ∃ x : Arr ℂ, (addToSubgrid c o Fn (rowOf pi ni src r) (rowOf po no out r) = some x ∧ x.size = no) ∧
      ∀ j < no, x.get j = out.get (po r j) + ∑ i ∈ range ni, if subgridPos c (o / (c.image / c.xM)) i = j then
        (Fn.get i : ℂ) * src.get (pi r (contribPos c (o / (c.image / c.xM)) i).toNat) else 0 := by
    intro r hr
    obtain ⟨x, e, s, v⟩ := C32_add c hc o Fn (rowOf pi ni src r) (rowOf po no out r) hF hni hno
    refine ⟨x, ⟨e, s⟩, fun j hj => ?_⟩
    rw [v j, rowOf_get hj]
    congr 1
    have hm : c.m.toNat = ni := by omega
    rw [hm]
    refine sum_congr rfl fun i hi => ?_
    have := contribPos_range hc (fo c o) i
    rw [rowOf_get (by omega)]
    rfl
  obtain ⟨val, hv⟩ := rows_choice H
  obtain ⟨z, e, hz⟩ := call_add_to_subgrid c Fn o hi ho hni hno val fun r hr => (hv r hr).1
  exact ⟨z, e, hz.congr fun r j hr hj => (hv r hr).2 j hj⟩

/-- **C110, `add_to_facet`.** -/
theorem C110_add_to_facet (u0 : Int) (hi : In mi src n ni pi) (ho : Out mo out n no po)
    (hni : (ni : Int) = c.m) (hno : (no : Int) = c.yN) :
    ∃ z, addToFacetCall c mi mo u0 .success src out = some (.success, z) ∧ z.size = out.size ∧
      (∀ r < n, ∀ k, winStart c u0 ≤ k → k < winStart c u0 + c.m → z.get (po r (k % no).toNat) =
        out.get (po r (k % no).toNat) + src.get (pi r (k % ni).toNat)) ∧
      (∀ r < n, ∀ j < no, (∀ k, winStart c u0 ≤ k → k < winStart c u0 + c.m → k % no ≠ j) → z.get (po r j) = out.get (po r j)) ∧
      ∀ x, (∀ r j, r < n → j < no → po r j ≠ x) → z.get x = out.get x := by
  have hm0 := m_pos hc
  have hn0 := m_le_yN hc
  have H : ∀ r < n, ∃ x : Arr ℂ, (addToFacet c u0 (rowOf pi ni src r) (rowOf po no out r) = some x ∧ x.size = no) ∧
      (∀ k, winStart c u0 ≤ k → k < winStart c u0 + c.m → x.get (k % no).toNat =
        out.get (po r (k % no).toNat) + src.get (pi r (k % ni).toNat)) ∧
      (∀ j < no, (∀ k, winStart c u0 ≤ k → k < winStart c u0 + c.m → k % no ≠ j) → x.get j = out.get (po r j)) := by
    intro r hr
    obtain ⟨x, e, s, v, w⟩ := C31_add c hc u0 (rowOf pi ni src r) (rowOf po no out r) hno hni
    refine ⟨x, ⟨e, s⟩, fun k k1 k2 => ?_, fun j hj hh => ?_⟩
    · have := v k k1 k2
      have e0 := Int.emod_nonneg k (b := no) (by omega)
      have e1 := Int.emod_lt_of_pos k (b := no) (by omega)
      have e2 := Int.emod_nonneg k (b := ni) (by omega)
      have e3 := Int.emod_lt_of_pos k (b := ni) (by omega)
      rw [← hno, ← hni, rowOf_get (by omega), rowOf_get (by omega)] at this
      exact this
    · rw [w j (by rw [← hno]; exact hh), rowOf_get hj]
  obtain ⟨val, hv⟩ := rows_choice H
  obtain ⟨z, e, hz⟩ := call_add_to_facet c u0 hi ho hni hno val fun r hr => (hv r hr).1
  refine ⟨z, e, hz.1, fun r hr k k1 k2 => ?_, fun r hr j hj hh => ?_, hz.2.2⟩
  · have e0 := Int.emod_nonneg k (b := no) (by omega)
    have e1 := Int.emod_lt_of_pos k (b := no) (by omega)
    rw [hz.2.1 r _ hr (by omega)]
    exact (hv r hr).2.1 k k1 k2
  · rw [hz.2.1 r j hr hj]
    exact (hv r hr).2.2 j hj hh

/-- **C110, `finish_facet`.**  Element `j` of each row is the Fourier sum over the same row of the accumulated facet, times the
window correction; the accumulated facet is overwritten within its elements. -/
theorem C110_finish_facet (Fb : Arr ℝ) (hb : (Fb.size : Int) = c.yN) (o : Int) (hi : Out mi src n ni pi) (ho : Out mo out n no po)
    (h1 : 1 ≤ no) (hni : (ni : Int) = c.yN) (hno : (no : Int) ≤ c.yN) :
    ∃ y z, finishFacetCall c Fb mi mo o .success src out = some (.success, y, z) ∧
      HasRows po n no (fun r j => (∑ k ∈ range ni, Spec.phase ni (-k) (o - (no / 2 : Nat) + j) * src.get (pi r k)) *
        Fb.get (j + ni / 2 - no / 2)) out z ∧ y.size = src.size ∧
      ∀ x, (∀ r j, r < n → j < ni → pi r j ≠ x) → y.get x = src.get x := by
  have hm0 := m_pos hc
  have hn0 := m_le_yN hc
  have H : ∀ r < n, ∃ x : Arr ℂ, (finishFacet c no o (rowOf pi ni src r) Fb (rowOf po no out r) = some x ∧ x.size = no) ∧
      ∀ j < no, x.get j = (∑ k ∈ range ni, Spec.phase ni (-k) (o - (no / 2 : Nat) + j) * src.get (pi r k)) *
        Fb.get (j + ni / 2 - no / 2) := by
    intro r hr
    obtain ⟨x, e, s, v⟩ := C59_finish_facet c hc no o (by omega) hno (rowOf pi ni src r) Fb (rowOf po no out r) rfl hb hni
    refine ⟨x, ⟨e, s⟩, fun j hj => ?_⟩
    rw [v j (by omega), ← hni, Int.toNat_natCast]
    have ei : ((j : Int) + (ni : Int) / 2 - (no : Int) / 2).toNat = j + ni / 2 - no / 2 := by omega
    rw [ei]
    congr 1
    unfold dft
    refine sum_congr rfl fun k hk => ?_
    rw [rowOf_get (mem_range.1 hk), phase_root]
    congr 1
    simp only [sgn, Bool.false_eq_true, if_false]
    rw [show ∀ z : Int, (-1 * ((k : Int) * z)) = z * -k by intros; ring, root_emod ni (by omega)]
    congr 1
    push_cast
    ring
  obtain ⟨val, hv⟩ := rows_choice H
  obtain ⟨y, z, e, hz, hy⟩ := call_finish_facet c Fb o hi ho hni hno val fun r hr => (hv r hr).1
  exact ⟨y, z, e, hz.congr fun r j hr hj => (hv r hr).2 j hj, hy⟩

/-- **C110, `finish_subgrid`.**  Element `v` of each row is the Fourier sum over the same row of the image at grid point
`u0 + v - xA / 2`. -/
theorem C110_finish_subgrid (u0 : Int) (hi : In mi src n ni pi) (ho : Out mo out n no po)
    (hni : (ni : Int) = c.xM) (hno : (no : Int) ≤ c.xM) :
    ∃ z, finishSubgridOutCall c mi mo u0 .success src out = some (.success, z) ∧
      HasRows po n no (fun r v => 1 / (ni : ℂ) * ∑ k ∈ range ni, Spec.phase ni (k - (ni / 2 : Nat)) (u0 + v - (no / 2 : Nat)) *
        src.get (pi r k)) out z := by
  have hm0 := m_pos hc
  have hx := m_le_xM hc
  obtain ⟨s, t, m, _, _, _, _, _, _, ex, _, _, hx2, _⟩ := sizesN hc
  have h2 : 2 ∣ ni := by
    have : ni = t * m := by omega
    rw [this]
    exact hx2
  have H : ∀ r < n, ∃ x : Arr ℂ, (finishSubgridOut c.xM.toNat no u0 (rowOf pi ni src r) (rowOf po no out r) = some x ∧
      x.size = no) ∧ ∀ v < no, x.get v = 1 / (ni : ℂ) * ∑ k ∈ range ni,
        Spec.phase ni (k - (ni / 2 : Nat)) (u0 + v - (no / 2 : Nat)) * src.get (pi r k) := by
    intro r hr
    rw [← hni, Int.toNat_natCast]
    obtain ⟨F, x, eF, e, s, v⟩ := C60_finish_crop ni (by omega) (even_iff_two_dvd.2 h2) no (by omega) u0 (rowOf pi ni src r)
      (rowOf po no out r) rfl rfl
    obtain ⟨F', eF', _, vF⟩ := finish_eq ni (by omega) h2 u0 (rowOf pi ni src r) rfl
    rw [eF] at eF'
    rw [← Option.some.inj eF'] at vF
    refine ⟨x, ⟨e, s⟩, fun j hj => ?_⟩
    rw [v j hj, vF _ (by omega)]
    congr 1
    unfold gridSum
    refine sum_congr rfl fun k hk => ?_
    rw [rowOf_get (mem_range.1 hk), phase_root]
    congr 3
    omega
  obtain ⟨val, hv⟩ := rows_choice H
  obtain ⟨z, e, hz⟩ := call_finish_subgrid c u0 hi ho hni hno val fun r hr => (hv r hr).1
  exact ⟨z, e, hz.congr fun r j hr hj => (hv r hr).2 j hj⟩

/-- **C110, `extract_from_subgrid`**, for facet offsets that are not too negative. -/
theorem C110_extract_from_subgrid_partial (Fn : Arr ℝ) (hF : (Fn.size : Int) = c.m) (o : Int) (hi : In mi src n ni pi)
    (ho : Out mo out n no po) (hni : (ni : Int) = c.xM) (hno : (no : Int) = c.m) (f : Int)
    (hf : f = o.tdiv (c.image / c.xM)) (h0 : 0 ≤ f + c.m / 2) :
    ∃ z, extractFromSubgridCall c Fn mi mo o .success src out = some (.success, z) ∧
      HasRows po n no (fun r k => 1 / (no : ℂ) * ∑ i ∈ range no, Spec.phase no (f + (no / 2 : Nat) + i) k *
        (src.get (pi r (subgridPos c f i).toNat) * Fn.get i)) out z := by
  have hm0 := m_pos hc
  have H : ∀ r < n, ∃ x : Arr ℂ, (extractFromSubgrid c o Fn (rowOf pi ni src r) (rowOf po no out r) = some x ∧ x.size = no) ∧
      ∀ k < no, x.get k = 1 / (no : ℂ) * ∑ i ∈ range no, Spec.phase no (f + (no / 2 : Nat) + i) k *
        (src.get (pi r (subgridPos c f i).toNat) * Fn.get i) := by
    intro r hr
    obtain ⟨W, eW, sW, vW⟩ := C32_extract_partial c hc o Fn (rowOf pi ni src r) (rowOf po no out r) hF hno hni f hf h0
    have sW' : W.size = no := sW
    have hmn : c.m.toNat = no := by omega
    unfold extractFromSubgrid fftRow
    rw [eW]
    simp only [Option.bind_some]
    rw [if_pos (by omega), hmn]
    refine ⟨_, ⟨rfl, sW'⟩, fun k hk => ?_⟩
    simp only
    rw [if_pos hk, ← hno, Int.cast_natCast]
    congr 1
    unfold dft
    rw [sum_placed no no (by omega) le_rfl (f + (no / 2 : Nat)) W.get (fun i => src.get (pi r (subgridPos c f i).toNat) * Fn.get i)
      (fun a => root no (sgn true * (a * k)))]
    · refine sum_congr rfl fun i _ => ?_
      simp only [sgn, if_true, one_mul]
      rw [root_emod no (by omega), phase_root]
    · intro i hi'
      have := vW i (by omega)
      have hr' := subgridPos_range hc f i
      rw [rowOf_get (by omega)] at this
      unfold contribPos at this
      rw [← hno] at this
      rw [Int.natCast_ediv, Nat.cast_ofNat, this]
    · intro i hi' hh
      exfalso
      obtain ⟨k, k1, k2, k3⟩ := window_surj (m := no) (by omega) (f + (no / 2 : Nat)) i (by omega) (by omega)
      refine hh (k - (f + (no / 2 : Nat))).toNat (by omega) ?_
      rw [Int.toNat_of_nonneg (by omega), add_sub_cancel, k3]
  obtain ⟨val, hv⟩ := rows_choice H
  obtain ⟨z, e, hz⟩ := call_extract_from_subgrid c Fn o hi ho hni hno val fun r hr => (hv r hr).1
  exact ⟨z, e, hz.congr fun r j hr hj => (hv r hr).2 j hj⟩

variable {m : Mem} {a : Arr ℂ} {k : Nat} {pos : Nat → Nat → Nat}

/-- **C110, `finish_subgrid_inplace`.** -/
theorem C110_finish_subgrid_inplace (u0 : Int) (h : Out m a n k pos) (hk : (k : Int) = c.xM) :
    ∃ z, finishSubgridCall c m u0 .success a = some (.success, z) ∧
      HasRows pos n k (fun r v => 1 / (k : ℂ) * ∑ j ∈ range k, Spec.phase k (j - (k / 2 : Nat)) (u0 + v - (k / 2 : Nat)) *
        a.get (pos r j)) a z := by
  have hm0 := m_pos hc
  have hx := m_le_xM hc
  obtain ⟨s, t, m', _, _, _, _, _, _, ex, _, _, hx2, _⟩ := sizesN hc
  have h2 : 2 ∣ k := by
    have : k = t * m' := by omega
    rw [this]
    exact hx2
  have H : ∀ r < n, ∃ x : Arr ℂ, (finishSubgrid c.xM.toNat u0 (rowOf pos k a r) = some x ∧ x.size = k) ∧ ∀ v < k, x.get v =
      1 / (k : ℂ) * ∑ j ∈ range k, Spec.phase k (j - (k / 2 : Nat)) (u0 + v - (k / 2 : Nat)) * a.get (pos r j) := by
    intro r hr
    rw [← hk, Int.toNat_natCast]
    obtain ⟨x, e, s, v⟩ := finish_eq k (by omega) h2 u0 (rowOf pos k a r) rfl
    refine ⟨x, ⟨e, s⟩, fun j hj => ?_⟩
    rw [v j hj]
    congr 1
    unfold gridSum
    refine sum_congr rfl fun i hi => ?_
    rw [rowOf_get (mem_range.1 hi), phase_root]
  obtain ⟨val, hv⟩ := rows_choice H
  obtain ⟨z, e, hz⟩ := call_finish_subgrid_inplace c u0 h hk val fun r hr => (hv r hr).1
  exact ⟨z, e, hz.congr fun r j hr hj => (hv r hr).2 j hj⟩

/-- **C110, `prepare_subgrid_inplace`.**  Up to the sign that depends on the offset (C33). -/
theorem C110_prepare_subgrid_inplace (u0 : Int) (h : Out m a n k pos) (hk : (k : Int) = c.xM) :
    ∃ z, prepareSubgridCall c m u0 .success a = some (.success, z) ∧
      HasRows pos n k (fun r x => (-1) ^ (u0 + (k / 2 : Nat)) * ∑ v ∈ range k,
        Spec.phase k (x - (k / 2 : Nat)) (-(u0 + v - (k / 2 : Nat))) * a.get (pos r v)) a z := by
  have hm0 := m_pos hc
  have hx := m_le_xM hc
  obtain ⟨s, t, m', _, _, _, _, _, _, ex, _, _, hx2, _⟩ := sizesN hc
  have h2 : 2 ∣ k := by
    have : k = t * m' := by omega
    rw [this]
    exact hx2
  have H : ∀ r < n, ∃ x : Arr ℂ, (prepareSubgrid c.xM.toNat u0 (rowOf pos k a r) = some x ∧ x.size = k) ∧ ∀ i < k, x.get i =
      (-1) ^ (u0 + (k / 2 : Nat)) * ∑ v ∈ range k,
        Spec.phase k (i - (k / 2 : Nat)) (-(u0 + v - (k / 2 : Nat))) * a.get (pos r v) := by
    intro r hr
    rw [← hk, Int.toNat_natCast]
    obtain ⟨x, e, s, v⟩ := preparedSubgrid_eq k (by omega) h2 u0 (rowOf pos k a r) rfl
    refine ⟨x, ⟨e, s⟩, fun j hj => ?_⟩
    have := v (j - (k / 2 : Nat))
    rw [sub_add_cancel, Int.emod_eq_of_lt (by omega) (by omega), Int.toNat_natCast] at this
    rw [this]
    congr 1
    refine sum_congr rfl fun i hi => ?_
    rw [rowOf_get (mem_range.1 hi), phase_root]
    congr 2
    ring
  obtain ⟨val, hv⟩ := rows_choice H
  obtain ⟨z, e, hz⟩ := call_prepare_subgrid_inplace c u0 h hk val fun r hr => (hv r hr).1
  exact ⟨z, e, hz.congr fun r j hr hj => (hv r hr).2 j hj⟩

end Calls

end
end Sdp.Swiftly
