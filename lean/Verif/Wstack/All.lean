import Verif.Wstack.Fold

/-!
# C89: imaging with w-stacking and w-towers, whole calls
-/

namespace Sdp.Wstack

open Sdp.Clamp Sdp.GridUtil Sdp.Fft Sdp.WTower Sdp.GridCorrect Finset

noncomputable section

/-- One plane of the stack contains the visibility, and it is in the range of the loop. -/
theorem plane_pick {su : Setup} (h : su.Ok) (iw iu iv : Int × Int)
    (hidx : indices su.cfg = some (iw, iu, iv)) (i c : Nat) (hi : i < su.numRows)
    (hc : c < su.numChan) (q : Spot) (hq : Placed su i c q) (F : ℂ) :
    ((rowsOf iw.1 (iw.2 + 1)).map fun k => if k = q.k then F else 0).sum = F := by
  obtain ⟨iw', iu', iv', e, hcov⟩ := indices_spec su.cfg h.cfgOk
  rw [hidx] at e
  simp only [Option.some.injEq, Prod.mk.injEq] at e
  obtain ⟨rfl, rfl, rfl⟩ := e
  obtain ⟨⟨k, hk, hb, _⟩, _⟩ := hcov i hi c (by omega) (by
    have : su.cfg.numChan = su.numChan := rfl
    omega)
  have hkq := (hq.k k).1 hb
  have hmem : q.k ∈ rowsOf iw.1 (iw.2 + 1) := by
    rw [mem_rowsOf]
    omega
  rw [sum_single _ _ q.k (rowsOf_nodup _ _) hmem]
  · rw [if_pos rfl]
  · intro k' _ hk'
    rw [if_neg hk']

theorem list_sum_swap {α ι : Type} (l : List α) (T : Finset ι) (F : α → ι → ℂ) :
    (l.map fun k => ∑ t ∈ T, F k t).sum = ∑ t ∈ T, (l.map fun k => F k t).sum := by
  induction l with
  | nil => simp
  | cons k l ih =>
    simp only [List.map_cons, List.sum_cons, Finset.sum_add_distrib]
    rw [ih]

/-- **C89 (partial).**  Every visibility has one place, near its coordinates; and, for ordinary
inputs and whatever the number of threads and the schedule, both calls can only end normally, with
each visibility degridded once at its place, and the image the sum of all visibilities, each
gridded once at its place. -/
theorem C89_calls_partial (su : Setup) (h : su.Ok) : ∃ spot : Nat → Nat → Spot,
    (∀ i < su.numRows, ∀ c < su.numChan, Near su i c (spot i c)) ∧
    (∀ img : Arr ℂ, img.size = su.size * su.size → (∃ o, DegridAll su img o) ∧
      ∀ o, DegridAll su img o → ∃ st : Carry, o = .done st ∧
        st.data.size = su.numRows * su.numChan ∧
        ∀ i < su.numRows, ∀ c < su.numChan, st.data.get (i * su.numChan + c) =
          su.degridAt (spot i c) i c (im su.size img)) ∧
    (∀ vis : Arr ℂ, vis.size = su.numRows * su.numChan → (∃ o, GridAll su vis o) ∧
      ∀ o, GridAll su vis o → ∃ st : Carry, o = .done st ∧ st.data.size = su.size * su.size ∧
        ∀ x < su.size, ∀ y < su.size, im su.size st.data x y =
          ∑ i ∈ range su.numRows, ∑ c ∈ range su.numChan,
            vis.get (i * su.numChan + c) * su.gridAt (spot i c) i c x y) := by
  obtain ⟨spot, hsp⟩ := placed_exists h
  refine ⟨spot, fun i hi c hc => (hsp i hi c hc).near, fun img hi => ?_, fun vis hv => ?_⟩
  · have ha := degrid_adds h img hi spot hsp
    refine ⟨whole_exists h ha, fun o ho => ?_⟩
    obtain ⟨iw, iu, iv, st, hidx, e, hs, v⟩ := whole_ok h ha o ho
    refine ⟨st, e, hs, fun i hi c hc => ?_⟩
    rw [v (i, c) ⟨hi, hc⟩]
    exact plane_pick h iw iu iv hidx i c hi hc _ (hsp i hi c hc) _
  · have ha := grid_adds h vis hv spot hsp
    refine ⟨whole_exists h ha, fun o ho => ?_⟩
    obtain ⟨iw, iu, iv, st, hidx, e, hs, v⟩ := whole_ok h ha o ho
    refine ⟨st, e, hs, fun x hx y hy => ?_⟩
    have := v (x, y) ⟨hx, hy⟩
    simp only at this
    unfold im
    rw [this, list_sum_swap, Finset.sum_product]
    refine sum_congr rfl fun i hi => sum_congr rfl fun c hc => ?_
    exact plane_pick h iw iu iv hidx i c (mem_range.1 hi) (mem_range.1 hc) _
      (hsp i (mem_range.1 hi) c (mem_range.1 hc)) _

end
end Sdp.Wstack
