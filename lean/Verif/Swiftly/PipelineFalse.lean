import Verif.Swiftly.PipelineFacet

/-! # C102: odd contributions, and the theorems on a plan with data -/

namespace Sdp.Swiftly
open Finset Sdp.Fft
noncomputable section

/-- A plan that is accepted although a contribution has three samples. -/
def oddPlan : Cfg := ⟨12, 6, 6⟩

theorem oddPlan_ok : createCheck oddPlan = .success := by decide

theorem oddPlan_m : oddPlan.m = 3 := by decide

/-- One source of flux 1 in the middle of the image. -/
def oddFacet : FacetRow := ⟨1, 0, ⟨1, fun _ => 1⟩, ⟨6, fun _ => 0⟩, ⟨3, fun _ => 0⟩⟩

theorem third_sum (a : Int) : ∑ d ∈ range 3, root 3 (-((-1 + (d : Int)) * a)) = if (3 : Int) ∣ a then 3 else 0 := by
  have e : ∀ d ∈ range 3, root 3 (-((-1 + (d : Int)) * a)) = root 3 a * root 3 (d * -a) := by
    intro d _
    rw [← root_add]
    congr 1
    ring
  rw [sum_congr rfl e, ← mul_sum, root_sum (by norm_num)]
  by_cases h : (3 : Int) ∣ a
  · rw [if_pos (by simpa using h), if_pos h, (root_eq_one_iff (by norm_num) _).2 (by simpa using h)]
    norm_num
  · rw [if_neg (by simpa using h), if_neg h, mul_zero]

/-- **C102 fails for odd contribution sizes**: a plan of 12 pixels with padded facets and subgrids of 6 is accepted, and with a
constant window, which leaks nothing to the points left out, a source of flux 1 in the middle of the image gives grid values
that are not 1/12: the contribution is added one sample off. -/
theorem C102_odd_false : ∃ (c : Cfg) (pswf : Arr ℝ) (f : FacetRow) (acc sg r : Arr ℂ) (Fn Fb : Arr ℝ),
    createCheck c = .success ∧ (pswf.size : Int) = c.yN ∧ planTables c pswf = some (Fn, Fb) ∧ FacetOk c pswf f ∧
    (acc.size : Int) = c.xM ∧ (∀ i, acc.get i = 0) ∧ sg.size = 6 ∧ toSubgrid c Fn Fb [f] 0 6 acc sg = some r ∧
    f.spec.grid c.image.toNat (0 + (1 : Nat) - (6 / 2 : Nat)) = 1 / 12 ∧
    Spec.residual c.image.toNat c.yN.toNat c.m.toNat pswf.get 0 (0 + (1 : Nat) - (6 / 2 : Nat)) = 0 ∧ r.get 1 ≠ 1 / 12 := by
  have hc := oddPlan_ok
  obtain ⟨Fn, Fb, eT, sFn, sFb, _, vFb, _, vFn⟩ := planTables_spec oddPlan hc 2 3 oddPlan_m rfl (by decide)
    (⟨6, fun _ => 1⟩ : Arr ℝ) rfl
  obtain ⟨P, eP, sP, vP⟩ := prepared_eq oddPlan hc 6 rfl 1 0 le_rfl (by norm_num) oddFacet.data Fb oddFacet.prepared rfl sFb rfl
  obtain ⟨Q, eQ, sQ, vQ⟩ := extracted_eq oddPlan hc 6 3 rfl oddPlan_m (by norm_num) 0 P oddFacet.contrib sP rfl
  obtain ⟨a, ea, sa, va⟩ := C32_add oddPlan hc 0 Fn Q (⟨6, fun _ => 0⟩ : Arr ℂ) (by rw [sFn]; decide) (by rw [sQ]; decide) rfl
  obtain ⟨g, r, eg, er, sr, vr⟩ := C60_finish_crop 6 (by norm_num) (by decide) 6 le_rfl 0 a (⟨6, fun _ => 0⟩ : Arr ℂ) sa rfl
  obtain ⟨g', eg', _, vg⟩ := finish_eq 6 (by norm_num) (by decide) 0 a sa
  rw [eg] at eg'
  rw [← Option.some.inj eg'] at vg
  refine ⟨oddPlan, ⟨6, fun _ => 1⟩, oddFacet, ⟨6, fun _ => 0⟩, ⟨6, fun _ => 0⟩, r, Fn, Fb, hc, rfl, eT, ?_, rfl, fun _ => rfl, rfl,
    ?_, ?_, ?_, ?_⟩
  · exact ⟨le_rfl, by decide, rfl, rfl, rfl, by decide, fun _ _ => one_ne_zero⟩
  · unfold toSubgrid
    have : loop (addFacet oddPlan Fn Fb 0) (⟨6, fun _ => 0⟩ : Arr ℂ) [oddFacet] = some a := by
      simp only [loop, addFacet]
      have eP' : prepareFacet oddPlan oddFacet.size oddFacet.offset oddFacet.data Fb oddFacet.prepared = some P := eP
      rw [eP', Option.bind_some, eQ, Option.bind_some]
      have ea' : addToSubgrid oddPlan oddFacet.offset Fn Q (⟨6, fun _ => 0⟩ : Arr ℂ) = some a := ea
      rw [ea']
      rfl
    rw [this, Option.bind_some]
    exact er
  · unfold Spec.Facet.grid
    have : oddFacet.spec.size = 1 := rfl
    rw [this, sum_range_one]
    simp [phase_root, FacetRow.spec, oddFacet, root_zero, oddPlan]
  · unfold Spec.residual
    refine sum_eq_zero fun e he => ?_
    rw [norm_eq_zero, leak_spectrum]
    unfold spectrum
    have hm3 : oddPlan.m.toNat = 3 := by rw [oddPlan_m]; rfl
    have hy : oddPlan.yN.toNat = 6 := rfl
    have hi : oddPlan.image.toNat = 12 := rfl
    rw [hm3, hy] at he
    rw [hm3, hy, hi]
    have hz : (0 : Int).tdiv (12 / 6 : Nat) = 0 := by decide
    rw [hz]
    have : ∀ j ∈ range 6, (((1 : ℝ)) : ℂ) * root 12 (-((((12 / 6 : Nat) : Int) * (0 - (3 / 2 : Nat) + (3 : Nat) + e) - (0 + (1 : Nat) -
        (6 / 2 : Nat))) * ((j : Int) - (6 / 2 : Nat)))) = root 6 ((3 + e) * 3) * root 6 (j * -(3 + e)) := by
      intro j _
      rw [Complex.ofReal_one, one_mul, ← root_add, ← root_scale 2 6 (by norm_num)]
      congr 1
      norm_num
      ring
    rw [sum_congr rfl this, ← mul_sum, root_sum (by norm_num), if_neg, mul_zero, mul_zero]
    have := mem_range.1 he
    omega
  · have hQ : ∀ k : Int, Q.get (k % (3 : Nat)).toNat = if (3 : Int) ∣ k then 1 / 2 else 0 := by
      intro k
      rw [vQ]
      have e : ∀ d ∈ range 3, root 3 (-((winStart oddPlan 0 + d) * k)) * P.get ((winStart oddPlan 0 + d) % (6 : Nat)).toNat =
          root 3 (-((-1 + (d : Int)) * k)) * (1 / 6) := by
        intro d _
        have : winStart oddPlan 0 = -1 := by decide
        rw [vP, this, sum_range_one]
        congr 1
        rw [vFb _ (by norm_num) (by norm_num)]
        simp [root_zero, oddFacet]
      rw [sum_congr rfl e, ← sum_mul, third_sum]
      split_ifs <;> norm_num
    have hF1 : ∀ i < 3, Fn.get i = 1 := fun i hi => vFn i hi
    have hr : r.get 1 = 1 / 6 * (root 6 (-2) * (1 / 2)) := by
      rw [vr 1 (by norm_num), vg _ (by norm_num)]
      have h6 : ((6 : Nat) : ℂ) = 6 := by norm_num
      rw [h6]
      congr 1
      unfold gridSum
      have hm3 : oddPlan.m.toNat = 3 := by rw [oddPlan_m]; rfl
      have hfo : fo oddPlan 0 = 0 := by decide
      have hx : ∀ j : Nat, a.get j = if j = 4 then 1 / 2 else 0 := by
        intro j
        rw [va j, hm3, hfo, sum_range_succ, sum_range_succ, sum_range_one, hF1 0 (by norm_num), hF1 1 (by norm_num), hF1 2 (by norm_num)]
        have q0 : Q.get (contribPos oddPlan 0 0).toNat = 0 := by
          have := hQ (0 + 3 / 2 + (0 : Nat))
          rw [if_neg (by decide)] at this
          exact this
        have q1 : Q.get (contribPos oddPlan 0 1).toNat = 0 := by
          have := hQ (0 + 3 / 2 + (1 : Nat))
          rw [if_neg (by decide)] at this
          exact this
        have q2 : Q.get (contribPos oddPlan 0 2).toNat = 1 / 2 := by
          have := hQ (0 + 3 / 2 + (2 : Nat))
          rw [if_pos (by decide)] at this
          exact this
        have p2 : subgridPos oddPlan 0 2 = 4 := by decide
        rw [q0, q1, q2, p2]
        simp only [mul_zero, ite_self, zero_add, Complex.ofReal_one, one_mul]
        by_cases h : j = 4
        · rw [if_pos h, if_pos (by omega)]
        · rw [if_neg h, if_neg (by omega)]
      rw [sum_eq_single_of_mem 4 (by simp)]
      · rw [hx, if_pos rfl]
        congr 2
      · intro j _ hj
        rw [hx, if_neg hj, mul_zero]
    rw [hr]
    intro h
    have h1 : root 6 (-2) = 1 := by linear_combination 12 * h
    rw [root_eq_one_iff (by norm_num)] at h1
    revert h1
    decide

/-- The forward theorem applies to two facets of a plan with several subgrids and facets. -/
example : createCheck ⟨32, 8, 16⟩ = .success ∧ (⟨32, 8, 16⟩ : Cfg).m % 2 = 0 ∧
    FacetOk ⟨32, 8, 16⟩ ⟨8, fun _ => 1⟩ ⟨3, 2, ⟨3, fun _ => 1⟩, ⟨8, fun _ => 0⟩, ⟨4, fun _ => 0⟩⟩ ∧
    FacetOk ⟨32, 8, 16⟩ ⟨8, fun _ => 1⟩ ⟨2, -4, ⟨2, fun _ => 1⟩, ⟨8, fun _ => 0⟩, ⟨4, fun _ => 0⟩⟩ ∧
    SubgridOk ⟨32, 8, 16⟩ ⟨4, ⟨16, fun _ => 1⟩, ⟨4, fun _ => 0⟩⟩ ∧ -((⟨32, 8, 16⟩ : Cfg).yN / 2) ≤ (2 : Int) :=
  ⟨by decide, by decide, ⟨by decide, by decide, rfl, rfl, rfl, by decide, fun _ _ => one_ne_zero⟩,
    ⟨by decide, by decide, rfl, rfl, rfl, by decide, fun _ _ => one_ne_zero⟩, ⟨rfl, rfl⟩, by decide⟩

/-- ... the exact case is reached by a plan with two facet columns, ... -/
example : createCheck ⟨16, 8, 16⟩ = .success ∧ (⟨16, 8, 16⟩ : Cfg).m % 2 = 0 ∧ (⟨16, 8, 16⟩ : Cfg).xM = (⟨16, 8, 16⟩ : Cfg).image := by
  decide

/-- ... and the documented rule leaves usable grid points, here 8 of 16 for a window of `W = 2`. -/
example : ((8 : Nat) : ℝ) ≤ ((⟨32, 8, 16⟩ : Cfg).xM : ℝ) - 2 / ((⟨32, 8, 16⟩ : Cfg).yN : ℝ) * ((⟨32, 8, 16⟩ : Cfg).image : ℝ) := by
  norm_num

end
end Sdp.Swiftly
