import Verif.Swiftly.Facet

/-!
# C32 (and C30): accumulating into and extracting from subgrids
-/

namespace Sdp.Swiftly
open Sdp.Fft
noncomputable section

/-- Specification: the facet offset in subgrid resolution, rounded down. -/
def fo (c : Cfg) (facetOffset : Int) : Int := facetOffset / (c.image / c.xM)

/-- Specification: where window sample `i` of a facet at (subgrid-resolution) offset `f` lies in
the subgrid image. -/
def subgridPos (c : Cfg) (f : Int) (i : Nat) : Int := (f + c.xM / 2 - c.m / 2 + i) % c.xM

/-- Specification: where it lies in the contribution. -/
def contribPos (c : Cfg) (f : Int) (i : Nat) : Int := (f + c.m / 2 + i) % c.m

theorem subgridIdx_eq {c : Cfg} (hc : createCheck c = .success) (f : Int) (i : Nat)
    (hi : (i : Int) < c.m) : subgridIdx c f i = subgridPos c f i := by
  have hm := m_pos hc
  have hx := m_le_xM hc
  unfold subgridIdx subgridOffs subgridPos
  simp only
  rw [modP_eq _ (by omega), Int.neg_tdiv, tdiv_two_bounds (by omega), tdiv_two_bounds (by omega)]
  rw [← wrap (n := c.xM) (by omega) (f + c.xM / 2 - c.m / 2) i (by omega) (by omega)]
  rw [show -(c.m / 2) + c.xM / 2 + f = f + c.xM / 2 - c.m / 2 by ring]
  congr 1
  apply propext
  split <;> omega

theorem subgridPos_range {c : Cfg} (hc : createCheck c = .success) (f : Int) (i : Nat) :
    0 ≤ subgridPos c f i ∧ subgridPos c f i < c.xM := by
  have hm := m_pos hc
  have hx := m_le_xM hc
  exact ⟨Int.emod_nonneg _ (by omega), Int.emod_lt_of_pos _ (by omega)⟩

theorem contribPos_range {c : Cfg} (hc : createCheck c = .success) (f : Int) (i : Nat) :
    0 ≤ contribPos c f i ∧ contribPos c f i < c.m := by
  have hm := m_pos hc
  exact ⟨Int.emod_nonneg _ (by omega), Int.emod_lt_of_pos _ (by omega)⟩

theorem subgridPos_inj {c : Cfg} (hc : createCheck c = .success) (f : Int) {i j : Nat}
    (hi : (i : Int) < c.m) (hj : (j : Int) < c.m) (h : subgridPos c f i = subgridPos c f j) :
    i = j := by
  have hx := m_le_xM hc
  have := window_inj (m := c.m) (n := c.xM) (a := f + c.xM / 2 - c.m / 2)
    (k := f + c.xM / 2 - c.m / 2 + i) (l := f + c.xM / 2 - c.m / 2 + j) hx (by omega) (by omega) h
  omega

theorem contribPos_inj {c : Cfg} (f : Int) {i j : Nat}
    (hi : (i : Int) < c.m) (hj : (j : Int) < c.m) (h : contribPos c f i = contribPos c f j) :
    i = j := by
  have := window_inj (m := c.m) (n := c.m) (a := f + c.m / 2)
    (k := f + c.m / 2 + i) (l := f + c.m / 2 + j) le_rfl (by omega) (by omega) h
  omega

theorem contribIdx_eq {c : Cfg} (hc : createCheck c = .success) (f : Int) (i : Nat)
    (h : 0 ≤ f + c.m / 2) : contribIdx c f i = contribPos c f i := by
  have hm := m_pos hc
  unfold contribIdx contribPos
  rw [tdiv_two_bounds (by omega), Int.tmod_eq_emod_of_nonneg (by omega)]
  congr 1; ring

theorem fctOffsMod_nonneg {c : Cfg} (hc : createCheck c = .success) (o : Int) :
    0 ≤ fctOffsMod c o ∧ ∃ q, fctOffsMod c o = fo c o + c.xM * q := by
  obtain ⟨s, t, hs, ht, hm, hi, hy, hx, hds, hdt, _⟩ := sizes hc
  have hip : 0 < c.image := by rw [hi]; positivity
  have hds' : c.image / c.xM = s := by
    rw [← hds, Int.tdiv_eq_ediv_of_nonneg hip.le]
  have h0 := Int.emod_nonneg o (b := c.image) (by omega)
  unfold fctOffsMod fo
  rw [modP_eq _ hip, hds, hds', Int.tdiv_eq_ediv_of_nonneg h0]
  refine ⟨Int.ediv_nonneg h0 hs.le, -(o / c.image), ?_⟩
  have e : o % c.image = o + s * (c.xM * -(o / c.image)) := by
    have e2 : c.image = s * c.xM := by rw [hi, hx]; ring
    have := Int.mul_ediv_add_emod o c.image
    calc o % c.image = o - c.image * (o / c.image) := by omega
      _ = o + s * (c.xM * -(o / c.image)) := by rw [e2]; ring
  rw [e, Int.add_mul_ediv_left _ _ (by omega)]

theorem subgridPos_shift (c : Cfg) (f q : Int) (i : Nat) :
    subgridPos c (f + c.xM * q) i = subgridPos c f i := by
  unfold subgridPos
  rw [show f + c.xM * q + c.xM / 2 - c.m / 2 + i = (f + c.xM / 2 - c.m / 2 + i) + c.xM * q by ring,
    Int.add_mul_emod_self_left]

theorem contribPos_shift {c : Cfg} (hc : createCheck c = .success) (f q : Int) (i : Nat) :
    contribPos c (f + c.xM * q) i = contribPos c f i := by
  obtain ⟨t, ht⟩ := m_dvd_xM hc
  unfold contribPos
  rw [show f + c.xM * q + c.m / 2 + i = (f + c.m / 2 + i) + c.m * (t * q) by rw [ht]; ring,
    Int.add_mul_emod_self_left]

/-- C32 / C30: accumulation into a subgrid never leaves its arrays, whatever the facet offset:
window sample `i` of the contribution, weighted by `Fn(i)`, is added at its position in the
subgrid image, nothing else changes. -/
theorem C32_add (c : Cfg) (hc : createCheck c = .success) (o : Int) (Fn : Arr ℝ)
    (contrib out : Arr ℂ) (hF : (Fn.size : Int) = c.m) (hq : (contrib.size : Int) = c.m)
    (ho : (out.size : Int) = c.xM) :
    ∃ r, addToSubgrid c o Fn contrib out = some r ∧ r.size = out.size ∧
      ∀ j : Nat, r.get j = out.get j + ∑ i ∈ Finset.range c.m.toNat,
        if subgridPos c (fo c o) i = j then
          (Fn.get i : ℂ) * contrib.get (contribPos c (fo c o) i).toNat else 0 := by
  have hm := m_pos hc
  obtain ⟨hnn, q, hfq⟩ := fctOffsMod_nonneg hc o
  unfold addToSubgrid
  simp only
  rw [loop_congr _ (fun (a : Arr ℂ) (i : Nat) => a.addAt (subgridPos c (fo c o) i)
    ((Fn.get i : ℂ) * contrib.get (contribPos c (fo c o) i).toNat))]
  · obtain ⟨r, h1, h2, h3⟩ := Arr.accum_spec (List.range c.m.toNat)
      (fun i => subgridPos c (fo c o) i)
      (fun i => (Fn.get i : ℂ) * contrib.get (contribPos c (fo c o) i).toNat) out
      (by intro i _; have := subgridPos_range hc (fo c o) i; rw [ho]; exact this)
    refine ⟨r, h1, h2, fun j => ?_⟩
    rw [h3 j, list_sum_range]
  · intro i hi a
    rw [List.mem_range] at hi
    have hp := contribPos_range hc (fo c o) i
    rw [Arr.read_nat, if_pos (by omega), contribIdx_eq hc _ _ (by omega), hfq, contribPos_shift hc,
      subgridIdx_eq hc _ _ (by omega), subgridPos_shift, Option.bind_some,
      read_in _ _ hp.1 (by omega)]
    rfl

/-- C32: at the position of window sample `i` exactly its weighted value is gained; positions
outside the window keep their value. -/
theorem C32_add_pointwise (c : Cfg) (hc : createCheck c = .success) (o : Int) (Fn : Arr ℝ)
    (contrib out : Arr ℂ) (hF : (Fn.size : Int) = c.m) (hq : (contrib.size : Int) = c.m)
    (ho : (out.size : Int) = c.xM) :
    ∃ r, addToSubgrid c o Fn contrib out = some r ∧
      (∀ i < c.m.toNat, r.get (subgridPos c (fo c o) i).toNat =
        out.get (subgridPos c (fo c o) i).toNat +
          Fn.get i * contrib.get (contribPos c (fo c o) i).toNat) ∧
      ∀ j : Nat, (∀ i < c.m.toNat, subgridPos c (fo c o) i ≠ j) → r.get j = out.get j := by
  obtain ⟨r, h1, _, h3⟩ := C32_add c hc o Fn contrib out hF hq ho
  refine ⟨r, h1, fun i hi => ?_, fun j hj => ?_⟩
  · have hp := subgridPos_range hc (fo c o) i
    rw [h3, Finset.sum_eq_single_of_mem i (Finset.mem_range.2 hi), if_pos (by omega)]
    intro l hl hne
    rw [Finset.mem_range] at hl
    rw [if_neg]
    intro he
    exact hne (subgridPos_inj hc (fo c o) (by omega) (by omega) (by omega))
  · rw [h3, Finset.sum_eq_zero, add_zero]
    intro i hi
    rw [if_neg (hj i (Finset.mem_range.1 hi))]

/-- C32: contributions of two facets can be accumulated in either order. -/
theorem C32_commute (c : Cfg) (hc : createCheck c = .success) (o1 o2 : Int) (Fn : Arr ℝ)
    (c1 c2 out : Arr ℂ) (hF : (Fn.size : Int) = c.m) (h1 : (c1.size : Int) = c.m)
    (h2 : (c2.size : Int) = c.m) (ho : (out.size : Int) = c.xM) :
    ∃ a b ab ba, addToSubgrid c o1 Fn c1 out = some a ∧ addToSubgrid c o2 Fn c2 a = some ab ∧
      addToSubgrid c o2 Fn c2 out = some b ∧ addToSubgrid c o1 Fn c1 b = some ba ∧
      ∀ j, ab.get j = ba.get j := by
  obtain ⟨a, ha, hsa, hva⟩ := C32_add c hc o1 Fn c1 out hF h1 ho
  obtain ⟨ab, hab, _, hvab⟩ := C32_add c hc o2 Fn c2 a hF h2 (by omega)
  obtain ⟨b, hb, hsb, hvb⟩ := C32_add c hc o2 Fn c2 out hF h2 ho
  obtain ⟨ba, hba, _, hvba⟩ := C32_add c hc o1 Fn c1 b hF h1 (by omega)
  refine ⟨a, b, ab, ba, ha, hab, hb, hba, fun j => ?_⟩
  rw [hvab, hva, hvba, hvb]
  ring

/-- C32 / C30: extraction from a subgrid (before its transform), when the facet offset is not
too negative: window sample `i`, weighted by `Fn(i)`, goes to its position in the contribution.
`f` is the facet offset in subgrid resolution, rounded towards zero. -/
theorem C32_extract_partial (c : Cfg) (hc : createCheck c = .success) (o : Int) (Fn : Arr ℝ)
    (sg contrib : Arr ℂ) (hF : (Fn.size : Int) = c.m) (hq : (contrib.size : Int) = c.m)
    (hs : (sg.size : Int) = c.xM) (f : Int) (hf : f = o.tdiv (c.image / c.xM))
    (h0 : 0 ≤ f + c.m / 2) :
    ∃ r, windowSubgrid c o Fn sg contrib = some r ∧ r.size = contrib.size ∧
      ∀ i < c.m.toNat, r.get (contribPos c f i).toNat =
        sg.get (subgridPos c f i).toNat * Fn.get i := by
  have hm := m_pos hc
  obtain ⟨s, t, hs', ht, _, hi, hy, hx, hds, hdt, _⟩ := sizes hc
  have hip : 0 < c.image := by rw [hi]; positivity
  have hraw : fctOffsRaw c o = f := by
    unfold fctOffsRaw; rw [hf, Int.tdiv_eq_ediv_of_nonneg hip.le]
  unfold windowSubgrid
  simp only
  rw [hraw, loop_congr _ (fun (a : Arr ℂ) (i : Nat) => a.write (contribPos c f i)
    (sg.get (subgridPos c f i).toNat * (Fn.get i : ℂ)))]
  · obtain ⟨r, h1, h2, h3, _⟩ := Arr.store_spec (List.range c.m.toNat)
      (fun i => contribPos c f i) (fun i => sg.get (subgridPos c f i).toNat * (Fn.get i : ℂ))
      (by
        refine List.Nodup.map_on ?_ List.nodup_range
        intro i hi j hj he
        rw [List.mem_range] at hi hj
        exact contribPos_inj f (by omega) (by omega) he) contrib
      (by intro i _; have := contribPos_range hc f i; rw [hq]; exact this)
    exact ⟨r, h1, h2, fun i hi => h3 i (List.mem_range.2 hi)⟩
  · intro i hi a
    rw [List.mem_range] at hi
    have hp := subgridPos_range hc f i
    rw [subgridIdx_eq hc _ _ (by omega), read_in _ _ hp.1 (by omega), Option.bind_some,
      Arr.read_nat, if_pos (by omega), contribIdx_eq hc _ _ (by omega)]
    rfl

/-- C30: for which facet offsets extraction from a subgrid stays inside the contribution. -/
theorem C30_extract_subgrid_in_range_iff (c : Cfg) (hc : createCheck c = .success) (o : Int)
    (Fn : Arr ℝ) (sg contrib : Arr ℂ) (hF : (Fn.size : Int) = c.m)
    (hq : (contrib.size : Int) = c.m) (hs : (sg.size : Int) = c.xM) :
    (windowSubgrid c o Fn sg contrib ≠ none) ↔
      0 ≤ o.tdiv (c.image / c.xM) + c.m / 2 ∨ c.m = 1 := by
  have hm := m_pos hc
  obtain ⟨s, t, hs', ht, _, hi, hy, hx, hds, hdt, _⟩ := sizes hc
  have hip : 0 < c.image := by rw [hi]; positivity
  have hds' : c.image / c.xM = s := by rw [← hds, Int.tdiv_eq_ediv_of_nonneg hip.le]
  have hraw : fctOffsRaw c o = o.tdiv (c.image / c.xM) := by
    unfold fctOffsRaw; rw [hds, hds']
  constructor
  · intro h
    by_contra hn
    push Not at hn
    apply h
    obtain ⟨hneg, hm1⟩ := hn
    set f := o.tdiv (c.image / c.xM) with hf
    -- an iteration whose target index is negative
    have hex : ∃ i : Nat, (i : Int) < c.m ∧ contribIdx c f i < 0 := by
      have hlt : ∀ i : Nat, (i : Int) + f + c.m / 2 < 0 → ¬ c.m ∣ ((i : Int) + f + c.m / 2) →
          contribIdx c f i < 0 := by
        intro i h1 h2
        unfold contribIdx
        rw [tdiv_two_bounds (by omega), Int.tmod_eq_emod, if_neg (by push Not; exact ⟨h1, h2⟩)]
        have := Int.emod_lt_of_pos ((i : Int) + f + c.m / 2) hm
        omega
      by_cases hd : c.m ∣ f + c.m / 2
      · refine ⟨1, by omega, hlt 1 ?_ ?_⟩
        · obtain ⟨q, hq⟩ := hd
          have hq0 : q ≤ -1 := by
            by_contra hh
            have : 0 ≤ c.m * q := Int.mul_nonneg hm.le (by omega)
            omega
          have : c.m * q ≤ c.m * (-1) := Int.mul_le_mul_of_nonneg_left hq0 hm.le
          push_cast; omega
        · intro h3
          have : c.m ∣ 1 := by
            have := Int.dvd_sub h3 hd
            rwa [show (((1 : Nat) : Int) + f + c.m / 2) - (f + c.m / 2) = 1 by push_cast; ring] at this
          have := Int.le_of_dvd (by omega) this
          omega
      · exact ⟨0, by omega, hlt 0 (by push_cast; omega) (by simpa using hd)⟩
    obtain ⟨i, hi, hci⟩ := hex
    unfold windowSubgrid
    simp only
    rw [hraw]
    refine loop_none (fun _ => True) _ (fun _ _ _ _ _ => trivial) i ?_ _ _ trivial
      (List.mem_range.2 (by omega))
    intro a _
    have : ∀ v, a.write (contribIdx c f i) v = none := by
      intro v; unfold Arr.write; rw [if_neg (by omega)]
    simp only [this]
    cases sg.read (subgridIdx c f i) with
    | none => rfl
    | some v => cases Fn.read i <;> rfl
  · rintro (h | h)
    · obtain ⟨r, hr, _⟩ := C32_extract_partial c hc o Fn sg contrib hF hq hs _ rfl h
      rw [hr]; simp
    · unfold windowSubgrid
      simp only
      rw [h]
      have hci : contribIdx c (fctOffsRaw c o) ((0 : Nat) : Int) = 0 := by
        unfold contribIdx; rw [h]; exact Int.tmod_one _
      have hp := subgridPos_range hc (fctOffsRaw c o) 0
      have hsi := subgridIdx_eq hc (fctOffsRaw c o) 0 (by omega)
      rw [show List.range (Int.toNat 1) = [0] from rfl]
      simp only [loop]
      rw [hsi, read_in _ _ hp.1 (by omega), Option.bind_some, Arr.read_nat, if_pos (by omega),
        Option.bind_some, hci]
      unfold Arr.write
      rw [if_pos (by omega)]
      simp

/-- C30 is violated: a facet at offset `-image` (accepted, and equivalent to offset 0 for
accumulation) makes extraction from a subgrid write outside the contribution. -/
theorem C30_negative_offset_false (c : Cfg) (hc : createCheck c = .success) (h2 : 2 ≤ c.m)
    (Fn : Arr ℝ) (sg contrib : Arr ℂ) (hF : (Fn.size : Int) = c.m)
    (hq : (contrib.size : Int) = c.m) (hs : (sg.size : Int) = c.xM) :
    windowSubgrid c (-c.image) Fn sg contrib = none := by
  have h := (C30_extract_subgrid_in_range_iff c hc (-c.image) Fn sg contrib hF hq hs).not
  rw [not_not] at h
  rw [h]
  obtain ⟨s, t, hs', ht, _, hi, hy, hx, hds, hdt, _⟩ := sizes hc
  have hip : 0 < c.image := by rw [hi]; positivity
  have hds' : c.image / c.xM = s := by rw [← hds, Int.tdiv_eq_ediv_of_nonneg hip.le]
  have : (-c.image).tdiv (c.image / c.xM) = -c.xM := by
    rw [hds', Int.neg_tdiv, hi, hx, show s * t * c.m = s * (t * c.m) by ring,
      Int.mul_tdiv_cancel_left _ (by omega)]
  have := m_le_xM hc
  omega

example : createCheck ⟨64, 16, 16⟩ = .success ∧ 2 ≤ Cfg.m ⟨64, 16, 16⟩ := by decide

theorem fctOffs_agree {c : Cfg} (hc : createCheck c = .success) (o : Int)
    (h : 0 ≤ o ∨ (c.image / c.xM) ∣ o) : o.tdiv (c.image / c.xM) = fo c o := by
  obtain ⟨s, t, hs', ht, _, hi, hy, hx, hds, hdt, _⟩ := sizes hc
  have hip : 0 < c.image := by rw [hi]; positivity
  have hds' : c.image / c.xM = s := by rw [← hds, Int.tdiv_eq_ediv_of_nonneg hip.le]
  unfold fo
  rcases h with h | ⟨k, hk⟩
  · exact Int.tdiv_eq_ediv_of_nonneg h
  · rw [hk, hds', Int.mul_tdiv_cancel_left _ (by omega), Int.mul_ediv_cancel_left _ (by omega)]

/-- C32: extraction (before its transform) and accumulation are adjoint, for offsets that are
non-negative or whole multiples of the subgrid resolution, and not so negative that extraction
leaves its array. -/
theorem C32_adjoint_partial (c : Cfg) (hc : createCheck c = .success) (o : Int) (Fn : Arr ℝ)
    (sg g z out : Arr ℂ) (hF : (Fn.size : Int) = c.m) (hs : (sg.size : Int) = c.xM)
    (hg : (g.size : Int) = c.m) (hz : (z.size : Int) = c.xM) (hz0 : ∀ j, z.get j = 0)
    (ho : (out.size : Int) = c.m) (h : 0 ≤ o ∨ (c.image / c.xM) ∣ o)
    (h0 : 0 ≤ o / (c.image / c.xM) + c.m / 2) :
    ∃ w a, windowSubgrid c o Fn sg out = some w ∧ addToSubgrid c o Fn g z = some a ∧
      ∑ i ∈ Finset.range c.m.toNat, w.get i * g.get i =
        ∑ j ∈ Finset.range c.xM.toNat, sg.get j * a.get j := by
  have hm := m_pos hc
  obtain ⟨w, hw, _, hwv⟩ := C32_extract_partial c hc o Fn sg out hF ho hs _ rfl
    (by rw [fctOffs_agree hc o h]; exact h0)
  rw [fctOffs_agree hc o h] at hwv
  obtain ⟨a, ha, hav, hau⟩ := C32_add_pointwise c hc o Fn g z hF hg hz
  refine ⟨w, a, hw, ha, ?_⟩
  have e1 : ∑ i ∈ Finset.range c.m.toNat, w.get i * g.get i =
      ∑ i ∈ Finset.range c.m.toNat, w.get (contribPos c (fo c o) i).toNat *
        g.get (contribPos c (fo c o) i).toNat := by
    symm
    refine Finset.sum_nbij (fun i => (contribPos c (fo c o) i).toNat) ?_ ?_ ?_ ?_
    · intro i _
      have := contribPos_range hc (fo c o) i
      rw [Finset.mem_range]; omega
    · intro i hi j hj he
      simp only [Finset.coe_range, Set.mem_Iio] at hi hj
      have := contribPos_range hc (fo c o) i
      have := contribPos_range hc (fo c o) j
      exact contribPos_inj (c := c) (fo c o) (by omega) (by omega) (by simp only at he; omega)
    · intro j hj
      simp only [Finset.coe_range, Set.mem_Iio] at hj
      obtain ⟨k, hk0, hk1, hk⟩ := window_surj hm (fo c o + c.m / 2) j (by omega) (by omega)
      refine ⟨(k - (fo c o + c.m / 2)).toNat, by simp only [Finset.coe_range, Set.mem_Iio]; omega, ?_⟩
      simp only [contribPos]
      rw [show fo c o + c.m / 2 + ((k - (fo c o + c.m / 2)).toNat : Int) = k by omega, hk]; omega
    · intro i _; rfl
  rw [e1]
  refine Finset.sum_of_injOn (fun i : Nat => (subgridPos c (fo c o) i).toNat) ?_ ?_ ?_ ?_
  · intro i hi j hj he
    simp only [Finset.coe_range, Set.mem_Iio] at hi hj
    have := subgridPos_range hc (fo c o) i
    have := subgridPos_range hc (fo c o) j
    exact subgridPos_inj hc (fo c o) (by omega) (by omega) (by simp only at he; omega)
  · intro i _
    have := subgridPos_range hc (fo c o) i
    simp only [Finset.coe_range, Set.mem_Iio]; omega
  · intro j hj hn
    rw [hau j, hz0, mul_zero]
    intro i hi he
    exact hn ⟨i, by simpa using hi, by simp only [he]; omega⟩
  · intro i hi
    simp only [Finset.mem_range] at hi
    rw [hwv i hi, hav i hi, hz0, zero_add]; ring

/-- C32 is violated for negative offsets off the subgrid resolution: accumulation rounds the
facet offset down, extraction towards zero, so the two use different windows. -/
theorem C32_negative_offset_false :
    ∃ (c : Cfg) (o : Int), createCheck c = .success ∧
      (∀ (Fn : Arr ℝ) (sg out : Arr ℂ), (Fn.size : Int) = c.m → (sg.size : Int) = c.xM →
        (out.size : Int) = c.m → ∃ w, windowSubgrid c o Fn sg out = some w ∧
          w.get 1 = sg.get 1 * Fn.get 0) ∧
      (∀ (Fn : Arr ℝ) (g out : Arr ℂ), (Fn.size : Int) = c.m → (g.size : Int) = c.m →
        (out.size : Int) = c.xM → ∃ a, addToSubgrid c o Fn g out = some a ∧
          a.get 1 = out.get 1 + Fn.get 1 * g.get 1) := by
  refine ⟨⟨8, 4, 4⟩, -1, by decide, ?_, ?_⟩
  · intro Fn sg out hF hs ho
    obtain ⟨w, hw, _, hv⟩ := C32_extract_partial ⟨8, 4, 4⟩ (by decide) (-1) Fn sg out hF ho hs 0
      (by decide) (by decide)
    exact ⟨w, hw, hv 0 (by decide)⟩
  · intro Fn g out hF hg ho
    obtain ⟨a, ha, hv, _⟩ := C32_add_pointwise ⟨8, 4, 4⟩ (by decide) (-1) Fn g out hF hg ho
    exact ⟨a, ha, hv 1 (by decide)⟩

end
end Sdp.Swiftly
