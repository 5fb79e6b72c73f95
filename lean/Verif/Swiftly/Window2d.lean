import Verif.Swiftly.TwoD

/-!
# C32, C30: accumulating and extracting in two dimensions
-/

namespace Sdp.Swiftly
open Sdp.Fft
noncomputable section

/-- Flat position of window sample `p` in the subgrid image and in the contribution. -/
def subgridPos2 (c : Cfg) (f0 f1 : Int) (p : Nat × Nat) : Nat :=
  c.xM.toNat * (subgridPos c f0 p.1).toNat + (subgridPos c f1 p.2).toNat
def contribPos2 (c : Cfg) (f0 f1 : Int) (p : Nat × Nat) : Nat :=
  c.m.toNat * (contribPos c f0 p.1).toNat + (contribPos c f1 p.2).toNat

theorem index2_toNat {n i j : Int} (hn : 0 ≤ n) (hi : 0 ≤ i) (hj : 0 ≤ j) :
    index2 n i j = ((n.toNat * i.toNat + j.toNat : Nat) : Int) := by
  unfold index2
  push_cast
  rw [Int.toNat_of_nonneg hn, Int.toNat_of_nonneg hi, Int.toNat_of_nonneg hj]

theorem subgridPos2_lt {c : Cfg} (hc : createCheck c = .success) (f0 f1 : Int) (p : Nat × Nat) :
    subgridPos2 c f0 f1 p < c.xM.toNat * c.xM.toNat := by
  have h0 := subgridPos_range hc f0 p.1
  have h1 := subgridPos_range hc f1 p.2
  exact flat_lt (by omega) (by omega)

theorem contribPos2_lt {c : Cfg} (hc : createCheck c = .success) (f0 f1 : Int) (p : Nat × Nat) :
    contribPos2 c f0 f1 p < c.m.toNat * c.m.toNat := by
  have h0 := contribPos_range hc f0 p.1
  have h1 := contribPos_range hc f1 p.2
  exact flat_lt (by omega) (by omega)

theorem subgridPos2_inj {c : Cfg} (hc : createCheck c = .success) (f0 f1 : Int) {p q : Nat × Nat}
    (hp : p.1 < c.m.toNat ∧ p.2 < c.m.toNat) (hq : q.1 < c.m.toNat ∧ q.2 < c.m.toNat)
    (h : subgridPos2 c f0 f1 p = subgridPos2 c f0 f1 q) : p = q := by
  have a0 := subgridPos_range hc f0 p.1
  have a1 := subgridPos_range hc f1 p.2
  have b0 := subgridPos_range hc f0 q.1
  have b1 := subgridPos_range hc f1 q.2
  obtain ⟨e0, e1⟩ := flat_inj (by omega) (by omega) h
  exact Prod.ext (subgridPos_inj hc f0 (by omega) (by omega) (by omega))
    (subgridPos_inj hc f1 (by omega) (by omega) (by omega))

theorem contribPos2_inj {c : Cfg} (hc : createCheck c = .success) (f0 f1 : Int) {p q : Nat × Nat}
    (hp : p.1 < c.m.toNat ∧ p.2 < c.m.toNat) (hq : q.1 < c.m.toNat ∧ q.2 < c.m.toNat)
    (h : contribPos2 c f0 f1 p = contribPos2 c f0 f1 q) : p = q := by
  have a0 := contribPos_range hc f0 p.1
  have a1 := contribPos_range hc f1 p.2
  have b0 := contribPos_range hc f0 q.1
  have b1 := contribPos_range hc f1 q.2
  obtain ⟨e0, e1⟩ := flat_inj (by omega) (by omega) h
  exact Prod.ext (contribPos_inj (c := c) f0 (by omega) (by omega) (by omega))
    (contribPos_inj (c := c) f1 (by omega) (by omega) (by omega))

theorem raw_eq {c : Cfg} (hc : createCheck c = .success) (o : Int) :
    fctOffsRaw c o = o.tdiv (c.image / c.xM) := by
  obtain ⟨s, t, hs', ht, _, hi, hy, hx, hds, hdt, _⟩ := sizes hc
  have hip : 0 < c.image := by rw [hi]; positivity
  unfold fctOffsRaw; rw [Int.tdiv_eq_ediv_of_nonneg hip.le]

/-- C32 / C30: two-dimensional accumulation, for facet offsets that are not too negative, into
an `xM` by `xM` image from an `m` by `m` contribution: every window sample, weighted on both
axes, is added at its position, nothing else changes. -/
theorem C32_add_2d_partial (c : Cfg) (hc : createCheck c = .success) (o0 o1 : Int) (Fn : Arr ℝ)
    (contrib out : Arr ℂ) (hF : (Fn.size : Int) = c.m)
    (hq : contrib.size = c.m.toNat * c.m.toNat) (ho : out.size = c.xM.toNat * c.xM.toNat)
    (f0 f1 : Int) (hf0 : f0 = o0.tdiv (c.image / c.xM)) (hf1 : f1 = o1.tdiv (c.image / c.xM))
    (h0 : 0 ≤ f0 + c.m / 2) (h1 : 0 ≤ f1 + c.m / 2) :
    ∃ r, addToSubgrid2d c o0 o1 Fn contrib out = some r ∧ r.size = out.size ∧
      (∀ i < c.m.toNat, ∀ j < c.m.toNat, r.get (subgridPos2 c f0 f1 (i, j)) =
        out.get (subgridPos2 c f0 f1 (i, j)) +
          Fn.get i * Fn.get j * contrib.get (contribPos2 c f0 f1 (i, j))) ∧
      ∀ k, (∀ i < c.m.toNat, ∀ j < c.m.toNat, subgridPos2 c f0 f1 (i, j) ≠ k) →
        r.get k = out.get k := by
  have hm := m_pos hc
  have hx := m_le_xM hc
  unfold addToSubgrid2d
  simp only
  rw [raw_eq hc, raw_eq hc, ← hf0, ← hf1]
  rw [loop_congr _ (fun (a : Arr ℂ) (p : Nat × Nat) =>
    (a.read (subgridPos2 c f0 f1 p)).bind fun y => a.write (subgridPos2 c f0 f1 p)
      (y + (Fn.get p.1 : ℂ) * Fn.get p.2 * contrib.get (contribPos2 c f0 f1 p)))]
  · obtain ⟨r, e1, e2, e3, e4⟩ := Arr.modify_spec (nest2 c.m.toNat c.m.toNat)
      (fun p => (subgridPos2 c f0 f1 p : Int))
      (fun p y => y + (Fn.get p.1 : ℂ) * Fn.get p.2 * contrib.get (contribPos2 c f0 f1 p))
      (by
        refine List.Nodup.map_on ?_ (nest2_nodup _ _)
        intro p hp q hq he
        rw [mem_nest2] at hp hq
        exact subgridPos2_inj hc f0 f1 hp hq (by exact_mod_cast he)) out
      (by intro p _; have := subgridPos2_lt hc f0 f1 p; omega)
    refine ⟨r, e1, e2, fun i hi j hj => ?_, fun k hk => e4 k fun p hp he => ?_⟩
    · have := e3 (i, j) (mem_nest2.2 ⟨hi, hj⟩)
      simpa using this
    · rw [mem_nest2] at hp
      exact hk p.1 hp.1 p.2 hp.2 (by exact_mod_cast he)
  · rintro ⟨i, j⟩ hp a
    rw [mem_nest2] at hp
    simp only at hp ⊢
    have a0 := contribPos_range hc f0 i
    have a1 := contribPos_range hc f1 j
    have b0 := subgridPos_range hc f0 i
    have b1 := subgridPos_range hc f1 j
    have hl := contribPos2_lt hc f0 f1 (i, j)
    rw [Arr.read_nat, if_pos (by omega), Option.bind_some, Arr.read_nat, if_pos (by omega),
      Option.bind_some, contribIdx_eq hc _ _ h0, contribIdx_eq hc _ _ h1,
      subgridIdx_eq hc _ _ (by omega), subgridIdx_eq hc _ _ (by omega),
      index2_toNat hm.le a0.1 a1.1, index2_toNat (by omega) b0.1 b1.1, Arr.read_nat,
      if_pos (by rw [hq]; exact hl), Option.bind_some]
    rfl

/-- C32 / C30: two-dimensional extraction before its transform. -/
theorem C32_extract_2d_partial (c : Cfg) (hc : createCheck c = .success) (o0 o1 : Int)
    (Fn : Arr ℝ) (sg contrib : Arr ℂ) (hF : (Fn.size : Int) = c.m)
    (hq : contrib.size = c.m.toNat * c.m.toNat) (hs : sg.size = c.xM.toNat * c.xM.toNat)
    (f0 f1 : Int) (hf0 : f0 = o0.tdiv (c.image / c.xM)) (hf1 : f1 = o1.tdiv (c.image / c.xM))
    (h0 : 0 ≤ f0 + c.m / 2) (h1 : 0 ≤ f1 + c.m / 2) :
    ∃ r, windowSubgrid2d c o0 o1 Fn sg contrib = some r ∧ r.size = contrib.size ∧
      ∀ i < c.m.toNat, ∀ j < c.m.toNat, r.get (contribPos2 c f0 f1 (i, j)) =
        Fn.get i * Fn.get j * sg.get (subgridPos2 c f0 f1 (i, j)) := by
  have hm := m_pos hc
  have hx := m_le_xM hc
  unfold windowSubgrid2d
  simp only
  rw [raw_eq hc, raw_eq hc, ← hf0, ← hf1]
  rw [loop_congr _ (fun (a : Arr ℂ) (p : Nat × Nat) => a.write (contribPos2 c f0 f1 p)
      ((Fn.get p.1 : ℂ) * Fn.get p.2 * sg.get (subgridPos2 c f0 f1 p)))]
  · obtain ⟨r, e1, e2, e3, e4⟩ := Arr.store_spec (nest2 c.m.toNat c.m.toNat)
      (fun p => (contribPos2 c f0 f1 p : Int))
      (fun p => (Fn.get p.1 : ℂ) * Fn.get p.2 * sg.get (subgridPos2 c f0 f1 p))
      (by
        refine List.Nodup.map_on ?_ (nest2_nodup _ _)
        intro p hp q hq he
        rw [mem_nest2] at hp hq
        exact contribPos2_inj hc f0 f1 hp hq (by exact_mod_cast he)) contrib
      (by intro p _; have := contribPos2_lt hc f0 f1 p; omega)
    refine ⟨r, e1, e2, fun i hi j hj => ?_⟩
    have := e3 (i, j) (mem_nest2.2 ⟨hi, hj⟩)
    simpa using this
  · rintro ⟨i, j⟩ hp a
    rw [mem_nest2] at hp
    simp only at hp ⊢
    have a0 := contribPos_range hc f0 i
    have a1 := contribPos_range hc f1 j
    have b0 := subgridPos_range hc f0 i
    have b1 := subgridPos_range hc f1 j
    have hl := subgridPos2_lt hc f0 f1 (i, j)
    rw [Arr.read_nat, if_pos (by omega), Option.bind_some, Arr.read_nat, if_pos (by omega),
      Option.bind_some, contribIdx_eq hc _ _ h0, contribIdx_eq hc _ _ h1,
      subgridIdx_eq hc _ _ (by omega), subgridIdx_eq hc _ _ (by omega),
      index2_toNat hm.le a0.1 a1.1, index2_toNat (by omega) b0.1 b1.1, Arr.read_nat,
      if_pos (by rw [hs]; exact hl), Option.bind_some]
    rfl

/-- C32: the two-dimensional maps are adjoint (same rounding of the offsets in both). -/
theorem C32_adjoint_2d_partial (c : Cfg) (hc : createCheck c = .success) (o0 o1 : Int) (Fn : Arr ℝ)
    (sg g z out : Arr ℂ) (hF : (Fn.size : Int) = c.m) (hs : sg.size = c.xM.toNat * c.xM.toNat)
    (hg : g.size = c.m.toNat * c.m.toNat) (hz : z.size = c.xM.toNat * c.xM.toNat)
    (hz0 : ∀ j, z.get j = 0) (ho : out.size = c.m.toNat * c.m.toNat)
    (h0 : 0 ≤ o0.tdiv (c.image / c.xM) + c.m / 2) (h1 : 0 ≤ o1.tdiv (c.image / c.xM) + c.m / 2) :
    ∃ w a, windowSubgrid2d c o0 o1 Fn sg out = some w ∧ addToSubgrid2d c o0 o1 Fn g z = some a ∧
      ∑ i ∈ Finset.range (c.m.toNat * c.m.toNat), w.get i * g.get i =
        ∑ j ∈ Finset.range (c.xM.toNat * c.xM.toNat), sg.get j * a.get j := by
  obtain ⟨w, hw, _, hwv⟩ := C32_extract_2d_partial c hc o0 o1 Fn sg out hF ho hs _ _ rfl rfl h0 h1
  obtain ⟨a, ha, _, hav, hau⟩ := C32_add_2d_partial c hc o0 o1 Fn g z hF hg hz _ _ rfl rfl h0 h1
  refine ⟨w, a, hw, ha, ?_⟩
  generalize o0.tdiv (c.image / c.xM) = f0 at *
  generalize o1.tdiv (c.image / c.xM) = f1 at *
  let S := Finset.range c.m.toNat ×ˢ Finset.range c.m.toNat
  have hinj : Set.InjOn (contribPos2 c f0 f1) S := by
    intro p hp q hq he
    simp only [S, Finset.coe_product, Finset.coe_range, Set.mem_prod, Set.mem_Iio] at hp hq
    exact contribPos2_inj hc f0 f1 hp hq he
  have himg : S.image (contribPos2 c f0 f1) = Finset.range (c.m.toNat * c.m.toNat) := by
    apply Finset.eq_of_subset_of_card_le
    · intro k hk
      obtain ⟨p, _, rfl⟩ := Finset.mem_image.1 hk
      exact Finset.mem_range.2 (contribPos2_lt hc f0 f1 p)
    · rw [Finset.card_image_of_injOn hinj]; simp [S]
  rw [← himg, Finset.sum_image hinj]
  refine Finset.sum_of_injOn (subgridPos2 c f0 f1) ?_ ?_ ?_ ?_
  · intro p hp q hq he
    simp only [S, Finset.coe_product, Finset.coe_range, Set.mem_prod, Set.mem_Iio] at hp hq
    exact subgridPos2_inj hc f0 f1 hp hq he
  · intro p _
    simp only [Finset.coe_range, Set.mem_Iio]
    exact subgridPos2_lt hc f0 f1 p
  · intro k _ hn
    rw [hau k, hz0, mul_zero]
    intro i hi j hj he
    exact hn ⟨(i, j), by simp [S, hi, hj], he⟩
  · rintro ⟨i, j⟩ hp
    simp only [S, Finset.mem_product, Finset.mem_range] at hp
    rw [hwv i hp.1 j hp.2, hav i hp.1 j hp.2, hz0, zero_add]; ring

/-- C30 is violated in two dimensions: only the last axis of the contribution is checked, so a
contribution with fewer than `m` rows is accepted and then read past its end. -/
theorem C30_2d_rows_false (c : Cfg) (hc : createCheck c = .success) (rows : Nat)
    (hr : (rows : Int) < c.m) (Fn : Arr ℝ) (contrib out : Arr ℂ)
    (hq : contrib.size = rows * c.m.toNat) :
    addToSubgrid2d c 0 0 Fn contrib out = none := by
  have hm := m_pos hc
  unfold addToSubgrid2d
  simp only
  have hf : fctOffsRaw c 0 = 0 := by rw [raw_eq hc]; simp
  rw [hf]
  -- the iteration that reads the last row
  obtain ⟨i, hi, hci⟩ : ∃ i : Nat, i < c.m.toNat ∧ contribPos c 0 i = c.m - 1 := by
    obtain ⟨k, hk0, hk1, hk⟩ := window_surj hm (0 + c.m / 2) (c.m - 1) (by omega) (by omega)
    refine ⟨(k - (0 + c.m / 2)).toNat, by omega, ?_⟩
    unfold contribPos
    rw [show 0 + c.m / 2 + ((k - (0 + c.m / 2)).toNat : Int) = k by omega, hk]
  refine loop_none (fun _ => True) _ (fun _ _ _ _ _ => trivial) (i, 0) ?_ _ _ trivial
    (mem_nest2.2 ⟨hi, by simp only; omega⟩)
  intro s _
  have a1 := contribPos_range hc 0 0
  have hread : contrib.read (index2 c.m (contribIdx c 0 i) (contribIdx c 0 ((0 : Nat) : Int))) = none := by
    rw [contribIdx_eq hc 0 i (by omega), contribIdx_eq hc 0 0 (by omega), hci]
    unfold Arr.read index2
    rw [if_neg]
    rw [hq]
    push_cast
    rw [Int.toNat_of_nonneg hm.le]
    have : (rows : Int) * c.m ≤ (c.m - 1) * c.m := Int.mul_le_mul_of_nonneg_right (by omega) hm.le
    intro hh
    have e : c.m * (c.m - 1) = (c.m - 1) * c.m := by ring
    omega
  simp only [hread]
  cases Fn.read (i : Int) with
  | none => rfl
  | some w => simp only [Option.bind_some]; cases Fn.read ((0 : Nat) : Int) <;> rfl

example : createCheck ⟨64, 16, 16⟩ = .success ∧ ((1 : Nat) : Int) < Cfg.m ⟨64, 16, 16⟩ ∧
    0 ≤ (17 : Int).tdiv (64 / 16) + Cfg.m ⟨64, 16, 16⟩ / 2 := by decide

end
end Sdp.Swiftly
