import Verif.Swiftly.Props

/-!
# C59 (and C30): preparing and finishing facets
-/

namespace Sdp.Swiftly
open Sdp.Fft
noncomputable section

/-- A loop storing `v i` at every `lo <= i < hi`. -/
theorem range_store (v : Int → ℂ) (out : Arr ℂ) (lo hi : Int) (h0 : 0 ≤ lo) (h1 : hi ≤ out.size) :
    ∃ r, loop (fun (out : Arr ℂ) (k : Nat) => out.write (lo + k) (v (lo + k))) out
        (List.range (hi - lo).toNat) = some r ∧ r.size = out.size ∧
      ∀ i : Nat, r.get i = if lo ≤ i ∧ (i : Int) < hi then v i else out.get i := by
  obtain ⟨r, e1, e2, e3, e4⟩ := Arr.store_spec (List.range (hi - lo).toNat)
    (fun (k : Nat) => lo + (k : Int)) (fun (k : Nat) => v (lo + k))
    (List.Nodup.map (fun a b h => by simpa using h) List.nodup_range) out
    (by intro x hx; rw [List.mem_range] at hx; omega)
  refine ⟨r, e1, e2, fun i => ?_⟩
  split
  · rename_i h
    have := e3 (i - lo).toNat (List.mem_range.2 (by omega))
    have e : lo + ((i - lo).toNat : Int) = i := by omega
    simp only [e] at this
    simpa using this
  · rename_i h
    apply e4
    intro x hx; rw [List.mem_range] at hx; omega

theorem fill0_spec (out : Arr ℂ) (lo hi : Int) (h0 : 0 ≤ lo) (h1 : hi ≤ out.size) :
    ∃ r, fill0 out lo hi = some r ∧ r.size = out.size ∧
      ∀ i : Nat, r.get i = if lo ≤ i ∧ (i : Int) < hi then 0 else out.get i :=
  range_store (fun _ => 0) out lo hi h0 h1

theorem read_in {α : Type} (a : Arr α) (i : Int) (h0 : 0 ≤ i) (h1 : i < a.size) :
    a.read i = some (a.get i.toNat) := by
  unfold Arr.read; rw [if_pos ⟨h0, h1⟩]

theorem fillFacet_spec (fct : Arr ℂ) (Fb : Arr ℝ) (a b : Int) (out : Arr ℂ) (lo hi : Int)
    (h0 : 0 ≤ lo) (h1 : hi ≤ out.size)
    (ha : lo < hi → 0 ≤ lo + a ∧ hi + a ≤ fct.size) (hb : lo < hi → 0 ≤ lo + b ∧ hi + b ≤ Fb.size) :
    ∃ r, fillFacet fct Fb a b out lo hi = some r ∧ r.size = out.size ∧
      ∀ i : Nat, r.get i = if lo ≤ i ∧ (i : Int) < hi then
        fct.get (i + a).toNat * Fb.get (i + b).toNat else out.get i := by
  unfold fillFacet
  rw [loop_congr _ (fun (out : Arr ℂ) (k : Nat) => out.write (lo + k)
    ((fun i : Int => (fct.get (i + a).toNat * Fb.get (i + b).toNat : ℂ)) (lo + k)))]
  · exact range_store (fun i : Int => (fct.get (i + a).toNat * Fb.get (i + b).toNat : ℂ)) out lo hi h0 h1
  · intro k hk s
    rw [List.mem_range] at hk
    have := ha (by omega)
    have := hb (by omega)
    rw [read_in fct _ (by omega) (by omega), read_in Fb _ (by omega) (by omega)]
    rfl

theorem stop_eq {n s F : Int} (h0 : 0 ≤ s) (h1 : s < n) (hF : 1 ≤ F) (hF' : F ≤ n) :
    ((s + F).tmod n = if s + F < n then s + F else s + F - n) := by
  rw [Int.tmod_eq_emod_of_nonneg (by omega)]
  split
  · exact Int.emod_eq_of_lt (by omega) (by omega)
  · rw [← Int.sub_emod_right]; exact Int.emod_eq_of_lt (by omega) (by omega)

/-- Where sample `j` of a facet of `F` samples centred at `o` lies in the prepared facet. -/
def facetPos (c : Cfg) (F o : Int) (j : Nat) : Int := (o - F / 2 + j) % c.yN

theorem facetPos_eq {c : Cfg} {F o : Int} (hn : 0 < c.yN) {j : Nat} (hj : (j : Int) < c.yN) :
    facetPos c F o j = (if (o - F / 2) % c.yN + j < c.yN then (o - F / 2) % c.yN + j
      else (o - F / 2) % c.yN + j - c.yN) := by
  have h2 := Int.emod_nonneg (o - F / 2) (b := c.yN) (by omega)
  have h := wrap hn (o - F / 2) j (by omega) hj
  unfold facetPos
  rw [← h]
  split <;> split <;> omega

/-- The placement of a facet: sample `j` at its position, weighted; zero elsewhere. -/
theorem placeFacet_spec (c : Cfg) (hc : createCheck c = .success) (F o : Int) (hF : 1 ≤ F)
    (hF' : F ≤ c.yN) (fct : Arr ℂ) (Fb : Arr ℝ) (out : Arr ℂ) (hf : (fct.size : Int) = F)
    (hb : (Fb.size : Int) = c.yN) (ho : (out.size : Int) = c.yN) :
    ∃ r, placeFacet c F o fct Fb out = some r ∧ r.size = out.size ∧
      (∀ j : Nat, (j : Int) < F → r.get (facetPos c F o j).toNat =
        fct.get j * Fb.get (j + c.yN / 2 - F / 2).toNat) ∧
      (∀ i : Nat, (i : Int) < c.yN → (∀ j : Nat, (j : Int) < F → facetPos c F o j ≠ i) →
        r.get i = 0) := by
  have hm := m_pos hc
  have hy := m_le_yN hc
  have hn : 0 < c.yN := by omega
  unfold placeFacet
  simp only
  rw [modP_eq _ hn, tdiv_two_bounds (by omega), tdiv_two_bounds (by omega)]
  have hs0 := Int.emod_nonneg (o - F / 2) (b := c.yN) (by omega)
  have hs1 := Int.emod_lt_of_pos (o - F / 2) hn
  have hpos : ∀ j : Nat, (j : Int) < F → facetPos c F o j = _ :=
    fun j hj => facetPos_eq (F := F) (o := o) hn (j := j) (by omega)
  generalize hst : (o - F / 2) % c.yN = st at *
  rw [stop_eq hs0 hs1 hF hF']
  by_cases hw : st + F < c.yN
  · rw [if_pos hw, if_pos (by omega)]
    obtain ⟨r1, e1, z1, v1⟩ := fill0_spec out 0 st (by omega) (by omega)
    rw [e1]; simp only [Option.bind_some]
    obtain ⟨r2, e2, z2, v2⟩ := fillFacet_spec fct Fb (-st) (c.yN / 2 - F / 2 - st) r1 st (st + F)
      (by omega) (by omega) (by omega) (by omega)
    rw [e2]; simp only [Option.bind_some]
    obtain ⟨r3, e3, z3, v3⟩ := fill0_spec r2 (st + F) c.yN (by omega) (by omega)
    refine ⟨r3, e3, by omega, fun j hj => ?_, fun i hi hni => ?_⟩
    · rw [hpos j hj, if_pos (by omega), v3, if_neg (by omega), v2, if_pos (by omega)]
      congr 2
      · omega
      · congr 1; omega
    · rw [v3]
      split
      · rfl
      · rw [v2, if_neg]
        · rw [v1, if_pos]
          by_contra hh
          exact hni (i - st).toNat (by omega) (by rw [hpos _ (by omega), if_pos (by omega)]; omega)
        · intro hh
          exact hni (i - st).toNat (by omega) (by rw [hpos _ (by omega), if_pos (by omega)]; omega)
  · rw [if_neg hw, if_neg (by omega)]
    obtain ⟨r1, e1, z1, v1⟩ := fillFacet_spec fct Fb (c.yN - st) (c.yN + (c.yN / 2 - F / 2 - st)) out 0
      (st + F - c.yN) (by omega) (by omega) (by omega) (by omega)
    rw [e1]; simp only [Option.bind_some]
    obtain ⟨r2, e2, z2, v2⟩ := fill0_spec r1 (st + F - c.yN) st (by omega) (by omega)
    rw [e2]; simp only [Option.bind_some]
    obtain ⟨r3, e3, z3, v3⟩ := fillFacet_spec fct Fb (-st) (c.yN / 2 - F / 2 - st) r2 st c.yN
      (by omega) (by omega) (by omega) (by omega)
    refine ⟨r3, e3, by omega, fun j hj => ?_, fun i hi hni => ?_⟩
    · rw [hpos j hj]
      by_cases hj2 : st + j < c.yN
      · rw [if_pos hj2, v3, if_pos (by omega)]
        congr 2
        · omega
        · congr 1; omega
      · rw [if_neg hj2, v3, if_neg (by omega), v2, if_neg (by omega), v1, if_pos (by omega)]
        congr 2
        · omega
        · congr 1; omega
    · rw [v3, if_neg]
      · rw [v2, if_pos]
        by_contra hh
        by_cases hi2 : (i : Int) < st
        · exact hni (i + c.yN - st).toNat (by omega)
            (by rw [hpos _ (by omega), if_neg (by omega)]; omega)
        · exact hni (i - st).toNat (by omega) (by rw [hpos _ (by omega), if_pos (by omega)]; omega)
      · intro hh
        exact hni (i - st).toNat (by omega) (by rw [hpos _ (by omega), if_pos (by omega)]; omega)

/-- One reading loop of `takeFacet`. -/
theorem take_spec (pfct : Arr ℂ) (Fb : Arr ℝ) (fct : Arr ℂ) (a b lo hi : Int)
    (hp : lo < hi → 0 ≤ lo ∧ hi ≤ pfct.size) (ha : lo < hi → 0 ≤ lo + a ∧ hi + a ≤ fct.size)
    (hb : lo < hi → 0 ≤ lo + b ∧ hi + b ≤ Fb.size) :
    ∃ r, loop (fun (fct : Arr ℂ) (k : Nat) =>
      (pfct.read (lo + k)).bind fun v => (Fb.read (lo + k + b)).bind fun w =>
        fct.write (lo + k + a) (v * w)) fct (List.range (hi - lo).toNat) = some r ∧
      r.size = fct.size ∧
      ∀ j : Nat, r.get j = if lo + a ≤ j ∧ (j : Int) < hi + a then
        pfct.get (j - a).toNat * Fb.get (j - a + b).toNat else fct.get j := by
  by_cases hlt : lo < hi
  · have hp := hp hlt
    have ha := ha hlt
    have hb := hb hlt
    obtain ⟨r, e1, e2, e3⟩ := range_store
      (fun j : Int => (pfct.get (j - a).toNat * Fb.get (j - a + b).toNat : ℂ)) fct (lo + a) (hi + a)
      ha.1 ha.2
    refine ⟨r, ?_, e2, e3⟩
    rw [show hi + a - (lo + a) = hi - lo by ring] at e1
    rw [← e1]
    apply loop_congr
    intro k hk s
    rw [List.mem_range] at hk
    rw [read_in pfct _ (by omega) (by omega), read_in Fb _ (by omega) (by omega)]
    simp only [Option.bind_some]
    rw [show lo + a + (k : Int) = lo + k + a by ring, show lo + (k : Int) + a - a = lo + k by ring]
  · refine ⟨fct, ?_, rfl, fun j => ?_⟩
    · rw [show (hi - lo).toNat = 0 by omega]; rfl
    · rw [if_neg (by omega)]

/-- Taking the facet back: sample `j` is read from its position and weighted. -/
theorem takeFacet_spec (c : Cfg) (hc : createCheck c = .success) (F o : Int) (hF : 1 ≤ F)
    (hF' : F ≤ c.yN) (pfct : Arr ℂ) (Fb : Arr ℝ) (fct : Arr ℂ) (hf : (fct.size : Int) = F)
    (hb : (Fb.size : Int) = c.yN) (hp : (pfct.size : Int) = c.yN) :
    ∃ r, takeFacet c F o pfct Fb fct = some r ∧ r.size = fct.size ∧
      ∀ j : Nat, (j : Int) < F → r.get j =
        pfct.get (facetPos c F o j).toNat * Fb.get (j + c.yN / 2 - F / 2).toNat := by
  have hm := m_pos hc
  have hy := m_le_yN hc
  have hn : 0 < c.yN := by omega
  unfold takeFacet
  simp only
  rw [modP_eq _ hn, tdiv_two_bounds (by omega), tdiv_two_bounds (by omega)]
  have hs0 := Int.emod_nonneg (o - F / 2) (b := c.yN) (by omega)
  have hs1 := Int.emod_lt_of_pos (o - F / 2) hn
  have hpos : ∀ j : Nat, (j : Int) < F → facetPos c F o j = _ :=
    fun j hj => facetPos_eq (F := F) (o := o) hn (j := j) (by omega)
  generalize hst : (o - F / 2) % c.yN = st at *
  rw [stop_eq hs0 hs1 hF hF']
  by_cases hw : st + F < c.yN
  · rw [if_pos hw, if_pos (by omega)]
    obtain ⟨r, e1, z1, v1⟩ := take_spec pfct Fb fct (-st) (c.yN / 2 - F / 2 - st) st (st + F)
      (by omega) (by omega) (by omega)
    refine ⟨r, e1, z1, fun j hj => ?_⟩
    rw [hpos j hj, if_pos (by omega), v1, if_pos (by omega)]
    congr 2
    · congr 1; omega
    · congr 1; omega
  · rw [if_neg hw, if_neg (by omega)]
    obtain ⟨r1, e1, z1, v1⟩ := take_spec pfct Fb fct (c.yN - st) (c.yN + (c.yN / 2 - F / 2 - st)) 0
      (st + F - c.yN) (by omega) (by omega) (by omega)
    rw [e1]; simp only [Option.bind_some]
    obtain ⟨r2, e2, z2, v2⟩ := take_spec pfct Fb r1 (-st) (c.yN / 2 - F / 2 - st) st c.yN
      (by omega) (by omega) (by omega)
    refine ⟨r2, e2, by omega, fun j hj => ?_⟩
    rw [hpos j hj, v2]
    by_cases hj2 : st + j < c.yN
    · rw [if_pos hj2, if_pos (by omega)]
      congr 2
      · congr 1; omega
      · congr 1; omega
    · rw [if_neg hj2, if_neg (by omega), v1, if_pos (by omega)]
      congr 2
      · congr 1; omega
      · congr 1; omega

/-- C59 / C30: preparing a facet never leaves its arrays and gives the scaled inverse transform
of the row that holds sample `j` of the facet, times its window correction, at its position
modulo `yN`, and zero elsewhere. -/
theorem C59_prepare_facet (c : Cfg) (hc : createCheck c = .success) (F o : Int) (hF : 1 ≤ F)
    (hF' : F ≤ c.yN) (fct : Arr ℂ) (Fb : Arr ℝ) (out : Arr ℂ) (hf : (fct.size : Int) = F)
    (hb : (Fb.size : Int) = c.yN) (ho : (out.size : Int) = c.yN) :
    ∃ (r : Arr ℂ) (x : Nat → ℂ), prepareFacet c F o fct Fb out = some r ∧ r.size = out.size ∧
      (∀ i < c.yN.toNat, r.get i = 1 / (c.yN : ℂ) * dft true c.yN.toNat x i) ∧
      (∀ j : Nat, (j : Int) < F → x ((o - F / 2 + j) % c.yN).toNat =
        fct.get j * Fb.get (j + c.yN / 2 - F / 2).toNat) ∧
      (∀ i : Nat, (i : Int) < c.yN → (∀ j : Nat, (j : Int) < F → (o - F / 2 + j) % c.yN ≠ i) →
        x i = 0) := by
  obtain ⟨p, hp, hs, hv, hz⟩ := placeFacet_spec c hc F o hF hF' fct Fb out hf hb ho
  refine ⟨⟨p.size, fun k => if k < c.yN.toNat then 1 / (c.yN : ℂ) * dft true c.yN.toNat p.get k
    else p.get k⟩, p.get, ?_, hs, fun i hi => if_pos hi, hv, hz⟩
  unfold prepareFacet
  rw [hp]
  simp only [Option.bind_some, fftRow]
  rw [if_pos (by omega)]

/-- C59 / C30: finishing a facet never leaves its arrays; sample `j` is the forward transform
of the prepared facet at the position of `j`, times its window correction. -/
theorem C59_finish_facet (c : Cfg) (hc : createCheck c = .success) (F o : Int) (hF : 1 ≤ F)
    (hF' : F ≤ c.yN) (pfct : Arr ℂ) (Fb : Arr ℝ) (fct : Arr ℂ) (hf : (fct.size : Int) = F)
    (hb : (Fb.size : Int) = c.yN) (hp : (pfct.size : Int) = c.yN) :
    ∃ r, finishFacet c F o pfct Fb fct = some r ∧ r.size = fct.size ∧
      ∀ j : Nat, (j : Int) < F → r.get j =
        dft false c.yN.toNat pfct.get ((o - F / 2 + j) % c.yN).toNat *
          Fb.get (j + c.yN / 2 - F / 2).toNat := by
  have hm := m_pos hc
  have hy := m_le_yN hc
  unfold finishFacet fftRow
  rw [if_pos (by omega)]
  simp only [Option.bind_some]
  obtain ⟨r, e, z, v⟩ := takeFacet_spec c hc F o hF hF'
    ⟨pfct.size, fun k => if k < c.yN.toNat then 1 * dft false c.yN.toNat pfct.get k else pfct.get k⟩
    Fb fct hf hb hp
  refine ⟨r, e, z, fun j hj => ?_⟩
  rw [v j hj]
  have h0 := Int.emod_nonneg (o - F / 2 + j) (b := c.yN) (by omega)
  have h1 := Int.emod_lt_of_pos (o - F / 2 + j) (b := c.yN) (by omega)
  unfold facetPos
  simp only
  rw [if_pos (by omega), one_mul]

/-- C59: finishing a prepared facet at the same offset gives the facet back, times the square of
its window correction. -/
theorem C59_round_trip (c : Cfg) (hc : createCheck c = .success) (F o : Int) (hF : 1 ≤ F)
    (hF' : F ≤ c.yN) (fct : Arr ℂ) (Fb : Arr ℝ) (out fct' : Arr ℂ) (hf : (fct.size : Int) = F)
    (hb : (Fb.size : Int) = c.yN) (ho : (out.size : Int) = c.yN) (hf' : (fct'.size : Int) = F) :
    ∃ p r, prepareFacet c F o fct Fb out = some p ∧ finishFacet c F o p Fb fct' = some r ∧
      ∀ j : Nat, (j : Int) < F →
        r.get j = fct.get j * (Fb.get (j + c.yN / 2 - F / 2).toNat : ℂ) ^ 2 := by
  have hm := m_pos hc
  have hy := m_le_yN hc
  obtain ⟨p, x, hp, hps, hpv, hx, _⟩ := C59_prepare_facet c hc F o hF hF' fct Fb out hf hb ho
  obtain ⟨r, hr, _, hrv⟩ := C59_finish_facet c hc F o hF hF' p Fb fct' hf' hb (by omega)
  refine ⟨p, r, hp, hr, fun j hj => ?_⟩
  have h0 := Int.emod_nonneg (o - F / 2 + j) (b := c.yN) (by omega)
  have h1 := Int.emod_lt_of_pos (o - F / 2 + j) (b := c.yN) (by omega)
  have hN : (c.yN : ℂ) ≠ 0 := by
    have : c.yN ≠ 0 := by omega
    exact_mod_cast this
  have hN' : ((c.yN.toNat : Nat) : ℂ) = (c.yN : ℂ) := by
    have : ((c.yN.toNat : Nat) : Int) = c.yN := by omega
    exact_mod_cast congrArg (Int.cast : Int → ℂ) this
  have hd : dft false c.yN.toNat p.get ((o - F / 2 + j) % c.yN).toNat =
      x ((o - F / 2 + j) % c.yN).toNat := by
    rw [dft_congr false c.yN.toNat (y := fun i => 1 / (c.yN : ℂ) * dft true c.yN.toNat x i) hpv]
    have := dft_dft true c.yN.toNat x ((o - F / 2 + j) % c.yN).toNat (by omega)
    have e : dft false c.yN.toNat (fun i => 1 / (c.yN : ℂ) * dft true c.yN.toNat x i)
        ((o - F / 2 + j) % c.yN).toNat = 1 / (c.yN : ℂ) *
        dft false c.yN.toNat (dft true c.yN.toNat x) ((o - F / 2 + j) % c.yN).toNat := by
      unfold dft; rw [Finset.mul_sum]; exact Finset.sum_congr rfl fun _ _ => by ring
    rw [e]
    simp only [Bool.not_true] at this
    rw [this, hN']
    field_simp
  rw [hrv j hj, hd, hx j hj]
  ring

/-- Non-vacuity: a facet that wraps around the edge, at a negative offset. -/
example : createCheck ⟨64, 16, 16⟩ = .success ∧
    (List.range 5).map (facetPos ⟨64, 16, 16⟩ 5 (-1)) = [13, 14, 15, 0, 1] := by decide

/-- C30 is violated for an empty facet: a facet of no samples passes the checks of
`sdp_swiftly_prepare_facet` (0 ≤ yN), but the whole row is then read from it. -/
theorem C30_empty_facet_false (c : Cfg) (hc : createCheck c = .success) (o : Int)
    (fct : Arr ℂ) (Fb : Arr ℝ) (out : Arr ℂ) (hf : fct.size = 0) :
    prepareFacet c 0 o fct Fb out = none := by
  have hm := m_pos hc
  have hy := m_le_yN hc
  have hn : 0 < c.yN := by omega
  unfold prepareFacet placeFacet
  simp only
  rw [modP_eq _ hn]
  have hs0 := Int.emod_nonneg (o - Int.tdiv 0 2) (b := c.yN) (by omega)
  have hs1 := Int.emod_lt_of_pos (o - Int.tdiv 0 2) hn
  generalize (o - Int.tdiv 0 2) % c.yN = st at *
  rw [add_zero, Int.tmod_eq_of_lt hs0 hs1, if_neg (by omega)]
  have key : ∀ a b out lo hi, lo < hi → fillFacet fct Fb a b out lo hi = none := by
    intro a b out lo hi h
    unfold fillFacet
    obtain ⟨n, hn⟩ : ∃ n, (hi - lo).toNat = n + 1 := ⟨(hi - lo).toNat - 1, by omega⟩
    rw [hn, List.range_succ_eq_map]
    simp only [loop]
    have : fct.read (lo + ((0 : Nat) : Int) + a) = none := by
      unfold Arr.read; rw [if_neg (by omega)]
    rw [this]; rfl
  by_cases h : 0 < st
  · rw [key _ _ _ _ _ h]; rfl
  · have : st = 0 := by omega
    subst this
    cases fillFacet fct Fb (c.yN - 0) (c.yN + (c.yN.tdiv 2 - Int.tdiv 0 2 - 0)) out 0 0 with
    | none => rfl
    | some r =>
      simp only [Option.bind_some]
      cases fill0 r 0 0 with
      | none => rfl
      | some r => simp only [Option.bind_some]; rw [key _ _ _ _ _ hn]; rfl

end
end Sdp.Swiftly
