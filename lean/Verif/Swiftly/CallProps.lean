import Verif.Swiftly.Call
import Verif.GridUtil.ScaleProps
import Verif.Swiftly.PipelineMain

/-! # C110: whole calls row by row -/

namespace Sdp.Swiftly
open Finset Sdp.Fft Sdp.GridUtil
noncomputable section

/-- Row `r` of an array whose element `(r, j)` is value number `pos r j`. -/
def rowOf (pos : Nat → Nat → Nat) (n : Nat) (a : Arr ℂ) (r : Nat) : Arr ℂ := ⟨n, fun j => if j < n then a.get (pos r j) else 0⟩

/-- `z` is `a` with the rows `val r` written over it. -/
def HasRows (pos : Nat → Nat → Nat) (n0 n1 : Nat) (val : Nat → Nat → ℂ) (a z : Arr ℂ) : Prop :=
  z.size = a.size ∧ (∀ r j, r < n0 → j < n1 → z.get (pos r j) = val r j) ∧
    ∀ x, (∀ r j, r < n0 → j < n1 → pos r j ≠ x) → z.get x = a.get x

theorem takeRow_ok {m : Mem} {n0 n1 : Nat} {pos : Nat → Nat → Nat} (a : Arr ℂ) (h : Plane m a.size n0 n1 pos) {r : Nat}
    (hr : r < n0) : takeRow (mkView m 2 .success) n1 a r = some (rowOf pos n1 a r) := by
  unfold takeRow rowOf
  rw [if_pos]
  · congr 2
    funext j
    by_cases hj : j < n1
    · rw [if_pos hj, if_pos hj, plane_addr h hr hj, Int.toNat_natCast]
    · rw [if_neg hj, if_neg hj]
  · intro j hj
    have := h.fits r j hr hj
    rw [plane_addr h hr hj]
    omega

theorem putRow_ok {m : Mem} {n0 n1 : Nat} {pos : Nat → Nat → Nat} (a row : Arr ℂ) (h : Plane m a.size n0 n1 pos)
    (hd : Distinct n0 n1 pos) {r : Nat} (hr : r < n0) (hs : row.size = n1) :
    ∃ z, putRow (mkView m 2 .success) n1 row a r = some z ∧ z.size = a.size ∧ (∀ j < n1, z.get (pos r j) = row.get j) ∧
      ∀ x, (∀ j < n1, pos r j ≠ x) → z.get x = a.get x := by
  unfold putRow
  suffices H : ∀ k ≤ n1, ∃ z, loop (fun a (j : Nat) => (row.read j).bind fun x => a.write (addr (mkView m 2 .success) (r, j)) x) a
      (List.range k) = some z ∧ z.size = a.size ∧ (∀ j < k, z.get (pos r j) = row.get j) ∧
      ∀ x, (∀ j < k, pos r j ≠ x) → z.get x = a.get x from H n1 le_rfl
  intro k
  induction k with
  | zero => exact fun _ => ⟨a, rfl, rfl, fun j hj => by omega, fun x _ => rfl⟩
  | succ k ih =>
    intro hk
    obtain ⟨z, e, hz, h1, h2⟩ := ih (by omega)
    have hf := h.fits r k hr (by omega)
    refine ⟨z.put (pos r k) (row.get k), ?_, hz, fun j hj => ?_, fun x hx => ?_⟩
    · rw [List.range_succ, loop_append, e]
      simp only [Option.bind_some, loop]
      rw [Arr.read_nat, if_pos (by omega), plane_addr h hr (by omega), Option.bind_some, Arr.write_nat, if_pos (by omega)]
      rfl
    · rw [Arr.put_get]
      by_cases hjk : j = k
      · rw [hjk, if_pos rfl]
      · rw [if_neg, h1 j (by omega)]
        intro he
        exact hjk (hd r j r k hr (by omega) hr (by omega) he).2
    · rw [Arr.put_get, if_neg (fun he => hx k (by omega) he.symm), h2 x fun j hj => hx j (by omega)]

theorem rowOf_congr {pos : Nat → Nat → Nat} {n : Nat} {a b : Arr ℂ} {r : Nat} (h : ∀ j < n, a.get (pos r j) = b.get (pos r j)) :
    rowOf pos n a r = rowOf pos n b r := by
  unfold rowOf
  congr 1
  funext j
  by_cases hj : j < n
  · rw [if_pos hj, if_pos hj, h j hj]
  · rw [if_neg hj, if_neg hj]

/-- A loop over rows that replaces each row. -/
theorem rows_loop {m : Mem} {n0 n1 : Nat} {pos : Nat → Nat → Nat} (a : Arr ℂ) (h : Plane m a.size n0 n1 pos)
    (hd : Distinct n0 n1 pos) (step : Arr ℂ → Nat → Option (Arr ℂ)) (val : Nat → Arr ℂ) (hv : ∀ r < n0, (val r).size = n1)
    (hs : ∀ b : Arr ℂ, b.size = a.size → ∀ r < n0, rowOf pos n1 b r = rowOf pos n1 a r →
      step b r = putRow (mkView m 2 .success) n1 (val r) b r) :
    ∃ z, loop step a (List.range n0) = some z ∧ HasRows pos n0 n1 (fun r j => (val r).get j) a z := by
  suffices H : ∀ k ≤ n0, ∃ z, loop step a (List.range k) = some z ∧ HasRows pos k n1 (fun r j => (val r).get j) a z from H n0 le_rfl
  intro k
  induction k with
  | zero => exact fun _ => ⟨a, rfl, rfl, fun r j hr => by omega, fun x _ => rfl⟩
  | succ k ih =>
    intro hk
    obtain ⟨z, e, hz, h1, h2⟩ := ih (by omega)
    have hrow : rowOf pos n1 z k = rowOf pos n1 a k := rowOf_congr fun j hj => h2 _ fun r' j' hr' hj' he => by
      have := (hd r' j' k j (by omega) hj' (by omega) hj he).1
      omega
    obtain ⟨y, e2, hy, h3, h4⟩ := putRow_ok (m := m) (n0 := n0) z (val k) (by rw [hz]; exact h) hd (r := k) (by omega)
      (hv k (by omega))
    refine ⟨y, ?_, hy.trans hz, fun r j hr hj => ?_, fun x hx => ?_⟩
    · rw [List.range_succ, loop_append, e]
      simp only [Option.bind_some, loop]
      rw [hs z hz k (by omega) hrow, e2]
      rfl
    · by_cases hrk : r = k
      · rw [hrk, h3 j hj]
      · rw [h4, h1 r j (by omega) hj]
        intro j' hj' he
        have := (hd k j' r j (by omega) hj' (by omega) hj he).1
        omega
    · rw [h4 x fun j hj => hx k j (by omega) hj, h2 x fun r j hr hj => hx r j (by omega) hj]

theorem eachRow_ok {mi mo : Mem} {n ni no : Nat} {pi po : Nat → Nat → Nat} (src out : Arr ℂ) (hi : Plane mi src.size n ni pi)
    (ho : Plane mo out.size n no po) (hd : Distinct n no po) (f : Arr ℂ → Arr ℂ → Option (Arr ℂ)) (val : Nat → Arr ℂ)
    (hf : ∀ r < n, f (rowOf pi ni src r) (rowOf po no out r) = some (val r) ∧ (val r).size = no) :
    ∃ z, eachRow (mkView mi 2 .success) (mkView mo 2 .success) f src out = some z ∧
      HasRows po n no (fun r j => (val r).get j) out z := by
  unfold eachRow
  rw [(plane_rows hi).2, (plane_rows ho).1, (plane_rows ho).2]
  refine rows_loop out ho hd _ val (fun r hr => (hf r hr).2) fun b hb r hr hrow => ?_
  rw [takeRow_ok src hi hr, Option.bind_some, takeRow_ok b (by rw [hb]; exact ho) hr, Option.bind_some, hrow, (hf r hr).1]
  rfl

theorem eachRowIn_ok {m : Mem} {n k : Nat} {pos : Nat → Nat → Nat} (a : Arr ℂ) (h : Plane m a.size n k pos)
    (hd : Distinct n k pos) (f : Arr ℂ → Option (Arr ℂ)) (val : Nat → Arr ℂ)
    (hf : ∀ r < n, f (rowOf pos k a r) = some (val r) ∧ (val r).size = k) :
    ∃ z, eachRowIn (mkView m 2 .success) f a = some z ∧ HasRows pos n k (fun r j => (val r).get j) a z := by
  unfold eachRowIn
  rw [(plane_rows h).1, (plane_rows h).2]
  refine rows_loop a h hd _ val (fun r hr => (hf r hr).2) fun b hb r hr hrow => ?_
  rw [takeRow_ok b (by rw [hb]; exact h) hr, Option.bind_some, hrow, (hf r hr).1]
  rfl

/-- An input array: `n0` by `n1` complex numbers in host memory. -/
structure In (m : Mem) (a : Arr ℂ) (n0 n1 : Nat) (pos : Nat → Nat → Nat) : Prop where
  type : m.type = .complexDouble
  loc : m.location = .cpu
  plane : Plane m a.size n0 n1 pos

/-- An output array: also writeable, and its elements are different memory. -/
structure Out (m : Mem) (a : Arr ℂ) (n0 n1 : Nat) (pos : Nat → Nat → Nat) : Prop extends In m a n0 n1 pos where
  data : m.data ≠ none
  writeable : m.isReadOnly = false
  distinct : Distinct n0 n1 pos

theorem In.view {m : Mem} {a : Arr ℂ} {n0 n1 : Nat} {pos : Nat → Nat → Nat} (h : In m a n0 n1 pos) :
    checkAndViewConst m .complexDouble 2 .cpu .success = (mkView m 2 .success, .success) :=
  viewConst_ok h.plane.dims h.type h.loc

theorem Out.view {m : Mem} {a : Arr ℂ} {n0 n1 : Nat} {pos : Nat → Nat → Nat} (h : Out m a n0 n1 pos) :
    checkAndView m .complexDouble 2 .cpu .success = (mkView m 2 .success, .success) :=
  view_ok h.plane.dims h.type h.loc h.data h.writeable

theorem _root_.Sdp.GridUtil.Plane.dim1 {m : Mem} {s n0 n1 : Nat} {pos : Nat → Nat → Nat} (h : Plane m s n0 n1 pos) {x : Int} (hx : (n1 : Int) = x) :
    checkShapeDim m 1 x .success = .success := by
  unfold checkShapeDim
  rw [if_neg (by simp), if_neg (by rw [h.dims]; decide), if_neg (by rw [h.cols, hx]; simp)]

theorem _root_.Sdp.GridUtil.Plane.dim0 {m : Mem} {s n0 n1 : Nat} {pos : Nat → Nat → Nat} (h : Plane m s n0 n1 pos) {x : Int} (hx : (n0 : Int) = x) :
    checkShapeDim m 0 x .success = .success := by
  unfold checkShapeDim
  rw [if_neg (by simp), if_neg (by rw [h.dims]; decide), if_neg (by rw [h.rows, hx]; simp)]

theorem _root_.Sdp.GridUtil.Plane.same {m m' : Mem} {s s' n0 n1 n1' : Nat} {pos pos' : Nat → Nat → Nat} (h : Plane m s n0 n1 pos)
    (h' : Plane m' s' n0 n1' pos') : checkSameShape m 0 m' 0 .success = .success := by
  unfold checkSameShape
  rw [if_neg]
  rw [h.rows, h'.rows]
  simp

theorem _root_.Sdp.GridUtil.Plane.fit {m : Mem} {s n0 n1 : Nat} {pos : Nat → Nat → Nat} (h : Plane m s n0 n1 pos) {x : Int} (hx : (n1 : Int) ≤ x) :
    sizeCheck m x .success = .success := by
  unfold sizeCheck
  rw [if_neg]
  rw [h.cols]
  omega

section Calls
variable (c : Cfg) {mi mo : Mem} {src out : Arr ℂ} {n ni no : Nat} {pi po : Nat → Nat → Nat}

/-- `prepare_facet` on arrays of the required shapes, if the one-row function succeeds on every row. -/
theorem call_prepare_facet (Fb : Arr ℝ) (o : Int) (hi : In mi src n ni pi) (ho : Out mo out n no po)
    (hni : (ni : Int) ≤ c.yN) (hno : (no : Int) = c.yN) (val : Nat → Arr ℂ)
    (hf : ∀ r < n, prepareFacet c ni o (rowOf pi ni src r) Fb (rowOf po no out r) = some (val r) ∧ (val r).size = no) :
    ∃ z, prepareFacetCall c Fb mi mo o .success src out = some (.success, z) ∧
      HasRows po n no (fun r j => (val r).get j) out z := by
  unfold prepareFacetCall
  simp only [hi.plane.fit hni, hi.view, ho.view, ho.plane.dim1 hno, hi.plane.same ho.plane]
  obtain ⟨z, e, hz⟩ := eachRow_ok src out hi.plane ho.plane ho.distinct (fun x y => prepareFacet c ni o x Fb y) val hf
  rw [if_neg (by simp), if_neg (by simp), (plane_rows hi.plane).2, e]
  exact ⟨z, rfl, hz⟩

/-- `extract_from_facet`. -/
theorem call_extract_from_facet (u0 : Int) (hi : In mi src n ni pi) (ho : Out mo out n no po)
    (hni : (ni : Int) = c.yN) (hno : (no : Int) = c.m) (val : Nat → Arr ℂ)
    (hf : ∀ r < n, extractFromFacet c u0 (rowOf pi ni src r) (rowOf po no out r) = some (val r) ∧ (val r).size = no) :
    ∃ z, extractFromFacetCall c mi mo u0 .success src out = some (.success, z) ∧
      HasRows po n no (fun r j => (val r).get j) out z := by
  unfold extractFromFacetCall
  simp only [hi.view, hi.plane.dim1 hni, ho.view, ho.plane.dim1 hno, hi.plane.same ho.plane]
  obtain ⟨z, e, hz⟩ := eachRow_ok src out hi.plane ho.plane ho.distinct _ val hf
  rw [if_neg (by simp), if_neg (by simp), e]
  exact ⟨z, rfl, hz⟩

/-- `add_to_subgrid`. -/
theorem call_add_to_subgrid (Fn : Arr ℝ) (o : Int) (hi : In mi src n ni pi) (ho : Out mo out n no po)
    (hni : (ni : Int) = c.m) (hno : (no : Int) = c.xM) (val : Nat → Arr ℂ)
    (hf : ∀ r < n, addToSubgrid c o Fn (rowOf pi ni src r) (rowOf po no out r) = some (val r) ∧ (val r).size = no) :
    ∃ z, addToSubgridCall c Fn mi mo o .success src out = some (.success, z) ∧
      HasRows po n no (fun r j => (val r).get j) out z := by
  unfold addToSubgridCall
  simp only [hi.view, hi.plane.dim1 hni, ho.view, ho.plane.dim1 hno, hi.plane.same ho.plane]
  obtain ⟨z, e, hz⟩ := eachRow_ok src out hi.plane ho.plane ho.distinct _ val hf
  rw [if_neg (by simp), if_neg (by simp), e]
  exact ⟨z, rfl, hz⟩

/-- `finish_subgrid`. -/
theorem call_finish_subgrid (u0 : Int) (hi : In mi src n ni pi) (ho : Out mo out n no po)
    (hni : (ni : Int) = c.xM) (hno : (no : Int) ≤ c.xM) (val : Nat → Arr ℂ)
    (hf : ∀ r < n, finishSubgridOut c.xM.toNat no u0 (rowOf pi ni src r) (rowOf po no out r) = some (val r) ∧
      (val r).size = no) :
    ∃ z, finishSubgridOutCall c mi mo u0 .success src out = some (.success, z) ∧
      HasRows po n no (fun r j => (val r).get j) out z := by
  unfold finishSubgridOutCall
  simp only [hi.view, hi.plane.dim1 hni, ho.view, ho.plane.fit hno, hi.plane.same ho.plane]
  obtain ⟨z, e, hz⟩ := eachRow_ok src out hi.plane ho.plane ho.distinct _ val hf
  rw [if_neg (by simp), if_neg (by simp), (plane_rows ho.plane).2, e]
  exact ⟨z, rfl, hz⟩

/-- `extract_from_subgrid`. -/
theorem call_extract_from_subgrid (Fn : Arr ℝ) (o : Int) (hi : In mi src n ni pi) (ho : Out mo out n no po)
    (hni : (ni : Int) = c.xM) (hno : (no : Int) = c.m) (val : Nat → Arr ℂ)
    (hf : ∀ r < n, extractFromSubgrid c o Fn (rowOf pi ni src r) (rowOf po no out r) = some (val r) ∧ (val r).size = no) :
    ∃ z, extractFromSubgridCall c Fn mi mo o .success src out = some (.success, z) ∧
      HasRows po n no (fun r j => (val r).get j) out z := by
  unfold extractFromSubgridCall
  simp only [hi.view, hi.plane.dim1 hni, ho.view, ho.plane.dim1 hno, hi.plane.same ho.plane]
  obtain ⟨z, e, hz⟩ := eachRow_ok src out hi.plane ho.plane ho.distinct _ val hf
  rw [if_neg (by simp), if_neg (by simp), e]
  exact ⟨z, rfl, hz⟩

/-- `add_to_facet`. -/
theorem call_add_to_facet (u0 : Int) (hi : In mi src n ni pi) (ho : Out mo out n no po)
    (hni : (ni : Int) = c.m) (hno : (no : Int) = c.yN) (val : Nat → Arr ℂ)
    (hf : ∀ r < n, addToFacet c u0 (rowOf pi ni src r) (rowOf po no out r) = some (val r) ∧ (val r).size = no) :
    ∃ z, addToFacetCall c mi mo u0 .success src out = some (.success, z) ∧
      HasRows po n no (fun r j => (val r).get j) out z := by
  unfold addToFacetCall
  simp only [hi.view, hi.plane.dim1 hni, ho.view, ho.plane.dim1 hno, hi.plane.same ho.plane]
  obtain ⟨z, e, hz⟩ := eachRow_ok src out hi.plane ho.plane ho.distinct _ val hf
  rw [if_neg (by simp), if_neg (by simp), e]
  exact ⟨z, rfl, hz⟩

/-- `finish_facet`.  Its input is overwritten. -/
theorem call_finish_facet (Fb : Arr ℝ) (o : Int) (hi : Out mi src n ni pi) (ho : Out mo out n no po)
    (hni : (ni : Int) = c.yN) (hno : (no : Int) ≤ c.yN) (val : Nat → Arr ℂ)
    (hf : ∀ r < n, finishFacet c no o (rowOf pi ni src r) Fb (rowOf po no out r) = some (val r) ∧ (val r).size = no) :
    ∃ y z, finishFacetCall c Fb mi mo o .success src out = some (.success, y, z) ∧
      HasRows po n no (fun r j => (val r).get j) out z ∧ y.size = src.size ∧
      ∀ x, (∀ r j, r < n → j < ni → pi r j ≠ x) → y.get x = src.get x := by
  unfold finishFacetCall
  simp only [hi.view, hi.plane.dim1 hni, ho.view, ho.plane.fit hno, ho.plane.same hi.plane]
  have hT : ∀ r, fftRow false c.yN.toNat 1 (rowOf pi ni src r) = some ⟨ni, fun k => if k < c.yN.toNat then
      1 * dft false c.yN.toNat (rowOf pi ni src r).get k else (rowOf pi ni src r).get k⟩ := fun r => by
    unfold fftRow
    rw [if_pos (by show c.yN.toNat ≤ ni; omega)]
    rfl
  obtain ⟨y, e1, s1, v1, w1⟩ := eachRowIn_ok src hi.plane hi.distinct (fftRow false c.yN.toNat 1) (fun r => ⟨ni, fun k =>
    if k < c.yN.toNat then 1 * dft false c.yN.toNat (rowOf pi ni src r).get k else (rowOf pi ni src r).get k⟩)
    fun r _ => ⟨hT r, rfl⟩
  have hy : ∀ r < n, fftRow false c.yN.toNat 1 (rowOf pi ni src r) = some (rowOf pi ni y r) := by
    intro r hr
    rw [hT r]
    unfold rowOf
    congr 2
    funext k
    by_cases hk : k < ni
    · rw [if_pos hk, v1 r k hr hk]
      rfl
    · rw [if_neg (by omega), if_neg hk]
      exact if_neg hk
  have hi' : Plane mi y.size n ni pi := by rw [s1]; exact hi.plane
  obtain ⟨z, e, hz⟩ := eachRow_ok y out hi' ho.plane ho.distinct (fun x y => takeFacet c no o x Fb y) val fun r hr => by
    have := hf r hr
    unfold finishFacet at this
    rw [hy r hr] at this
    exact this
  rw [if_neg (by simp), if_neg (by simp), e1, (plane_rows ho.plane).2, Option.bind_some, e]
  exact ⟨y, z, rfl, hz, s1, w1⟩

variable {m : Mem} {a : Arr ℂ} {k : Nat} {pos : Nat → Nat → Nat}

/-- `finish_subgrid_inplace`. -/
theorem call_finish_subgrid_inplace (u0 : Int) (h : Out m a n k pos) (hk : (k : Int) = c.xM) (val : Nat → Arr ℂ)
    (hf : ∀ r < n, finishSubgrid c.xM.toNat u0 (rowOf pos k a r) = some (val r) ∧ (val r).size = k) :
    ∃ z, finishSubgridCall c m u0 .success a = some (.success, z) ∧ HasRows pos n k (fun r j => (val r).get j) a z := by
  unfold finishSubgridCall
  simp only [h.view, h.plane.dim1 hk]
  rw [if_neg (by simp), if_neg (by simp), (plane_rows h.plane).1]
  by_cases h0 : (n : Int) * c.xM = 0
  · rw [if_pos h0]
    refine ⟨a, rfl, rfl, fun r j hr hj => ?_, fun _ _ => rfl⟩
    exfalso
    rcases mul_eq_zero.1 h0 with h1 | h1 <;> omega
  · obtain ⟨z, e, hz⟩ := eachRowIn_ok a h.plane h.distinct _ val hf
    rw [if_neg h0, e]
    exact ⟨z, rfl, hz⟩

/-- `prepare_subgrid_inplace`. -/
theorem call_prepare_subgrid_inplace (u0 : Int) (h : Out m a n k pos) (hk : (k : Int) = c.xM) (val : Nat → Arr ℂ)
    (hf : ∀ r < n, prepareSubgrid c.xM.toNat u0 (rowOf pos k a r) = some (val r) ∧ (val r).size = k) :
    ∃ z, prepareSubgridCall c m u0 .success a = some (.success, z) ∧ HasRows pos n k (fun r j => (val r).get j) a z := by
  unfold prepareSubgridCall
  simp only [h.view, h.plane.dim1 hk]
  obtain ⟨z, e, hz⟩ := eachRowIn_ok a h.plane h.distinct _ val hf
  rw [if_neg (by simp), if_neg (by simp), e]
  exact ⟨z, rfl, hz⟩

end Calls

end
end Sdp.Swiftly
