import Mathlib.Algebra.BigOperators.Ring.Finset
import Mathlib.Algebra.BigOperators.Fin
import Mathlib.Data.List.NodupEquivFin
import Mathlib.Tactic.Ring
import Mathlib.Tactic.Linarith
import Mathlib.Algebra.Field.Rat
import Verif.Station.Model

/-!
# C53: the station beam

Specification: `beam a o k`, the value of polarisation `k` at point `o`.
-/

set_option linter.unusedSectionVars false

namespace Sdp.Station

open Finset

variable {K C : Type} [CommRing K] [CommRing C]

/-- Row of the element beam that belongs to element `i`. -/
def rowOf (a : Args K C) (i : Nat) : Int :=
  match a.idx with
  | none => i
  | some d => d.get i

/-- Response of element `i` in polarisation `k` towards point `o`; 1 without element beams. -/
def pattern (a : Args K C) (i o k : Nat) : C :=
  match a.data with
  | none => 1
  | some d => d.get (a.pols * (rowOf a i * a.numOut + o) + k).toNat

/-- Direction of point `o`. -/
def dir (a : Args K C) (o : Nat) : K × K × K :=
  (a.px.get (o + a.offPoints).toNat, a.py.get (o + a.offPoints).toNat,
    match a.pz with
    | none => 0
    | some pz => pz.get (o + a.offPoints).toNat)

/-- Contribution of element `i`. -/
def term (a : Args K C) (o k i : Nat) : C :=
  a.phasor (a.wavenumber * ((dir a o).1 * a.x.get i + (dir a o).2.1 * a.y.get i +
    (dir a o).2.2 * a.z.get i)) * a.weights.get i * pattern a i o k

/-- The station beam: sum over the elements of phasor, weight and response, normalised. -/
def beam (a : Args K C) (o k : Nat) : C := (∑ i ∈ range a.numIn, term a o k i) * a.norm

/-- The arrays are as large as the arguments say. -/
structure Valid (a : Args K C) (output : Arr C) : Prop where
  w : a.numIn ≤ a.weights.size
  x : a.numIn ≤ a.x.size
  y : a.numIn ≤ a.y.size
  z : a.numIn ≤ a.z.size
  off : 0 ≤ a.offPoints
  px : a.numOut + a.offPoints ≤ a.px.size
  py : a.numOut + a.offPoints ≤ a.py.size
  pz : ∀ p, a.pz = some p → a.numOut + a.offPoints ≤ p.size
  idx : ∀ d, a.idx = some d → a.numIn ≤ d.size
  data : ∀ d, a.data = some d → ∀ i, i < a.numIn → 0 ≤ rowOf a i ∧
    a.pols * ((rowOf a i + 1) * a.numOut) ≤ d.size
  offOut : 0 ≤ a.offOut
  out : a.pols * (a.numOut + a.offOut) ≤ output.size

theorem read_ok {α : Type} (r : Arr α) (i : Int) (h0 : 0 ≤ i) (h1 : i < r.size) :
    r.read i = some (r.get i.toNat) := by
  unfold Arr.read; rw [if_pos ⟨h0, h1⟩]

theorem enabled_lt (a : Args K C) {k : Nat} (h : k ∈ a.enabled) : k < a.pols ∧ a.pols ≤ 4 := by
  unfold Args.enabled at h
  unfold Args.pols
  revert h
  cases a.polarised <;> cases a.evalX <;> cases a.evalY <;> simp <;> omega

theorem enabled_nodup (a : Args K C) : a.enabled.Nodup := by
  unfold Args.enabled
  cases a.polarised <;> cases a.evalX <;> cases a.evalY <;> decide

theorem point_spec (a : Args K C) (output : Arr C) (h : Valid a output) (o : Nat) (ho : o < a.numOut) :
    point a o = some (a.wavenumber * (dir a o).1, a.wavenumber * (dir a o).2.1,
      a.wavenumber * (dir a o).2.2) := by
  have := h.off
  have h1 := h.px
  have h2 := h.py
  unfold point dir
  rw [read_ok _ _ (by omega) (by omega), Option.bind_some, read_ok _ _ (by omega) (by omega),
    Option.bind_some]
  cases hz : a.pz with
  | none => simp
  | some p =>
    have h3 := h.pz p hz
    simp only
    rw [read_ok _ _ (by omega) (by omega)]
    rfl

theorem row_spec (a : Args K C) (output : Arr C) (h : Valid a output) (i : Nat) (hi : i < a.numIn) :
    row a i = some (rowOf a i) := by
  unfold row rowOf
  cases hd : a.idx with
  | none => rfl
  | some d =>
    have := h.idx d hd
    simp only
    rw [Arr.read_nat, if_pos (by omega)]

/-- The contents of an `Elem` are those of element `i`. -/
def Is (a : Args K C) (i : Nat) (e : Elem K C) : Prop :=
  e.w = a.weights.get i ∧ e.x = a.x.get i ∧ e.y = a.y.get i ∧ e.z = a.z.get i ∧
    (a.data ≠ none → e.row = rowOf a i)

theorem elemCpu_spec (a : Args K C) (output : Arr C) (h : Valid a output) (i : Nat) (hi : i < a.numIn) :
    ∃ e, elemCpu a i = some e ∧ Is a i e := by
  have := h.w; have := h.x; have := h.y; have := h.z
  unfold elemCpu
  rw [Arr.read_nat, if_pos (by omega), Option.bind_some, Arr.read_nat, if_pos (by omega),
    Option.bind_some, Arr.read_nat, if_pos (by omega), Option.bind_some, Arr.read_nat,
    if_pos (by omega), Option.bind_some]
  cases hd : a.data with
  | none => exact ⟨_, rfl, rfl, rfl, rfl, rfl, fun h => absurd hd h⟩
  | some d =>
    simp only
    rw [row_spec a output h i hi]
    exact ⟨_, rfl, rfl, rfl, rfl, rfl, fun _ => rfl⟩

theorem elemGpu_spec (a : Args K C) (output : Arr C) (h : Valid a output) (i : Nat) (hi : i < a.numIn) :
    ∃ e, elemGpu a i = some e ∧ Is a i e := by
  have := h.w; have := h.x; have := h.y; have := h.z
  unfold elemGpu
  rw [Arr.read_nat, if_pos (by omega), Option.bind_some, Arr.read_nat, if_pos (by omega),
    Option.bind_some, Arr.read_nat, if_pos (by omega), Option.bind_some, row_spec a output h i hi,
    Option.bind_some, Arr.read_nat, if_pos (by omega)]
  exact ⟨_, rfl, rfl, rfl, rfl, rfl, fun _ => rfl⟩

theorem accum_ok (a : Args K C) (output : Arr C) (h : Valid a output) (o i : Nat) (ho : o < a.numOut)
    (hi : i < a.numIn) (e : Elem K C) (he : Is a i e) (out : Arr C) (hs : out.size = 4) :
    ∃ r, accum a o (a.wavenumber * (dir a o).1, a.wavenumber * (dir a o).2.1,
        a.wavenumber * (dir a o).2.2) out e = some r ∧ r.size = 4 ∧
      ∀ k, r.get k = out.get k + if k ∈ a.enabled then term a o k i else 0 := by
  obtain ⟨e1, e2, e3, e4, e5⟩ := he
  have hwp : a.phasor (a.wavenumber * (dir a o).1 * e.x + a.wavenumber * (dir a o).2.1 * e.y +
      a.wavenumber * (dir a o).2.2 * e.z) * e.w =
      a.phasor (a.wavenumber * ((dir a o).1 * a.x.get i + (dir a o).2.1 * a.y.get i +
        (dir a o).2.2 * a.z.get i)) * a.weights.get i := by
    rw [e1, e2, e3, e4]
    congr 2
    ring
  unfold accum
  simp only
  rw [hwp]
  obtain ⟨r, r1, r2, r3⟩ := Arr.accum_spec a.enabled (fun k : Nat => (k : Int)) (fun k => term a o k i) out
    (by intro k hk; have := enabled_lt a hk; omega)
  refine ⟨r, ?_, by rw [r2, hs], fun k => ?_⟩
  · rw [← r1]
    apply loop_congr
    intro k hk out'
    cases hd : a.data with
    | none =>
      simp only
      congr 1
      unfold term pattern
      rw [hd, mul_one]
    | some d =>
      obtain ⟨d1, d2⟩ := h.data d hd i hi
      have hk' := (enabled_lt a hk).1
      simp only
      rw [e5 (by rw [hd]; simp)]
      have p1 : (0 : Int) ≤ rowOf a i * a.numOut + o := by positivity
      have p2 : rowOf a i * a.numOut + o + 1 ≤ (rowOf a i + 1) * a.numOut := by nlinarith
      have p3 : (a.pols : Int) * (rowOf a i * a.numOut + o + 1) ≤ a.pols * ((rowOf a i + 1) * a.numOut) :=
        Int.mul_le_mul_of_nonneg_left p2 (by omega)
      have p4 : (0 : Int) ≤ a.pols * (rowOf a i * a.numOut + o) := by positivity
      rw [read_ok _ _ (by omega) (by linarith), Option.bind_some]
      congr 1
      unfold term pattern
      rw [hd]
  · rw [r3]
    congr 1
    by_cases hk : k ∈ a.enabled
    · rw [if_pos hk]
      have hn := enabled_nodup a
      generalize a.enabled = l at hk hn
      induction l with
      | nil => simp at hk
      | cons b l ih =>
        rw [List.map_cons, List.sum_cons]
        rw [List.nodup_cons] at hn
        rcases List.mem_cons.1 hk with rfl | hk
        · rw [if_pos rfl, List.sum_eq_zero, add_zero]
          intro y hy
          obtain ⟨c, hc, rfl⟩ := List.mem_map.1 hy
          rw [if_neg]
          intro hh
          exact hn.1 (by rwa [show k = c by omega])
        · rw [if_neg (by intro hh; exact hn.1 (by rwa [show b = k by omega])), zero_add, ih hk hn.2]
    · rw [if_neg hk]
      apply List.sum_eq_zero
      intro y hy
      obtain ⟨c, hc, rfl⟩ := List.mem_map.1 hy
      rw [if_neg]
      intro hh
      exact hk (by rwa [show k = c by omega])

theorem store_ok (a : Args K C) (output : Arr C) (h : Valid a output) (o : Nat) (ho : o < a.numOut)
    (out output' : Arr C) (hs : out.size = 4) (hs' : output'.size = output.size) :
    ∃ r, store a o out output' = some r ∧ r.size = output.size ∧
      (∀ k ∈ a.enabled, r.get (a.pols * (o + a.offOut) + k).toNat = out.get k * a.norm) ∧
      ∀ j : Nat, (∀ k ∈ a.enabled, (j : Int) ≠ a.pols * (o + a.offOut) + k) → r.get j = output'.get j := by
  unfold store
  have h1 := h.out
  have h2 := h.offOut
  have p4 : (0 : Int) ≤ a.pols * (o + a.offOut) := by positivity
  have p3 : (a.pols : Int) * (o + a.offOut + 1) ≤ a.pols * (a.numOut + a.offOut) :=
    Int.mul_le_mul_of_nonneg_left (by omega) (by omega)
  obtain ⟨r, r1, r2, r3, r4⟩ := Arr.store_spec a.enabled
    (fun k : Nat => (a.pols : Int) * (o + a.offOut) + k) (fun k => out.get k * a.norm)
    (by
      refine List.Nodup.map ?_ (enabled_nodup a)
      intro i j hij
      simp only at hij
      omega) output' (by
      intro k hk
      have hk' := (enabled_lt a hk).1
      refine ⟨by omega, ?_⟩
      rw [hs']
      linarith)
  refine ⟨r, ?_, by rw [r2, hs'], r3, fun j hj => r4 j fun k hk => (hj k hk).symm⟩
  rw [← r1]
  apply loop_congr
  intro k hk output''
  have := enabled_lt a hk
  rw [Arr.read_nat, if_pos (by omega), Option.bind_some]

/-- The sum over a list of elements. -/
theorem loop_elems (a : Args K C) (output : Arr C) (h : Valid a output) (o : Nat) (ho : o < a.numOut)
    {α : Type} (l : List α) (num : α → Nat) (get : α → Option (Elem K C))
    (hg : ∀ t ∈ l, num t < a.numIn ∧ ∃ e, get t = some e ∧ Is a (num t) e) (out : Arr C)
    (hs : out.size = 4) :
    ∃ r, loop (fun (out : Arr C) (t : α) => (get t).bind (accum a o (a.wavenumber * (dir a o).1,
        a.wavenumber * (dir a o).2.1, a.wavenumber * (dir a o).2.2) out)) out l = some r ∧ r.size = 4 ∧
      ∀ k ∈ a.enabled, r.get k = out.get k + (l.map fun t => term a o k (num t)).sum := by
  obtain ⟨r, r1, r2, r3⟩ := loop_inv (fun (out : Arr C) (t : α) => (get t).bind (accum a o
      (a.wavenumber * (dir a o).1, a.wavenumber * (dir a o).2.1, a.wavenumber * (dir a o).2.2) out))
    (fun done r => r.size = 4 ∧ ∀ k ∈ a.enabled, r.get k = out.get k +
      (done.map fun t => term a o k (num t)).sum) l out ⟨hs, fun k _ => by simp⟩ (by
      intro done t rest s hsplit hP
      obtain ⟨g1, e, g2, g3⟩ := hg t (by rw [hsplit]; simp)
      obtain ⟨r, r1, r2, r3⟩ := accum_ok a output h o (num t) ho g1 e g3 s hP.1
      refine ⟨r, by rw [g2, Option.bind_some, r1], r2, fun k hk => ?_⟩
      rw [r3, hP.2 k hk, if_pos hk, List.map_append, List.sum_append]
      simp [add_assoc])
  exact ⟨r, r1, r2, r3⟩

theorem body_ok (a : Args K C) (output : Arr C) (h : Valid a output) (o : Nat) (ho : o < a.numOut)
    (output' : Arr C) (hs' : output'.size = output.size) :
    ∃ r, body a output' o = some r ∧ r.size = output.size ∧
      (∀ k ∈ a.enabled, r.get (a.pols * (o + a.offOut) + k).toNat = beam a o k) ∧
      ∀ j : Nat, (∀ k ∈ a.enabled, (j : Int) ≠ a.pols * (o + a.offOut) + k) → r.get j = output'.get j := by
  unfold body
  rw [point_spec a output h o ho, Option.bind_some]
  obtain ⟨q, q1, q2, q3⟩ := loop_elems a output h o ho (List.range a.numIn) id (elemCpu a)
    (fun t ht => ⟨List.mem_range.1 ht, elemCpu_spec a output h t (List.mem_range.1 ht)⟩)
    ⟨4, fun _ => 0⟩ rfl
  rw [q1, Option.bind_some]
  obtain ⟨r, r1, r2, r3, r4⟩ := store_ok a output h o ho q output' q2 hs'
  refine ⟨r, r1, r2, fun k hk => ?_, r4⟩
  rw [r3 k hk, q3 k hk, zero_add, list_sum_range]
  rfl

/-- Index of polarisation `k` of point `o` in the output. -/
def slot (a : Args K C) (o k : Nat) : Nat := (a.pols * (o + a.offOut) + k).toNat

/-- The polarisations asked for: a scalar beam always; of the four polarisations, the first two if
`eval_x` is set and the last two if `eval_y` is set. -/
def Wanted (a : Args K C) (k : Nat) : Prop :=
  (a.polarised = false ∧ k = 0) ∨ (a.polarised = true ∧
    ((k < 2 ∧ a.evalX = true) ∨ (2 ≤ k ∧ k < 4 ∧ a.evalY = true)))

theorem mem_enabled (a : Args K C) (k : Nat) : k ∈ a.enabled ↔ Wanted a k := by
  unfold Args.enabled Wanted
  cases a.polarised <;> cases a.evalX <;> cases a.evalY <;>
    simp only [if_true, if_false, Bool.false_eq_true, List.mem_append, List.mem_cons,
      List.not_mem_nil, List.mem_singleton] <;>
    simp <;> omega

/-- Result wanted: every polarisation asked for of every point is the station beam and everything
else in the output array is unchanged. -/
def Done (a : Args K C) (output r : Arr C) : Prop :=
  r.size = output.size ∧ (∀ o k, o < a.numOut → Wanted a k → r.get (slot a o k) = beam a o k) ∧
    ∀ j, (∀ o k, o < a.numOut → Wanted a k → j ≠ slot a o k) → r.get j = output.get j

theorem slot_inj (a : Args K C) (h0 : 0 ≤ a.offOut) {o o' k k' : Nat} (hk : k ∈ a.enabled)
    (hk' : k' ∈ a.enabled) (h : slot a o k = slot a o' k') : o = o' ∧ k = k' := by
  have l1 := (enabled_lt a hk).1
  have l2 := (enabled_lt a hk').1
  unfold slot at h
  obtain ⟨f, hf⟩ := Int.eq_ofNat_of_zero_le h0
  rw [hf] at h
  have e : ∀ p q : Nat, ((a.pols : Int) * (p + (f : Int)) + q).toNat = a.pols * (p + f) + q := by
    intro p q
    rw [← Int.toNat_natCast (a.pols * (p + f) + q)]
    congr 1
  rw [e, e] at h
  have := flat_inj l1 l2 h
  omega

/-- All points of a list that covers each point once. -/
theorem points_ok (a : Args K C) (output : Arr C) (h : Valid a output) (order : List Nat)
    (ho : order.Perm (List.range a.numOut)) (f : Arr C → Nat → Option (Arr C))
    (hf : ∀ o, o < a.numOut → ∀ output' : Arr C, output'.size = output.size →
      ∃ r, f output' o = some r ∧ r.size = output.size ∧
      (∀ k ∈ a.enabled, r.get (a.pols * (o + a.offOut) + k).toNat = beam a o k) ∧
      ∀ j : Nat, (∀ k ∈ a.enabled, (j : Int) ≠ a.pols * (o + a.offOut) + k) → r.get j = output'.get j) :
    ∃ r, loop f output order = some r ∧ Done a output r := by
  have hpos : ∀ o k : Nat, 0 ≤ (a.pols : Int) * (o + a.offOut) + k := by
    intro o k; have := h.offOut; positivity
  obtain ⟨r, r1, r2, r3, r4⟩ := loop_inv f
    (fun done r => r.size = output.size ∧
      (∀ o ∈ done, ∀ k ∈ a.enabled, r.get (slot a o k) = beam a o k) ∧
      ∀ j, (∀ o ∈ done, ∀ k ∈ a.enabled, j ≠ slot a o k) → r.get j = output.get j)
    order output ⟨rfl, by simp, fun _ _ => rfl⟩ (by
      intro done o rest s hsplit hP
      have hmem : o < a.numOut := List.mem_range.1 (ho.mem_iff.1 (by rw [hsplit]; simp))
      have hnd : order.Nodup := ho.nodup_iff.2 List.nodup_range
      have hnot : o ∉ done := by
        rw [hsplit, List.nodup_append] at hnd
        intro hd
        exact hnd.2.2 o hd o (by simp) rfl
      obtain ⟨r, r1, r2, r3, r4⟩ := hf o hmem s hP.1
      refine ⟨r, r1, r2, ?_, ?_⟩
      · intro o' ho' k hk
        rcases List.mem_append.1 ho' with ho' | ho'
        · rw [r4, hP.2.1 o' ho' k hk]
          intro k' hk' he
          have e2 : slot a o' k = slot a o k' := by
            unfold slot
            unfold slot at he
            rw [← he, Int.toNat_natCast]
          exact hnot ((slot_inj a h.offOut hk hk' e2).1 ▸ ho')
        · rw [List.mem_singleton] at ho'
          subst ho'
          exact r3 k hk
      · intro j hj
        rw [r4, hP.2.2 j fun o' ho' k hk => hj o' (by simp [ho']) k hk]
        intro k hk he
        exact hj o (by simp) k hk (by unfold slot; rw [← he, Int.toNat_natCast]))
  refine ⟨r, r1, r2, fun o k h1 h2 => r3 o (ho.mem_iff.2 (List.mem_range.2 h1)) k
    ((mem_enabled a k).2 h2), fun j hj => r4 j ?_⟩
  intro o h1 k h2
  exact hj o k (List.mem_range.1 (ho.mem_iff.1 h1)) ((mem_enabled a k).1 h2)

/-- **C53, CPU.**  Whatever the order of the points, and for every number of elements and points,
every offset, index map, element beam and choice of polarisations, the output is the station beam
in the enabled polarisations of the points and unchanged elsewhere. -/
theorem C53_cpu (a : Args K C) (output : Arr C) (h : Valid a output) (order : List Nat)
    (ho : order.Perm (List.range a.numOut)) :
    ∃ r, cpu a output order = some r ∧ Done a output r :=
  points_ok a output h order ho (body a) fun o hlt output' hs => body_ok a output h o hlt output' hs

/-- **C53, linearity in the weights.** -/
theorem C53_linear (a : Args K C) (w1 w2 : Arr C) (c : C)
    (hw : ∀ i, a.weights.get i = c * w1.get i + w2.get i) (o k : Nat) :
    beam a o k = c * beam { a with weights := w1 } o k + beam { a with weights := w2 } o k := by
  unfold beam
  have : ∀ i, term a o k i = c * term { a with weights := w1 } o k i +
      term { a with weights := w2 } o k i := by
    intro i
    show _ * a.weights.get i * pattern a i o k = c * (_ * w1.get i * pattern a i o k) +
      _ * w2.get i * pattern a i o k
    rw [hw]
    have e : ∀ w', dir { a with weights := w' } o = dir a o := fun _ => rfl
    simp only [e]
    ring
  rw [sum_congr rfl fun i _ => this i, sum_add_distrib, ← mul_sum]
  ring

/-- **C53, linearity in the element beams.** -/
theorem C53_linear_pattern (a : Args K C) (d d1 d2 : Arr C) (c : C) (h0 : a.data = some d)
    (hd : ∀ i, d.get i = c * d1.get i + d2.get i) (o k : Nat) :
    beam a o k = c * beam { a with data := some d1 } o k + beam { a with data := some d2 } o k := by
  unfold beam
  have : ∀ i, term a o k i = c * term { a with data := some d1 } o k i +
      term { a with data := some d2 } o k i := by
    intro i
    show _ * a.weights.get i * pattern a i o k =
      c * (_ * a.weights.get i * d1.get (a.pols * (rowOf a i * a.numOut + o) + k).toNat) +
      _ * a.weights.get i * d2.get (a.pols * (rowOf a i * a.numOut + o) + k).toNat
    have e : ∀ w', dir { a with data := w' } o = dir a o := fun _ => rfl
    have e2 : pattern a i o k = d.get (a.pols * (rowOf a i * a.numOut + o) + k).toNat := by
      unfold pattern; rw [h0]
    rw [e2, hd]
    simp only [e]
    ring
  rw [sum_congr rfl fun i _ => this i, sum_add_distrib, ← mul_sum]
  ring

/-- **C53, element order.**  Listing the elements in another order, with their weights, positions
and index-map entries, gives the same beam. -/
theorem C53_order (a b : Args K C) (s : Equiv.Perm (Fin a.numIn)) (hn : b.numIn = a.numIn)
    (o k : Nat) (hdir : b.wavenumber = a.wavenumber ∧ dir b o = dir a o ∧ b.norm = a.norm ∧
      b.phasor = a.phasor)
    (he : ∀ i : Fin a.numIn, b.weights.get i = a.weights.get (s i) ∧ b.x.get i = a.x.get (s i) ∧
      b.y.get i = a.y.get (s i) ∧ b.z.get i = a.z.get (s i) ∧ pattern b i o k = pattern a (s i) o k) :
    beam b o k = beam a o k := by
  unfold beam
  rw [hdir.2.2.1, hn, Finset.sum_range, Finset.sum_range]
  congr 1
  symm
  rw [← Equiv.sum_comp s]
  apply sum_congr rfl
  intro i _
  obtain ⟨h1, h2, h3, h4, h5⟩ := he i
  unfold term
  rw [← h1, ← h2, ← h3, ← h4, ← h5, ← hdir.1, ← hdir.2.1, ← hdir.2.2.2]

/-! ## GPU -/

theorem loads_spec (T n : Nat) (hT : 0 < T) :
    ((List.range T).flatMap fun tid => loads T n tid).Perm (List.range n) := by
  rw [List.perm_ext_iff_of_nodup]
  · intro t
    rw [List.mem_flatMap, List.mem_range]
    constructor
    · rintro ⟨tid, h1, h2⟩
      unfold loads at h2
      obtain ⟨q, hq, rfl⟩ := List.mem_map.1 h2
      rw [List.mem_range] at hq h1
      have := (lt_blocks hT).1 hq
      omega
    · intro ht
      refine ⟨t % T, List.mem_range.2 (Nat.mod_lt _ hT), ?_⟩
      unfold loads
      refine List.mem_map.2 ⟨t / T, ?_, Nat.mod_add_div t T⟩
      rw [List.mem_range, lt_blocks hT]
      have := Nat.mod_add_div t T
      omega
  · rw [List.nodup_flatMap]
    refine ⟨fun tid _ => ?_, ?_⟩
    · unfold loads
      refine List.Nodup.map ?_ List.nodup_range
      intro q q' h
      simp only at h
      exact Nat.eq_of_mul_eq_mul_left hT (by omega)
    · refine List.nodup_range.imp_of_mem ?_ |>.imp fun h => h
      intro t1 t2 h1 h2 hne
      rw [List.mem_range] at h1 h2
      intro x hx1 hx2
      unfold loads at hx1 hx2
      obtain ⟨q1, _, rfl⟩ := List.mem_map.1 hx1
      obtain ⟨q2, _, hq⟩ := List.mem_map.1 hx2
      apply hne
      have e1 : (t1 + T * q1) % T = t1 := by rw [Nat.add_mul_mod_self_left, Nat.mod_eq_of_lt h1]
      have e2 : (t2 + T * q2) % T = t2 := by rw [Nat.add_mul_mod_self_left, Nat.mod_eq_of_lt h2]
      rw [← e1, ← e2, hq]
  · exact List.nodup_range

theorem chunk_le (a : Args K C) (max j : Nat) : chunk a max j ≤ max ∧ chunk a max j ≤ a.numIn - j := by
  unfold chunk; split_ifs <;> omega

/-- Shared memory after the loads of a round. -/
theorem load_ok (a : Args K C) (output : Arr C) (h : Valid a output) (max j : Nat)
    (order : List Nat) (ho : order.Perm (List.range (chunk a max j))) (smem : Arr (Elem K C))
    (hs : max ≤ smem.size) :
    ∃ r, loop (load a j) smem order = some r ∧ r.size = smem.size ∧
      ∀ t, t < chunk a max j → Is a (j + t) (r.get t) := by
  have hc := chunk_le a max j
  obtain ⟨r, r1, r2, r3⟩ := loop_inv (load a j)
    (fun done r => r.size = smem.size ∧ ∀ t ∈ done, Is a (j + t) (r.get t)) order smem
    ⟨rfl, by simp⟩ (by
      intro done t rest s hsplit hP
      have ht : t < chunk a max j := List.mem_range.1 (ho.mem_iff.1 (by rw [hsplit]; simp))
      obtain ⟨e, e1, e2⟩ := elemGpu_spec a output h (j + t) (by omega)
      unfold load
      rw [e1, Option.bind_some, Arr.write_nat, if_pos (by rw [hP.1]; omega)]
      refine ⟨_, rfl, hP.1, fun t' ht' => ?_⟩
      rw [Arr.put_get]
      by_cases he : t' = t
      · subst he; rw [if_pos rfl]; exact e2
      · rw [if_neg he]
        rcases List.mem_append.1 ht' with ht' | ht'
        · exact hP.2 t' ht'
        · simp at ht'; exact absurd ht' he)
  exact ⟨r, r1, r2, fun t ht => r3 t (ho.mem_iff.2 (List.mem_range.2 ht))⟩

theorem round_ok (a : Args K C) (output : Arr C) (h : Valid a output) (max first j : Nat)
    (loadOrder : Nat → List Nat) (ho : (loadOrder j).Perm (List.range (chunk a max j)))
    (threads : List Nat) (hnd : threads.Nodup) (b : Block K C) (hs : max ≤ b.smem.size)
    (hb : ∀ t, (b.out t).size = 4) :
    ∃ r, round a max first loadOrder threads b j = some r ∧ r.smem.size = b.smem.size ∧
      (∀ t, (r.out t).size = 4) ∧
      ∀ t ∈ threads, first + t < a.numOut → ∀ k ∈ a.enabled,
        (r.out t).get k = (b.out t).get k +
          ∑ i ∈ range (chunk a max j), term a (first + t) k (j + i) := by
  obtain ⟨sm, s1, s2, s3⟩ := load_ok a output h max j (loadOrder j) ho b.smem hs
  have hc := chunk_le a max j
  unfold round
  rw [s1, Option.bind_some]
  obtain ⟨r, r1, r2, r3, r4⟩ := loop_inv (fun (out : Nat → Arr C) (tid : Nat) =>
      if first + tid < a.numOut then
        (point a (first + tid)).bind fun p =>
        (accumChunk a (first + tid) p sm (chunk a max j) (out tid)).map fun r =>
          Function.update out tid r
      else some out)
    (fun done out => (∀ t, (out t).size = 4) ∧ (∀ t, t ∉ done → out t = b.out t) ∧
      ∀ t ∈ done, first + t < a.numOut → ∀ k ∈ a.enabled,
        (out t).get k = (b.out t).get k +
          ∑ i ∈ range (chunk a max j), term a (first + t) k (j + i)) threads b.out
    ⟨hb, fun _ _ => rfl, by simp⟩ (by
      intro done t rest out hsplit hP
      have hnot : t ∉ done := by
        rw [hsplit, List.nodup_append] at hnd
        intro hd
        exact hnd.2.2 t hd t (by simp) rfl
      by_cases hlt : first + t < a.numOut
      · simp only [if_pos hlt]
        rw [point_spec a output h _ hlt, Option.bind_some]
        obtain ⟨q, q1, q2, q3⟩ := loop_elems a output h (first + t) hlt (List.range (chunk a max j))
          (fun i => j + i) (fun i => sm.read (i : Int)) (by
            intro i hi
            rw [List.mem_range] at hi
            refine ⟨by omega, sm.get i, ?_, s3 i hi⟩
            rw [Arr.read_nat, if_pos (by omega)]) (out t) (hP.1 t)
        unfold accumChunk
        rw [q1, Option.map_some]
        refine ⟨_, rfl, ?_, ?_, ?_⟩
        · intro t'
          by_cases he : t' = t
          · subst he; rw [Function.update_self, q2]
          · rw [Function.update_of_ne he, hP.1]
        · intro t' ht'
          rw [Function.update_of_ne (by rintro rfl; exact ht' (by simp))]
          exact hP.2.1 t' fun hd => ht' (by simp [hd])
        · intro t' ht' hlt' k hk
          by_cases he : t' = t
          · subst he
            rw [Function.update_self, q3 k hk, hP.2.1 t' hnot, list_sum_range]
          · rw [Function.update_of_ne he]
            rcases List.mem_append.1 ht' with ht' | ht'
            · exact hP.2.2 t' ht' hlt' k hk
            · simp at ht'; exact absurd ht' he
      · simp only [if_neg hlt]
        refine ⟨out, rfl, hP.1, fun t' ht' => hP.2.1 t' fun hd => ht' (by simp [hd]), ?_⟩
        intro t' ht' hlt' k hk
        rcases List.mem_append.1 ht' with ht' | ht'
        · exact hP.2.2 t' ht' hlt' k hk
        · simp at ht'; subst ht'; exact absurd hlt' hlt)
  rw [r1, Option.map_some]
  exact ⟨_, rfl, s2, r2, fun t ht => r4 t ht⟩

theorem chunks_sum (a : Args K C) (max : Nat) (hmax : 0 < max) (f : Nat → C) (q : Nat)
    (hq : q ≤ blocks a.numIn max) :
    (((List.range q).map fun p : Nat => max * p).map fun j => ∑ i ∈ range (chunk a max j), f (j + i)).sum =
      ∑ i ∈ range (min (max * q) a.numIn), f i := by
  induction q with
  | zero => simp
  | succ q ih =>
    rw [List.range_succ, List.map_append, List.map_append, List.sum_append, ih (by omega)]
    simp only [List.map_cons, List.map_nil, List.sum_cons, List.sum_nil, add_zero]
    have hlt : max * q < a.numIn := by
      exact (lt_blocks hmax).1 (show q < _ from hq)
    have e : min (max * (q + 1)) a.numIn = max * q + chunk a max (max * q) := by
      unfold chunk
      rw [Nat.mul_succ]
      split_ifs <;> omega
    rw [Nat.min_eq_left (by omega), e, sum_range_add]

/-- **C53, GPU block.**  For every size of the shared-memory chunk, every order of the loads between
two barriers and every order of the threads, a block of threads writes the station beam of its
points in the enabled polarisations and nothing else. -/
theorem block_ok (a : Args K C) (output : Arr C) (h : Valid a output) (max first : Nat)
    (hmax : 0 < max) (loadOrder : Nat → List Nat)
    (ho : ∀ j, (loadOrder j).Perm (List.range (chunk a max j))) (threads : List Nat)
    (hnd : threads.Nodup) (smem : Arr (Elem K C)) (hs : max ≤ smem.size) (output' : Arr C)
    (hs' : output'.size = output.size) :
    ∃ r, block a max first loadOrder threads smem output' = some r ∧ r.size = output.size ∧
      (∀ t ∈ threads, first + t < a.numOut → ∀ k ∈ a.enabled,
        r.get (slot a (first + t) k) = beam a (first + t) k) ∧
      ∀ j, (∀ t ∈ threads, first + t < a.numOut → ∀ k ∈ a.enabled, j ≠ slot a (first + t) k) →
        r.get j = output'.get j := by
  unfold block
  have hp : loop (fun (_ : Unit) (tid : Nat) => if first + tid < a.numOut then
      (point a (first + tid)).map fun _ => () else some ()) () threads = some () := by
    obtain ⟨r, r1, _⟩ := loop_inv (fun (_ : Unit) (tid : Nat) => if first + tid < a.numOut then
      (point a (first + tid)).map fun _ => () else some ()) (fun _ _ => True) threads () trivial (by
        intro done t rest s _ _
        by_cases hlt : first + t < a.numOut
        · rw [if_pos hlt, point_spec a output h _ hlt]; exact ⟨(), rfl, trivial⟩
        · rw [if_neg hlt]; exact ⟨(), rfl, trivial⟩)
    exact r1
  rw [hp, Option.bind_some]
  obtain ⟨b, b1, b2, b3, b4⟩ := loop_inv (round a max first loadOrder threads)
    (fun done b => max ≤ b.smem.size ∧ (∀ t, (b.out t).size = 4) ∧
      ∀ t ∈ threads, first + t < a.numOut → ∀ k ∈ a.enabled, (b.out t).get k =
        (done.map fun j => ∑ i ∈ range (chunk a max j), term a (first + t) k (j + i)).sum)
    ((List.range (blocks a.numIn max)).map fun q : Nat => max * q) ⟨smem, fun _ => ⟨4, fun _ => 0⟩⟩
    ⟨hs, fun _ => rfl, fun _ _ _ _ _ => by simp⟩ (by
      intro done j rest b hsplit hP
      obtain ⟨r, r1, r2, r3, r4⟩ := round_ok a output h max first j loadOrder (ho j) threads hnd b
        hP.1 hP.2.1
      refine ⟨r, r1, by rw [r2]; exact hP.1, r3, fun t ht hlt k hk => ?_⟩
      rw [r4 t ht hlt k hk, hP.2.2 t ht hlt k hk, List.map_append, List.sum_append]
      simp)
  rw [b1, Option.bind_some]
  have hfin : ∀ t ∈ threads, first + t < a.numOut → ∀ k ∈ a.enabled,
      (b.out t).get k * a.norm = beam a (first + t) k := by
    intro t ht hlt k hk
    rw [b4 t ht hlt k hk, chunks_sum a max hmax _ _ le_rfl]
    have := le_blocks a.numIn max hmax
    rw [Nat.mul_comm] at this
    rw [Nat.min_eq_right this]
    rfl
  have hpos : ∀ o k : Nat, 0 ≤ (a.pols : Int) * (o + a.offOut) + k := by
    intro o k; have := h.offOut; positivity
  obtain ⟨r, r1, r2, r3, r4⟩ := loop_inv (fun (output : Arr C) (tid : Nat) =>
      if first + tid < a.numOut then store a (first + tid) (b.out tid) output else some output)
    (fun done r => r.size = output.size ∧
      (∀ t ∈ done, first + t < a.numOut → ∀ k ∈ a.enabled,
        r.get (slot a (first + t) k) = beam a (first + t) k) ∧
      ∀ j, (∀ t ∈ done, first + t < a.numOut → ∀ k ∈ a.enabled, j ≠ slot a (first + t) k) →
        r.get j = output'.get j)
    threads output' ⟨hs', by simp, fun _ _ => rfl⟩ (by
      intro done t rest s hsplit hP
      have hmem : t ∈ threads := by rw [hsplit]; simp
      have hnot : t ∉ done := by
        rw [hsplit, List.nodup_append] at hnd
        intro hd
        exact hnd.2.2 t hd t (by simp) rfl
      by_cases hlt : first + t < a.numOut
      · simp only [if_pos hlt]
        obtain ⟨r, r1, r2, r3, r4⟩ := store_ok a output h (first + t) hlt (b.out t) s (b3 t) hP.1
        refine ⟨r, r1, r2, ?_, ?_⟩
        · intro t' ht' hlt' k hk
          rcases List.mem_append.1 ht' with ht' | ht'
          · rw [r4, hP.2.1 t' ht' hlt' k hk]
            intro k' hk' he
            have e2 : slot a (first + t') k = slot a (first + t) k' := by
              unfold slot
              unfold slot at he
              rw [← he, Int.toNat_natCast]
            have := (slot_inj a h.offOut hk hk' e2).1
            exact hnot ((show t' = t by omega) ▸ ht')
          · rw [List.mem_singleton] at ht'
            subst ht'
            rw [← hfin t' hmem hlt k hk]
            exact r3 k hk
        · intro j hj
          rw [r4, hP.2.2 j fun t' ht' => hj t' (by simp [ht'])]
          intro k hk he
          exact hj t (by simp) hlt k hk (by unfold slot; rw [← he, Int.toNat_natCast])
      · simp only [if_neg hlt]
        refine ⟨s, rfl, hP.1, ?_, fun j hj => hP.2.2 j fun t' ht' => hj t' (by simp [ht'])⟩
        intro t' ht' hlt' k hk
        rcases List.mem_append.1 ht' with ht' | ht'
        · exact hP.2.1 t' ht' hlt' k hk
        · simp at ht'; subst ht'; exact absurd hlt' hlt)
  exact ⟨r, r1, r2, r3, r4⟩

/-- **C53, GPU.**  Blocks of `T` threads in any order, with any order of loads between barriers and of
threads in each block (both may differ between blocks), and shared memory with any contents left
over: the result is that of the CPU. -/
theorem C53_gpu (a : Args K C) (output : Arr C) (h : Valid a output) (max T : Nat) (hmax : 0 < max)
    (hT : 0 < T) (order : List Nat) (horder : order.Perm (List.range (blocks a.numOut T)))
    (loadOrder : Nat → Nat → List Nat)
    (ho : ∀ b j, (loadOrder b j).Perm ((List.range T).flatMap fun tid => loads T (chunk a max j) tid))
    (threads : Nat → List Nat) (ht : ∀ b, (threads b).Perm (List.range T))
    (smem : Nat → Arr (Elem K C)) (hs : ∀ b, (smem b).size = max) :
    ∃ r, loop (fun (output : Arr C) (b : Nat) =>
        block a max (T * b) (loadOrder b) (threads b) (smem b) output) output order = some r ∧
      Done a output r := by
  obtain ⟨r, r1, r2, r3, r4⟩ := loop_inv (fun (output : Arr C) (b : Nat) =>
      block a max (T * b) (loadOrder b) (threads b) (smem b) output)
    (fun done r => r.size = output.size ∧
      (∀ b ∈ done, ∀ t, t < T → T * b + t < a.numOut → ∀ k ∈ a.enabled,
        r.get (slot a (T * b + t) k) = beam a (T * b + t) k) ∧
      ∀ j, (∀ b ∈ done, ∀ t, t < T → T * b + t < a.numOut → ∀ k ∈ a.enabled,
        j ≠ slot a (T * b + t) k) → r.get j = output.get j)
    order output ⟨rfl, by simp, fun _ _ => rfl⟩ (by
      intro done b rest s hsplit hP
      have hnd : order.Nodup := horder.nodup_iff.2 List.nodup_range
      have hnot : b ∉ done := by
        rw [hsplit, List.nodup_append] at hnd
        intro hd
        exact hnd.2.2 b hd b (by simp) rfl
      obtain ⟨r, r1, r2, r3, r4⟩ := block_ok a output h max (T * b) hmax (loadOrder b)
        (fun j => (ho b j).trans (loads_spec T _ hT)) (threads b)
        ((ht b).nodup_iff.2 List.nodup_range) (smem b) (hs b).ge s hP.1
      have hmem : ∀ t, t ∈ threads b ↔ t < T := fun t => by rw [(ht b).mem_iff, List.mem_range]
      refine ⟨r, r1, r2, ?_, ?_⟩
      · intro b' hb' t hlt hlt' k hk
        rcases List.mem_append.1 hb' with hb' | hb'
        · rw [r4, hP.2.1 b' hb' t hlt hlt' k hk]
          intro t' ht' hlt'' k' hk' he
          have e := (slot_inj a h.offOut hk hk' he).1
          have := flat_inj hlt ((hmem t').1 ht') e
          exact hnot (this.1 ▸ hb')
        · rw [List.mem_singleton] at hb'
          subst hb'
          exact r3 t ((hmem t).2 hlt) hlt' k hk
      · intro j hj
        rw [r4, hP.2.2 j fun b' hb' => hj b' (by simp [hb'])]
        intro t ht' hlt' k hk
        exact hj b (by simp) t ((hmem t).1 ht') hlt' k hk)
  have hcover : ∀ o, o < a.numOut → o / T ∈ order ∧ o % T < T ∧ T * (o / T) + o % T = o := by
    intro o hlt
    refine ⟨horder.mem_iff.2 (List.mem_range.2 ?_), Nat.mod_lt _ hT, Nat.div_add_mod o T⟩
    rw [lt_blocks hT]
    have := Nat.div_add_mod o T
    omega
  refine ⟨r, r1, r2, fun o k hlt hk => ?_, fun j hj => r4 j ?_⟩
  · obtain ⟨c1, c2, c3⟩ := hcover o hlt
    have := r3 _ c1 _ c2 (by omega) k ((mem_enabled a k).2 hk)
    rwa [c3] at this
  · intro b hb t hlt hlt' k hk
    exact hj _ k hlt' ((mem_enabled a k).1 hk)

/-- Two elements, an index map that sends both to row 1 of the element beam, X only, offset 1. -/
def demo : Args ℚ ℚ :=
  { wavenumber := 2, numIn := 2, weights := ⟨2, fun i => i + 1⟩, x := ⟨2, fun i => i⟩, y := ⟨2, fun _ => 1⟩,
    z := ⟨2, fun _ => 0⟩, offPoints := 1, numOut := 2, px := ⟨3, fun i => i⟩, py := ⟨3, fun i => 3 - i⟩,
    pz := none, idx := some ⟨2, fun _ => 1⟩, data := some ⟨16, fun i => i⟩, offOut := 1, norm := 1 / 2,
    evalX := true, evalY := false, polarised := true, phasor := fun t => t }

/-- Non-vacuity: the hypotheses hold and the result is not trivial. -/
example : Valid demo (⟨12, fun _ => 7⟩ : Arr ℚ) :=
  { w := by decide, x := by decide, y := by decide, z := by decide, off := by decide
    px := by decide, py := by decide, pz := by intro p h; simp [demo] at h
    idx := by intro d h; simp [demo] at h; subst h; decide
    data := by
      intro d h i _; simp [demo] at h; subst h
      exact ⟨show (0 : Int) ≤ 1 by decide, show (4 : Int) * ((1 + 1) * 2) ≤ 16 by decide⟩
    offOut := by decide, out := by decide }

example : (cpu demo ⟨12, fun _ => 7⟩ [1, 0]).map (fun r => (List.range 12).map r.get) =
    some [7, 7, 7, 7, 64, 72, 7, 7, 84, 91, 7, 7] := by decide +kernel

end Sdp.Station
