import Mathlib.Algebra.BigOperators.Ring.Finset
import Mathlib.Algebra.BigOperators.Group.Finset.Sigma
import Mathlib.Tactic.Ring
import Verif.GridUtil.Subgrid

/-!
# C38: adding and cutting out subgrids; C48: shifting planes
-/

namespace Sdp.GridUtil

/-! ## The wrap-around loops -/

theorem wrapUp_enough (g : Int) (hg : 0 < g) :
    ∀ (n : Nat) (i : Int), -i < (n : Int) * g →
      ∃ r, wrapUp g n i = some r ∧ 0 ≤ r ∧ r % g = i % g ∧ (0 ≤ i → r = i) ∧ (i < 0 → r < g)
  | 0, i, h => by
    have : 0 ≤ i := by simp at h; omega
    exact ⟨i, by simp [wrapUp, this], this, rfl, fun _ => rfl, fun h' => by omega⟩
  | n + 1, i, h => by
    unfold wrapUp
    by_cases hi : i < 0
    · rw [if_pos hi]
      have h' : -(i + g) < (n : Int) * g := by
        have : ((n + 1 : Nat) : Int) * g = (n : Int) * g + g := by push_cast; ring
        rw [this] at h
        omega
      obtain ⟨r, h1, h2, h3, h4, h5⟩ := wrapUp_enough g hg n (i + g) h'
      refine ⟨r, h1, h2, by rw [h3, Int.add_emod_right], fun h => by omega, fun _ => ?_⟩
      by_cases h6 : i + g < 0
      · exact h5 h6
      · rw [h4 (by omega)]; omega
    · rw [if_neg hi]
      exact ⟨i, rfl, by omega, rfl, fun _ => rfl, fun h => absurd h hi⟩

theorem wrapDown_enough (g : Int) (hg : 0 < g) :
    ∀ (n : Nat) (i : Int), 0 ≤ i → i < (n : Int) * g + g →
      wrapDown g n i = some (i % g)
  | 0, i, h0, h => by
    have : i < g := by simpa using h
    rw [Int.emod_eq_of_lt h0 this]
    simp [wrapDown, this]
  | n + 1, i, h0, h => by
    unfold wrapDown
    by_cases hi : g ≤ i
    · rw [if_pos hi]
      have h' : i - g < (n : Int) * g + g := by
        have : ((n + 1 : Nat) : Int) * g = (n : Int) * g + g := by push_cast; ring
        rw [this] at h
        omega
      rw [wrapDown_enough g hg n (i - g) (by omega) h', Int.sub_emod_right]
    · rw [if_neg hi, Int.emod_eq_of_lt h0 (by omega)]

/-- On a non-empty axis both loops end, and the result is the position modulo the grid
size. -/
theorem wrap_ends (g i : Int) (hg : 0 < g) : wrap g i = some (i % g) := by
  unfold wrap
  have a1 : -i < ((i.natAbs + 1 : Nat) : Int) * g := by
    have : ((i.natAbs + 1 : Nat) : Int) * 1 ≤ ((i.natAbs + 1 : Nat) : Int) * g :=
      Int.mul_le_mul_of_nonneg_left (by omega) (by omega)
    omega
  obtain ⟨r, h1, h2, h3, -, -⟩ := wrapUp_enough g hg _ i a1
  rw [h1]
  simp only [Option.bind_some]
  have a2 : r < ((r.natAbs + 1 : Nat) : Int) * g + g := by
    have : ((r.natAbs + 1 : Nat) : Int) * 1 ≤ ((r.natAbs + 1 : Nat) : Int) * g :=
      Int.mul_le_mul_of_nonneg_left (by omega) (by omega)
    omega
  rw [wrapDown_enough g hg _ r h2 a2, h3]

/-- On an empty axis the loops never end, however many iterations are allowed. -/
theorem wrap_never_ends (i : Int) (n m : Nat) :
    ((wrapUp 0 n i).bind fun i' => wrapDown 0 m i') = none := by
  have up : ∀ (n : Nat) (i : Int), i < 0 → wrapUp 0 n i = none := by
    intro n
    induction n with
    | zero => intro i h; simp [wrapUp, h]
    | succ n ih => intro i h; unfold wrapUp; rw [if_pos h, Int.add_zero]; exact ih i h
  have down : ∀ (m : Nat) (i : Int), 0 ≤ i → wrapDown 0 m i = none := by
    intro n
    induction n with
    | zero => intro i h; simp [wrapDown, h]
    | succ n ih => intro i h; unfold wrapDown; rw [if_pos h, Int.sub_zero]; exact ih i h
  by_cases h : i < 0
  · rw [up n i h]; rfl
  · have : wrapUp 0 n i = some i := by cases n <;> simp [wrapUp, h]
    rw [this]
    exact down m i (by omega)

/-- C38, termination: on a non-empty grid axis the wrap-around ends for every offset; on
an empty one it never does. -/
theorem C38_wrap_ends_iff (g : Nat) (i : Int) : (∃ r, wrap g i = some r) ↔ 0 < g := by
  constructor
  · rintro ⟨r, hr⟩
    by_contra h
    have : (g : Int) = 0 := by omega
    unfold wrap at hr
    rw [this] at hr
    have hn : ∀ m : Int → Nat, ((wrapUp 0 (i.natAbs + 1) i).bind fun i' => wrapDown 0 (m i') i')
        = none := by
      intro m
      cases hu : wrapUp 0 (i.natAbs + 1) i with
      | none => rfl
      | some v =>
        have := wrap_never_ends i (i.natAbs + 1) (m v)
        rw [hu] at this
        exact this
    rw [hn fun i' => i'.natAbs + 1] at hr
    simp at hr
  · intro h
    exact ⟨_, wrap_ends g i (by omega)⟩

/-! ## Specification -/

/-- Grid position of subgrid position `i`: centres aligned, then moved by `offset`,
modulo the grid size. -/
def pos (grid sub : Nat) (offset : Int) (i : Nat) : Nat :=
  (((i : Int) - ((sub / 2 : Nat) : Int) + ((grid / 2 : Nat) : Int) + offset) % grid).toNat

theorem pos_lt {grid : Nat} (h : 0 < grid) (sub : Nat) (offset : Int) (i : Nat) :
    pos grid sub offset i < grid := by
  unfold pos
  have h1 := Int.emod_nonneg ((i : Int) - ((sub / 2 : Nat) : Int) + ((grid / 2 : Nat) : Int) +
    offset) (b := (grid : Int)) (by omega)
  have h2 := Int.emod_lt_of_pos ((i : Int) - ((sub / 2 : Nat) : Int) + ((grid / 2 : Nat) : Int) +
    offset) (b := (grid : Int)) (by omega)
  omega

theorem wrap_pos {grid : Nat} (h : 0 < grid) (sub : Nat) (offset : Int) (i : Nat) :
    wrap grid (place grid sub offset i) = some ((pos grid sub offset i : Nat) : Int) := by
  rw [wrap_ends _ _ (by omega)]
  congr 1
  unfold pos place
  have e : (i : Int) + ((grid / 2 : Nat) : Int) - ((sub / 2 : Nat) : Int) + offset =
    (i : Int) - ((sub / 2 : Nat) : Int) + ((grid / 2 : Nat) : Int) + offset := by ring
  rw [e]
  have h1 := Int.emod_nonneg ((i : Int) - ((sub / 2 : Nat) : Int) + ((grid / 2 : Nat) : Int) +
    offset) (b := (grid : Int)) (by omega)
  omega

/-! ## Results -/

section
variable {R : Type} [CommSemiring R]

/-- C38, cutting out: subgrid pixel `(i, j)` becomes the grid pixel at the centre-aligned
position moved by the offset, modulo the grid size; for every visiting order. -/
theorem C38_cut (gu gv su sv : Nat) (hu : 0 < gu) (hv : 0 < gv) (offU offV : Int)
    (grid sub : Arr R) (hg : grid.size = gu * gv) (hs : sub.size = su * sv)
    (order : List (Nat × Nat)) (ho : order.Perm (nest2 su sv)) :
    ∃ r, subgridCut gu gv su sv offU offV grid order sub = some r ∧ r.size = su * sv ∧
      ∀ i j, i < su → j < sv →
        r.get (sv * i + j) = grid.get (gv * pos gu su offU i + pos gv sv offV j) := by
  have hmem : ∀ x ∈ order, x.1 < su ∧ x.2 < sv := fun x hx => mem_nest2.1 (ho.mem_iff.1 hx)
  have hbody : ∀ x ∈ order, ∀ s : Arr R, cutPixel gu gv su sv offU offV grid s x =
      s.write ((sv * x.1 + x.2 : Nat) : Int)
        (grid.get (gv * pos gu su offU x.1 + pos gv sv offV x.2)) := by
    intro x hx s
    unfold cutPixel
    rw [wrap_pos hu, wrap_pos hv]
    simp only [Option.bind_some]
    have e : index2 gv (pos gu su offU x.1 : Nat) (pos gv sv offV x.2 : Nat) =
        ((gv * pos gu su offU x.1 + pos gv sv offV x.2 : Nat) : Int) := by
      unfold index2; push_cast; ring
    rw [e, Arr.read_nat, if_pos (by rw [hg]; exact flat_lt (pos_lt hu _ _ _) (pos_lt hv _ _ _))]
    simp only [Option.bind_some]
    congr 1
  obtain ⟨r, h1, h2, h3, -⟩ := Arr.store_spec order (fun x => ((sv * x.1 + x.2 : Nat) : Int))
    (fun x => grid.get (gv * pos gu su offU x.1 + pos gv sv offV x.2))
    (by
      have e : order.map (fun x : Nat × Nat => ((sv * x.1 + x.2 : Nat) : Int)) =
          (order.map fun x : Nat × Nat => sv * x.1 + x.2).map (Nat.cast : Nat → Int) := by
        rw [List.map_map]; rfl
      rw [e]
      refine List.Nodup.map (fun a b h => by exact_mod_cast h) ?_
      rw [(ho.map _).nodup_iff, nest2_flat]
      exact List.nodup_range) sub
    (by
      intro x hx
      have := flat_lt (hmem x hx).1 (hmem x hx).2
      rw [hs]
      exact ⟨by omega, by exact_mod_cast this⟩)
  refine ⟨r, ?_, h2.trans hs, fun i j hi hj => ?_⟩
  · unfold subgridCut
    rw [loop_congr _ _ sub order hbody]
    exact h1
  · have := h3 (i, j) (ho.mem_iff.2 (mem_nest2.2 ⟨hi, hj⟩))
    rw [Int.toNat_natCast] at this
    exact this

/-- C38, adding: each grid pixel receives the sum of the scaled subgrid pixels whose
centre-aligned position moved by minus the offset is that pixel, modulo the grid size;
for every visiting order. -/
theorem C38_add (gu gv su sv : Nat) (hu : 0 < gu) (hv : 0 < gv) (offU offV : Int)
    (grid sub : Arr R) (hg : grid.size = gu * gv) (hs : sub.size = su * sv) (factor : R)
    (order : List (Nat × Nat)) (ho : order.Perm (nest2 su sv)) :
    ∃ r, subgridAdd gu gv su sv offU offV sub factor order grid = some r ∧ r.size = gu * gv ∧
      ∀ p q, p < gu → q < gv →
        r.get (gv * p + q) = grid.get (gv * p + q) +
          ∑ i ∈ Finset.range su, ∑ j ∈ Finset.range sv,
            if pos gu su (-offU) i = p ∧ pos gv sv (-offV) j = q
              then sub.get (sv * i + j) * factor else 0 := by
  have hmem : ∀ x ∈ order, x.1 < su ∧ x.2 < sv := fun x hx => mem_nest2.1 (ho.mem_iff.1 hx)
  have hbody : ∀ x ∈ order, ∀ s : Arr R, addPixel gu gv su sv offU offV sub factor s x =
      s.addAt ((gv * pos gu su (-offU) x.1 + pos gv sv (-offV) x.2 : Nat) : Int)
        (sub.get (sv * x.1 + x.2) * factor) := by
    intro x hx s
    unfold addPixel
    rw [wrap_pos hu, wrap_pos hv]
    simp only [Option.bind_some]
    have e : index2 sv (x.1 : Int) (x.2 : Int) = ((sv * x.1 + x.2 : Nat) : Int) := by
      unfold index2; push_cast; ring
    rw [e, Arr.read_nat, if_pos (by rw [hs]; exact flat_lt (hmem x hx).1 (hmem x hx).2)]
    simp only [Option.bind_some]
    congr 1
  obtain ⟨r, h1, h2, h3⟩ := Arr.accum_spec order
    (fun x : Nat × Nat => ((gv * pos gu su (-offU) x.1 + pos gv sv (-offV) x.2 : Nat) : Int))
    (fun x : Nat × Nat => sub.get (sv * x.1 + x.2) * factor) grid
    (by
      intro x hx
      have := flat_lt (pos_lt hu su (-offU) x.1) (pos_lt hv sv (-offV) x.2)
      rw [hg]
      exact ⟨by omega, by exact_mod_cast this⟩)
  refine ⟨r, ?_, h2.trans hg, fun p q hp hq => ?_⟩
  · unfold subgridAdd
    rw [loop_congr _ _ grid order hbody]
    exact h1
  · rw [h3 (gv * p + q), ((ho.map _).sum_eq)]
    congr 1
    unfold nest2
    rw [List.map_flatMap, List.flatMap_def, List.sum_flatten, List.map_map, list_sum_range]
    apply Finset.sum_congr rfl
    intro i _
    simp only [Function.comp_apply, List.map_map]
    rw [list_sum_range]
    apply Finset.sum_congr rfl
    intro j _
    simp only [Function.comp_apply]
    have hiff : ((gv * pos gu su (-offU) i + pos gv sv (-offV) j : Nat) : Int) =
        ((gv * p + q : Nat) : Int) ↔ (pos gu su (-offU) i = p ∧ pos gv sv (-offV) j = q) := by
      constructor
      · intro h
        exact flat_inj (pos_lt hv _ _ _) hq (by exact_mod_cast h)
      · rintro ⟨rfl, rfl⟩; rfl
    by_cases hc : pos gu su (-offU) i = p ∧ pos gv sv (-offV) j = q
    · rw [if_pos hc, if_pos (hiff.2 hc)]
    · rw [if_neg hc, if_neg (fun h => hc (hiff.1 h))]

/-- C38, adjointness: cutting out with an offset and adding with the negated offset are
transposes of each other. -/
theorem C38_adjoint (gu gv su sv : Nat) (hu : 0 < gu) (hv : 0 < gv) (offU offV : Int)
    (G S zg zs : Arr R) (hG : G.size = gu * gv) (hS : S.size = su * sv)
    (hzg : zg.size = gu * gv) (hz0 : ∀ k, zg.get k = 0) (hzs : zs.size = su * sv)
    (o1 o2 : List (Nat × Nat)) (h1 : o1.Perm (nest2 su sv)) (h2 : o2.Perm (nest2 su sv))
    (cut added : Arr R) (hcut : subgridCut gu gv su sv offU offV G o1 zs = some cut)
    (hadd : subgridAdd gu gv su sv (-offU) (-offV) S 1 o2 zg = some added) :
    ∑ i ∈ Finset.range su, ∑ j ∈ Finset.range sv,
        cut.get (sv * i + j) * S.get (sv * i + j) =
      ∑ p ∈ Finset.range gu, ∑ q ∈ Finset.range gv,
        G.get (gv * p + q) * added.get (gv * p + q) := by
  obtain ⟨r1, e1, -, c1⟩ := C38_cut gu gv su sv hu hv offU offV G zs hG hzs o1 h1
  obtain ⟨r2, e2, -, c2⟩ := C38_add gu gv su sv hu hv (-offU) (-offV) zg S hzg hS 1 o2 h2
  rw [hcut] at e1
  rw [hadd] at e2
  cases e1
  cases e2
  have L : ∑ i ∈ Finset.range su, ∑ j ∈ Finset.range sv,
      cut.get (sv * i + j) * S.get (sv * i + j) =
      ∑ i ∈ Finset.range su, ∑ j ∈ Finset.range sv,
        ∑ p ∈ Finset.range gu, ∑ q ∈ Finset.range gv,
          if pos gu su offU i = p ∧ pos gv sv offV j = q
            then G.get (gv * p + q) * S.get (sv * i + j) else 0 := by
    apply Finset.sum_congr rfl
    intro i hi
    apply Finset.sum_congr rfl
    intro j hj
    rw [Finset.mem_range] at hi hj
    rw [c1 i j hi hj]
    rw [Finset.sum_eq_single (pos gu su offU i)]
    · rw [Finset.sum_eq_single (pos gv sv offV j)]
      · rw [if_pos ⟨rfl, rfl⟩]
      · intro q _ hq
        rw [if_neg (fun h => hq h.2.symm)]
      · intro h
        exact absurd (Finset.mem_range.2 (pos_lt hv _ _ _)) h
    · intro p _ hp
      apply Finset.sum_eq_zero
      intro q _
      rw [if_neg (fun h => hp h.1.symm)]
    · intro h
      exact absurd (Finset.mem_range.2 (pos_lt hu _ _ _)) h
  have Rr : ∑ p ∈ Finset.range gu, ∑ q ∈ Finset.range gv,
      G.get (gv * p + q) * added.get (gv * p + q) =
      ∑ p ∈ Finset.range gu, ∑ q ∈ Finset.range gv,
        ∑ i ∈ Finset.range su, ∑ j ∈ Finset.range sv,
          if pos gu su offU i = p ∧ pos gv sv offV j = q
            then G.get (gv * p + q) * S.get (sv * i + j) else 0 := by
    apply Finset.sum_congr rfl
    intro p hp
    apply Finset.sum_congr rfl
    intro q hq
    rw [Finset.mem_range] at hp hq
    rw [c2 p q hp hq, hz0, zero_add, Finset.mul_sum]
    apply Finset.sum_congr rfl
    intro i _
    rw [Finset.mul_sum]
    apply Finset.sum_congr rfl
    intro j _
    rw [neg_neg, neg_neg, mul_ite, mul_zero, mul_one]
  rw [L, Rr]
  calc _ = ∑ i ∈ Finset.range su, ∑ p ∈ Finset.range gu, ∑ j ∈ Finset.range sv,
        ∑ q ∈ Finset.range gv, (if pos gu su offU i = p ∧ pos gv sv offV j = q
            then G.get (gv * p + q) * S.get (sv * i + j) else 0) := by
        apply Finset.sum_congr rfl
        intro i _
        exact Finset.sum_comm
    _ = ∑ p ∈ Finset.range gu, ∑ i ∈ Finset.range su, ∑ j ∈ Finset.range sv,
        ∑ q ∈ Finset.range gv, (if pos gu su offU i = p ∧ pos gv sv offV j = q
            then G.get (gv * p + q) * S.get (sv * i + j) else 0) := Finset.sum_comm
    _ = _ := by
        apply Finset.sum_congr rfl
        intro p _
        rw [Finset.sum_comm]
        rw [Finset.sum_congr rfl (fun j _ => Finset.sum_comm)]
        rw [Finset.sum_comm]
        apply Finset.sum_congr rfl
        intro q _
        exact Finset.sum_comm

end

/-- C38, no data race while adding: if the subgrid has no more rows than the grid, no
two subgrid rows go to the same grid row. -/
theorem C38_add_rows_partial (gu su : Nat) (h : su ≤ gu) (off : Int) (i i' : Nat)
    (hi : i < su) (hi' : i' < su) (he : pos gu su off i = pos gu su off i') : i = i' := by
  unfold pos at he
  have hg : (0 : Int) < gu := by omega
  generalize hc : ((gu / 2 : Nat) : Int) = c at he
  generalize hd : ((su / 2 : Nat) : Int) = d at he
  have n1 := Int.emod_nonneg ((i : Int) - d + c + off) (b := (gu : Int)) (by omega)
  have n2 := Int.emod_nonneg ((i' : Int) - d + c + off) (b := (gu : Int)) (by omega)
  have hm : ((i : Int) - d + c + off) % gu = ((i' : Int) - d + c + off) % gu := by omega
  have hdvd := Int.emod_emod_of_dvd
  have h1 : (gu : Int) ∣ (i : Int) - i' := by
    have := (Int.emod_emod_of_dvd (0 : Int) (dvd_refl (gu : Int)))
    have h2 := Int.emod_eq_emod_iff_emod_sub_eq_zero.1 hm
    have h3 : ((i : Int) - d + c + off) - ((i' : Int) - d + c + off) = (i : Int) - i' := by ring
    rw [h3] at h2
    exact Int.dvd_of_emod_eq_zero h2
  obtain ⟨k, hk⟩ := h1
  have hk0 : k = 0 := by
    by_contra hne
    rcases lt_or_gt_of_ne hne with hlt | hgt
    · have : (gu : Int) * k ≤ (gu : Int) * (-1) :=
        Int.mul_le_mul_of_nonneg_left (by omega) (by omega)
      omega
    · have : (gu : Int) * 1 ≤ (gu : Int) * k :=
        Int.mul_le_mul_of_nonneg_left (by omega) (by omega)
      omega
  rw [hk0] at hk
  omega

/-- Otherwise two rows handled by different threads can update the same grid pixel
without synchronisation: 3 subgrid rows on a grid of 2 rows. -/
theorem C38_add_rows_false : ∃ (gu su : Nat) (i i' : Nat), i < su ∧ i' < su ∧ i ≠ i' ∧
    pos gu su 0 i = pos gu su 0 i' := ⟨2, 3, 0, 2, by decide⟩

/-- Non-vacuity: offset -5 on a grid of 4 by 4, subgrid of 2 by 2. -/
example : (subgridCut 4 4 2 2 (-5) 1 ⟨16, fun k => (k : Int)⟩ (nest2 2 2)
      ⟨4, fun _ => (0 : Int)⟩).map (fun r => (List.range 4).map r.get) = some [2, 3, 6, 7] ∧
    (subgridAdd 4 4 2 2 5 (-1) ⟨4, fun k => (k : Int) + 1⟩ 10 (nest2 2 2)
      ⟨16, fun _ => (0 : Int)⟩).map (fun r => (List.range 16).map r.get) =
      some [0, 0, 10, 20, 0, 0, 30, 40, 0, 0, 0, 0, 0, 0, 0, 0] := by decide +kernel

/-! ## C48 -/

section
variable {M : Type}

/-- Shift one plane. -/
theorem shift_plane (planes n : Nat) (order : List (Nat × Nat)) (ho : order.Perm (nest2 n n))
    (k : Nat) (hk : k + 1 < planes) (st : Arr M) (hs : st.size = planes * (n * n)) :
    ∃ r, loop (shiftPixel n n) st (order.map fun p => (k, p.1, p.2)) = some r ∧
      r.size = st.size ∧ ∀ c, c < planes → ∀ x, x < n * n →
        r.get (n * n * c + x) = if c = k then st.get (n * n * (k + 1) + x)
          else st.get (n * n * c + x) := by
  rw [loop_map]
  have hlt : ∀ c, c < planes → ∀ x, x < n * n → n * n * c + x < planes * (n * n) :=
    fun c hc x hx => flat_lt hc hx
  have hidx : ∀ (c i j : Nat), index3 (n : Int) n c i j = ((n * n * c + (n * i + j) : Nat) : Int) := by
    intro c i j; unfold index3; push_cast; ring
  obtain ⟨r, h1, h2⟩ := loop_inv (fun (st' : Arr M) (p : Nat × Nat) =>
      shiftPixel n n st' (k, p.1, p.2))
    (fun done s => s.size = st.size ∧ ∀ c, c < planes → ∀ i j, i < n → j < n →
      s.get (n * n * c + (n * i + j)) = if c = k ∧ (i, j) ∈ done
        then st.get (n * n * (k + 1) + (n * i + j)) else st.get (n * n * c + (n * i + j)))
    order st ⟨rfl, by simp⟩
    (by
      intro done x rest s he ⟨hsz, hg⟩
      have hx : x ∈ order := by rw [he]; simp
      obtain ⟨hx1, hx2⟩ := mem_nest2.1 (ho.mem_iff.1 hx)
      have hxf := flat_lt hx1 hx2
      refine ⟨s.put (n * n * k + (n * x.1 + x.2)) (s.get (n * n * (k + 1) + (n * x.1 + x.2))),
        ?_, ⟨hsz, ?_⟩⟩
      · unfold shiftPixel
        simp only
        rw [hidx, Arr.read_nat, if_pos (by rw [hsz, hs]; exact hlt _ hk _ hxf)]
        simp only [Option.bind_some]
        rw [hidx, Arr.write_nat, if_pos (by rw [hsz, hs]; exact hlt _ (by omega) _ hxf)]
      · intro c hc i j hi hj
        rw [Arr.put_get]
        have hij := flat_lt hi hj
        by_cases hck : c = k ∧ (i, j) = x
        · obtain ⟨rfl, rfl⟩ := hck
          rw [if_pos rfl, if_pos ⟨rfl, by simp⟩, hg _ hk i j hi hj, if_neg (by omega)]
        · rw [if_neg, hg c hc i j hi hj]
          · have : ((i, j) ∈ done ++ [x]) ↔ ((i, j) ∈ done ∨ (i, j) = x) := by simp
            by_cases h1 : c = k ∧ (i, j) ∈ done
            · rw [if_pos h1, if_pos ⟨h1.1, this.2 (Or.inl h1.2)⟩]
            · rw [if_neg h1, if_neg]
              rintro ⟨a, b⟩
              rcases this.1 b with b | b
              · exact h1 ⟨a, b⟩
              · exact hck ⟨a, b⟩
          · intro h
            obtain ⟨a, b⟩ := flat_inj hij hxf h
            obtain ⟨b1, b2⟩ := flat_inj hj hx2 b
            exact hck ⟨a, Prod.ext b1 b2⟩)
  refine ⟨r, h1, h2.1, fun c hc x hx => ?_⟩
  have hn : 0 < n := by
    rcases Nat.eq_zero_or_pos n with h | h
    · subst h; simp at hx
    · exact h
  have e : n * (x / n) + x % n = x := Nat.div_add_mod x n
  have a1 : x / n < n := Nat.div_lt_of_lt_mul hx
  have a2 : x % n < n := Nat.mod_lt _ hn
  have := h2.2 c hc (x / n) (x % n) a1 a2
  rw [e] at this
  rw [this]
  have : ((x / n, x % n) ∈ order) := ho.mem_iff.2 (mem_nest2.2 ⟨a1, a2⟩)
  simp [this]

/-- C48: after shifting, every plane but the last holds the contents of the next plane,
and the last plane is unchanged (square planes). -/
theorem C48_shift_partial (planes n : Nat) (order : List (Nat × Nat))
    (ho : order.Perm (nest2 n n)) (st : Arr M) (hs : st.size = planes * (n * n)) :
    ∃ r, shiftSubgrids planes n n order st = some r ∧ r.size = st.size ∧
      ∀ c, c < planes → ∀ x, x < n * n →
        r.get (n * n * c + x) =
          if c + 1 < planes then st.get (n * n * (c + 1) + x) else st.get (n * n * c + x) := by
  unfold shiftSubgrids
  rw [loop_flatMap]
  have key : ∀ m, m + 1 ≤ planes ∨ m = 0 → ∃ r, loop (fun s (k : Nat) => loop (shiftPixel n n) s
        (order.map fun p => (k, p.1, p.2))) st (List.range m) = some r ∧ r.size = st.size ∧
      ∀ c, c < planes → ∀ x, x < n * n →
        r.get (n * n * c + x) =
          if c < m then st.get (n * n * (c + 1) + x) else st.get (n * n * c + x) := by
    intro m
    induction m with
    | zero => intro _; exact ⟨st, rfl, rfl, fun c _ x _ => by simp⟩
    | succ m ih =>
      intro hm
      have hm : m + 1 + 1 ≤ planes := by omega
      obtain ⟨r, h1, h2, h3⟩ := ih (by omega)
      obtain ⟨r', g1, g2, g3⟩ := shift_plane planes n order ho m (by omega) r (h2.trans hs)
      refine ⟨r', ?_, g2.trans h2, fun c hc x hx => ?_⟩
      · rw [List.range_succ, loop_append, h1]
        simp only [Option.bind_some, loop]
        rw [g1]
        rfl
      · rw [g3 c hc x hx]
        by_cases h : c = m
        · subst h
          rw [if_pos rfl, if_pos (by omega), h3 _ (by omega) x hx, if_neg (by omega)]
        · rw [if_neg h, h3 c hc x hx]
          by_cases h' : c < m
          · rw [if_pos h', if_pos (by omega)]
          · rw [if_neg h', if_neg (by omega)]
  obtain ⟨r, h1, h2, h3⟩ := key (planes - 1) (by omega)
  refine ⟨r, h1, h2, fun c hc x hx => ?_⟩
  rw [h3 c hc x hx]
  by_cases h : c + 1 < planes
  · rw [if_pos h, if_pos (by omega)]
  · rw [if_neg h, if_neg (by omega)]

/-- `t` shifts one after the other. -/
def shiftTimes (planes n : Nat) (order : List (Nat × Nat)) : Nat → Arr M → Option (Arr M)
  | 0, st => some st
  | t + 1, st => (shiftTimes planes n order t st).bind fun s => shiftSubgrids planes n n order s

/-- C48, repeated: after `t` shifts plane `c` holds what plane `c + t` held, or the last
plane if there is no such plane. -/
theorem C48_shift_times_partial (planes n : Nat) (order : List (Nat × Nat))
    (ho : order.Perm (nest2 n n)) (st : Arr M) (hs : st.size = planes * (n * n)) (t : Nat) :
    ∃ r, shiftTimes planes n order t st = some r ∧ r.size = st.size ∧
      ∀ c, c < planes → ∀ x, x < n * n →
        r.get (n * n * c + x) = st.get (n * n * min (c + t) (planes - 1) + x) := by
  induction t with
  | zero =>
    refine ⟨st, rfl, rfl, fun c hc x _ => ?_⟩
    rw [Nat.add_zero, Nat.min_eq_left (by omega)]
  | succ t ih =>
    obtain ⟨r, h1, h2, h3⟩ := ih
    obtain ⟨r', g1, g2, g3⟩ := C48_shift_partial planes n order ho r (h2.trans hs)
    refine ⟨r', by rw [shiftTimes, h1]; exact g1, g2.trans h2, fun c hc x hx => ?_⟩
    rw [g3 c hc x hx]
    split
    · rw [h3 _ (by omega) x hx]
      congr 3
      omega
    · rw [h3 _ hc x hx]
      congr 3
      omega

/-- Planes that are not square are not shifted as a whole: with 2 planes of 1 row of 2
values only the first value moves. -/
theorem C48_shift_not_square_false :
    (shiftSubgrids 2 1 2 (nest2 1 1) ⟨4, fun k => k⟩).map (fun r => (List.range 4).map r.get) =
      some [2, 1, 2, 3] := by decide

/-- Non-vacuity. -/
example : (shiftSubgrids 3 2 2 (nest2 2 2) ⟨12, fun k => k⟩).map
    (fun r => (List.range 12).map r.get) = some [4, 5, 6, 7, 8, 9, 10, 11, 8, 9, 10, 11] := by
  decide

end

end Sdp.GridUtil
