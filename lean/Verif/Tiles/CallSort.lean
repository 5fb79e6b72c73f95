import Verif.Tiles.CallCount

set_option linter.unusedSectionVars false

/-!
# C103 — sdp_bucket_sort and sdp_tiled_indexing
-/

namespace Sdp.Tiles
variable {K : Type} [Field K] [LinearOrder K] [FloorRing K]
variable {R : Tiling → Int → Int → Int × Int × Int × Int} {p : Par K} {n : Sizes} {x : Inputs K}
  {Hits : Int × Int → Nat × Nat × Nat → Prop}

/-! ## Offsets of right counts -/

theorem Counted.mono {c : Counts} (h : Counted p n x Hits c) (hc : p.tiling.Covers) (hg : 0 < p.gridSize) {t t' : Nat}
    (ht : t ≤ t') (ht' : t' ≤ p.tiling.num.toNat) : c.offsets.get t ≤ c.offsets.get t' := by
  induction t', ht using Nat.le_induction with
  | base => omega
  | succ k hk ih =>
    have h1 := ih (by omega)
    have h2 := h.next k (by omega)
    obtain ⟨q, hq, e⟩ := tile_of hc hg (show k < p.tiling.num.toNat by omega)
    have h3 := h.points q hq
    rw [e] at h3
    omega

theorem Counted.nonneg {c : Counts} (h : Counted p n x Hits c) (hc : p.tiling.Covers) (hg : 0 < p.gridSize) {t : Nat}
    (ht : t ≤ p.tiling.num.toNat) : 0 ≤ c.offsets.get t := by
  have := h.mono hc hg (Nat.zero_le t) ht
  have := h.first
  omega

theorem Counted.cnt {c : Counts} (h : Counted p n x Hits c) (hc : p.tiling.Covers) (hg : 0 < p.gridSize)
    (hr : Ranges R p n x Hits) {all : List Item} (ha : Complete R p n x all) {t : Nat} (ht : t < p.tiling.num.toNat) :
    c.offsets.get t + (Tiles.cnt (tileE p) all (t : Int) : Nat) = c.offsets.get (t + 1) := by
  obtain ⟨q, hq, e⟩ := tile_of hc hg ht
  have h1 := h.next t ht
  have h2 := h.points q hq
  have h3 := cnt_tile hr ha hq
  rw [e] at h2 h3
  rw [h1, h2, h3]

theorem Counted.room {c : Counts} (h : Counted p n x Hits c) (hc : p.tiling.Covers) (hg : 0 < p.gridSize)
    (hr : Ranges R p n x Hits) {all : List Item} (ha : Complete R p n x all) {size : Nat}
    (hs : c.offsets.get p.tiling.num.toNat ≤ size) :
    Room c.offsets.get (Tiles.cnt (tileE p) all) p.tiling.num.toNat size := by
  refine ⟨fun t ht => h.nonneg hc hg (by omega), fun t t' h1 h2 => ?_, fun t ht => ?_⟩
  · rw [h.cnt hc hg hr ha (by omega)]
    exact h.mono hc hg (by omega) (by omega)
  · rw [h.cnt hc hg hr ha ht]
    exact (h.mono hc hg (by omega) (le_refl _)).trans hs

theorem sort_ready {c : Counts} (h : Counted p n x Hits c) (hc : p.tiling.Covers) (hg : 0 < p.gridSize)
    (hr : Ranges R p n x Hits) (cols : List Col) (s : Out K) (hs : ∀ k ∈ cols, c.offsets.get p.tiling.num.toNat ≤ (s k).size)
    (skip : Arr Int) : Ready R false cols p n x c.offsets skip s :=
  ⟨by have := h.shaped.offsets; omega, (fun e => by cases e), fun k hk _ ha => h.room hc hg hr ha (hs k hk)⟩

/-! ## Slots -/

theorem number_lt {t : Int × Int} (ht : Tile p t) : number p t < p.tiling.num.toNat := by
  have e := index_number p ht
  have := index_range p ht
  omega

/-- The items of a tile, in the order of the slots. -/
theorem slots_map {c : Counts} (h : Counted p n x Hits c) (hc : p.tiling.Covers) (hg : 0 < p.gridSize)
    (hr : Ranges R p n x Hits) {order : List Item} (ha : Complete R p n x order) {t : Int × Int} (ht : Tile p t)
    {β : Type} (g : Nat → β) (f : Item → β)
    (hgf : ∀ (i : Nat) (e : Item), (order.filter fun d => tileE p d = ((number p t : Nat) : Int))[i]? = some e →
      g (c.offsets.get (number p t) + (i : Int)).toNat = f e) :
    (slots p c.offsets t).map g = (order.filter fun d => tileE p d = ((number p t : Nat) : Int)).map f := by
  have hn := number_lt ht
  have h0 := h.nonneg hc hg (t := number p t) (by omega)
  have hcnt := h.cnt hc hg hr ha hn
  unfold slots
  unfold Tiles.cnt at hcnt
  apply List.ext_getElem?
  intro i
  rw [List.map_map, List.getElem?_map, List.getElem?_map]
  generalize (order.filter fun d => tileE p d = ((number p t : Nat) : Int)) = l at *
  by_cases hi : i < l.length
  · rw [List.getElem?_range (by omega), List.getElem?_eq_getElem hi, Option.map_some, Option.map_some]
    have := hgf i _ (List.getElem?_eq_getElem hi)
    rw [← this]
    simp only [Function.comp]
    congr 2
    omega
  · rw [List.getElem?_eq_none (by rw [List.length_range]; omega), List.getElem?_eq_none (by omega)]
    rfl

theorem item_tile (hr : Ranges R p n x Hits) {order : List Item} (ha : Complete R p n x order) {t : Int × Int} (ht : Tile p t)
    {e : Item} (he : e ∈ order.filter fun d => tileE p d = ((number p t : Nat) : Int)) : e.2 = t := by
  rw [List.mem_filter, decide_eq_true_eq] at he
  apply index_inj p (ha.range hr he.1) ht
  rw [index_number p ht]
  exact he.2

/-- Rows of a tile in terms of its visibilities. -/
theorem rows_of {c : Counts} (h : Counted p n x Hits c) (hc : p.tiling.Covers) (hg : 0 < p.gridSize)
    (hr : Ranges R p n x Hits) {order : List Item} (ha : Complete R p n x order) {t : Int × Int} (ht : Tile p t)
    {β : Type} (g : Nat → β) (f : Item → β) (f' : Nat × Nat × Nat → β) (hf : ∀ q, f (q, t) = f' q)
    (hgf : ∀ (i : Nat) (e : Item), (order.filter fun d => tileE p d = ((number p t : Nat) : Int))[i]? = some e →
      g (c.offsets.get (number p t) + (i : Int)).toNat = f e) :
    (slots p c.offsets t).map g =
      ((order.filter fun d => tileE p d = ((number p t : Nat) : Int)).map fun e => e.1).map f' := by
  rw [slots_map h hc hg hr ha ht g f hgf, List.map_map]
  apply List.map_congr_left
  intro e he
  have := item_tile hr ha ht he
  obtain ⟨q, t'⟩ := e
  simp only at this
  subst this
  exact hf q

theorem nodup_single {α : Type} {l : List α} (hn : l.Nodup) {a : α} (h : ∀ b ∈ l, b = a) : l = if l = [] then [] else [a] := by
  cases l with
  | nil => rfl
  | cons b l =>
    cases l with
    | nil => simp [h b (by simp)]
    | cons d l =>
      have h1 := h b (by simp)
      have h2 := h d (by simp)
      subst h1
      subst h2
      simp at hn

/-- On the CPU the visibilities of a tile come in the order of the loops. -/
theorem list_tile (hr : Ranges R p n x Hits) {t : Int × Int} (ht : Tile p t) :
    (((listItems R false p n x (every n)).filter fun d => tileE p d = ((number p t : Nat) : Int)).map fun e => e.1) =
      those n (Hits t) := by
  classical
  have key : ∀ q, ((((visitItems R false p n x q).filterMap id).filter fun d => tileE p d = ((number p t : Nat) : Int)).map
      fun e => e.1) = if Hits t q then [q] else [] := by
    intro q
    have hn : (((visitItems R false p n x q).filterMap id).filter fun d => tileE p d = ((number p t : Nat) : Int)).Nodup :=
      (visit_nodup false q).filter _
    have hm : ∀ e, e ∈ (((visitItems R false p n x q).filterMap id).filter fun d => tileE p d = ((number p t : Nat) : Int)) ↔
        e = (q, t) ∧ Hits t q := by
      intro e
      rw [List.mem_filter, decide_eq_true_eq, List.mem_filterMap]
      have h1 : (∃ a ∈ visitItems R false p n x q, id a = some e) ↔ some e ∈ visitItems R false p n x q := by
        constructor
        · rintro ⟨a, ha, h⟩
          exact (show a = some e from h) ▸ ha
        · intro h
          exact ⟨some e, h, rfl⟩
      rw [h1, some_mem_visit]
      constructor
      · rintro ⟨⟨rfl, h2, h3⟩, h4⟩
        have h5 : e.2 = t := index_inj p (hr.range e.1 e.2 h2 h3) ht (by rw [index_number p ht]; exact h4)
        subst h5
        exact ⟨rfl, (hr.exact _ _ ht).2 ⟨h2, h3⟩⟩
      · rintro ⟨rfl, h⟩
        have := (hr.exact _ _ ht).1 h
        exact ⟨⟨rfl, this.1, this.2⟩, index_number p ht⟩
    have h2 := nodup_single hn (a := (q, t)) fun b hb => ((hm b).1 hb).1
    by_cases hh : Hits t q
    · have h3 : (q, t) ∈ (((visitItems R false p n x q).filterMap id).filter fun d => tileE p d = ((number p t : Nat) : Int)) :=
        (hm _).2 ⟨rfl, hh⟩
      rw [if_neg (List.ne_nil_of_mem h3)] at h2
      rw [h2, if_pos hh]
      rfl
    · have h3 : (((visitItems R false p n x q).filterMap id).filter fun d => tileE p d = ((number p t : Nat) : Int)) = [] :=
        List.eq_nil_iff_forall_not_mem.2 fun e he => hh ((hm e).1 he).2
      rw [h3, if_neg hh]
      rfl
  unfold those listItems
  generalize every n = l
  induction l with
  | nil => rfl
  | cons q l ih =>
    rw [List.flatMap_cons, List.filter_append, List.map_append, ih, key]
    by_cases hh : Hits t q
    · rw [if_pos hh, List.filter_cons_of_pos (by simpa using hh)]
      rfl
    · rw [if_neg hh, List.filter_cons_of_neg (by simpa using hh)]
      rfl

/-! ## Everything else -/

theorem rest_of {c : Counts} (h : Counted p n x Hits c) (hc : p.tiling.Covers) (hg : 0 < p.gridSize)
    (hr : Ranges R p n x Hits) {cols cleared : List Col} {skip : Arr Int} {s s0 : Out K} {order : List Item}
    {r : Arr Int × Arr Int × Out K}
    (hp : Processed R false cols p n x c.offsets skip s order r) (hs0 : ∀ k, (s k).size = (s0 k).size)
    (hz : ∀ k ∈ cleared, ∀ j < (s0 k).size, (s k).get j = 0) (hk : ∀ k, k ∉ cleared → s k = s0 k)
    (hsub : ∀ k ∈ cols, k ∈ cleared) : Rest p cleared c.offsets r.1 s0 r.2.2 := by
  have hbig : ∀ t : Nat, p.tiling.num.toNat ≤ t → Tiles.cnt (tileE p) order (t : Int) = 0 := by
    intro t ht
    unfold Tiles.cnt
    rw [List.length_eq_zero_iff, List.filter_eq_nil_iff]
    intro e he
    have := inside_range hr hp.all he
    simp only [decide_eq_true_eq]
    omega
  refine ⟨fun k => (hp.sorted.outSize k).trans (hs0 k), ?_, ?_, hp.sorted.size, ?_, ?_⟩
  · intro k hk' j hj1 hj2
    rw [hp.sorted.other k j, hz k hk' j hj2]
    intro t i hi
    by_cases ht : t < p.tiling.num.toNat
    · have h1 := h.cnt hc hg hr hp.all ht
      have h2 := h.mono hc hg (show t + 1 ≤ p.tiling.num.toNat by omega) (le_refl _)
      omega
    · rw [hbig t (by omega)] at hi
      omega
  · intro k hk'
    rw [hp.sorted.unused k (fun e => hk' (hsub k e)), hk k hk']
  · intro t ht
    rw [hp.sorted.cells, h.cnt hc hg hr hp.all ht]
  · rw [hp.sorted.cells, hbig _ (le_refl _)]
    omega

end Sdp.Tiles
