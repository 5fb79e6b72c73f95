import Verif.Tiles.Threads
import Verif.Tiles.CallSpec
import Verif.Tiles.Props

set_option linter.unusedSectionVars false

/-!
# Items of the visibilities, and the loops on CPU and GPU
-/

namespace Sdp.Tiles

section
variable {K : Type} [Field K] [LinearOrder K] [FloorRing K]

/-- A visibility in a tile. -/
abbrev Item := (Nat × Nat × Nat) × (Int × Int)

/-- The tile index of an item. -/
def tileE (p : Par K) (e : Item) : Int := p.tiling.index e.2

/-- Values that are stored for an item. -/
def valOf (p : Par K) (n : Sizes) (x : Inputs K) : (c : Col) → Item → Val K c
  | .uu, e => posU p n x e.1
  | .vv, e => posV p n x e.1
  | .vis, e => x.vis.get (place n e.1)
  | .weight, e => x.weights.get (place n e.1)
  | .tile, e => e.2.2 * 32768 + e.2.1
  | .index, e => (place n e.1 : Int)

/-- Items of a visibility. -/
def visitItems (R : Tiling → Int → Int → Int × Int × Int × Int) (skips : Bool) (p : Par K) (n : Sizes) (x : Inputs K)
    (q : Nat × Nat × Nat) : List (Option Item) :=
  if p.tiling.inGrid (column p n x q) (row p n x q) then
    (pairs (R p.tiling (column p n x q) (row p n x q))).map fun t => some (q, t)
  else if skips then [none] else []

theorem mem_every {n : Sizes} {q : Nat × Nat × Nat} :
    q ∈ every n ↔ q.1 < n.times ∧ q.2.1 < n.baselines ∧ q.2.2 < n.channels := mem_nest3

theorem place_lt {n : Sizes} {q : Nat × Nat × Nat} (h : q ∈ every n) :
    place n q < n.times * n.baselines * n.channels := by
  rw [mem_every] at h
  have h1 := flat_lt h.1 h.2.1
  have h2 := flat_lt h1 h.2.2
  unfold place
  rw [Nat.mul_comm q.1, Nat.mul_comm _ n.channels]
  exact h2

theorem posOf_some (p : Par K) (n : Sizes) (x : Inputs K) (hs : Sized n x) {q : Nat × Nat × Nat} (h : q ∈ every n) :
    posOf p n x q = some (posU p n x q, posV p n x q) := by
  rw [mem_every] at h
  have h1 := flat_lt h.1 h.2.1
  have e0 : (3 : Int) * index2 n.baselines q.1 q.2.1 = (((q.1 * n.baselines + q.2.1) * 3 : Nat) : Int) := by
    simp only [index2]; push_cast; ring
  have e1 : (3 : Int) * index2 n.baselines q.1 q.2.1 + 1 = (((q.1 * n.baselines + q.2.1) * 3 + 1 : Nat) : Int) := by
    rw [e0]; push_cast; ring
  have hb : (q.1 * n.baselines + q.2.1) * 3 + 1 < x.uvw.size := by
    rw [hs.uvw, Nat.mul_comm q.1]; omega
  unfold posOf
  simp only
  rw [e1, e0, Arr.read_nat, if_pos (by rw [hs.freqs]; exact h.2.2), Arr.read_nat, if_pos (by omega), Arr.read_nat,
    if_pos hb]
  rfl

theorem cellAt_pos (p : Par K) (n : Sizes) (x : Inputs K) (q : Nat × Nat × Nat) :
    cellAt p (posU p n x q, posV p n x q) = (column p n x q, row p n x q) := rfl

/-- Steps for a visibility in terms of its items. -/
theorem visit_items (R : Tiling → Int → Int → Int × Int × Int × Int) (p : Par K) (n : Sizes) (x : Inputs K)
    (hs : Sized n x) {q : Nat × Nat × Nat} (h : q ∈ every n) (cols : List Col) (skips : Bool)
    (inside : K × K → Int × Int → List (Act K)) (outside : List (Act K))
    (hi : ∀ t, inside (posU p n x q, posV p n x q) t = body (tileE p) cols (valOf p n x) (some (q, t)))
    (ho : outside = if skips then [.skip] else []) :
    visit R inside outside p n x q = some (actions (tileE p) cols (valOf p n x) (visitItems R skips p n x q)) := by
  unfold visit visitItems
  rw [posOf_some p n x hs h, Option.bind_some]
  simp only [cellAt_pos]
  by_cases hg : p.tiling.inGrid (column p n x q) (row p n x q) = true
  · simp only [hg, if_true]
    simp only [actions, List.flatMap_map]
    congr 2
    funext t
    exact hi t
  · rw [Bool.not_eq_true] at hg
    simp only [hg, ho]
    cases skips <;> rfl

theorem read_place (a : Arr K) (n : Sizes) (ha : n.times * n.baselines * n.channels ≤ a.size) {q : Nat × Nat × Nat}
    (h : q ∈ every n) : a.read (index3 n.baselines n.channels q.1 q.2.1 q.2.2) = some (a.get (place n q)) := by
  have hp := place_lt h
  have e : index3 n.baselines n.channels q.1 q.2.1 q.2.2 = ((place n q : Nat) : Int) := by
    simp only [index3, place]; push_cast; ring
  rw [e, Arr.read_nat, if_pos (by omega)]

theorem index_place (n : Sizes) (q : Nat × Nat × Nat) :
    index3 n.baselines n.channels q.1 q.2.1 q.2.2 = ((place n q : Nat) : Int) := by
  simp only [index3, place]; push_cast; ring

theorem countActs_items (R : Tiling → Int → Int → Int × Int × Int × Int) (p : Par K) (n : Sizes) (x : Inputs K)
    (hs : Sized n x) {q : Nat × Nat × Nat} (h : q ∈ every n) :
    countActs R p n x q = some (actions (tileE p) [] (valOf p n x) (visitItems R true p n x q)) :=
  visit_items R p n x hs h [] true _ _ (fun _ => rfl) rfl

/-- Columns of the sort. -/
def sortCols : List Col := [.uu, .vv, .vis, .weight, .tile]

theorem sortActs_items (R : Tiling → Int → Int → Int × Int × Int × Int) (p : Par K) (n : Sizes) (x : Inputs K)
    (hs : Sized n x) (hv : n.times * n.baselines * n.channels ≤ x.vis.size)
    (hw : n.times * n.baselines * n.channels ≤ x.weights.size) {q : Nat × Nat × Nat} (h : q ∈ every n) :
    sortActs R p n x q = some (actions (tileE p) sortCols (valOf p n x) (visitItems R false p n x q)) := by
  refine visit_items R p n x hs h sortCols false _ _ (fun t => ?_) rfl
  simp only [read_place x.vis n hv h, read_place x.weights n hw h]
  rfl

theorem indexActsCpu_items (p : Par K) (n : Sizes) (x : Inputs K) (hs : Sized n x) {q : Nat × Nat × Nat}
    (h : q ∈ every n) :
    indexActsCpu p n x q =
      some (actions (tileE p) [.index, .tile] (valOf p n x) (visitItems Tiling.rangesCpu false p n x q)) := by
  refine visit_items _ p n x hs h [.index, .tile] false _ _ (fun t => ?_) rfl
  simp only [index_place]
  rfl

theorem indexActsGpu_items (p : Par K) (n : Sizes) (x : Inputs K) (hs : Sized n x) {q : Nat × Nat × Nat}
    (h : q ∈ every n) :
    indexActsGpu p n x q =
      some (actions (tileE p) [.uu, .vv, .index, .tile] (valOf p n x) (visitItems Tiling.rangesGpu false p n x q)) := by
  refine visit_items _ p n x hs h [.uu, .vv, .index, .tile] false _ _ (fun t => ?_) rfl
  simp only [index_place]
  rfl

/-! ## The loops on the CPU are one thread -/

/-- State without what is still to do. -/
def core (s : TSt K Unit) : TSt K Unit := { s with todo := fun _ => [] }

theorem tstep_core (s : TSt K Unit) (a : Act K) (r : List (Act K)) :
    (tstep { s with todo := fun _ => [a] } ()).map core = (tstep { s with todo := fun _ => a :: r } ()).map core ∧
      ∀ s', tstep { s with todo := fun _ => a :: r } () = some s' → s' = { core s' with todo := fun _ => r } := by
  have hu : ∀ (f : Unit → List (Act K)) (l : List (Act K)), Function.update f () l = fun _ => l := by
    intro f l; funext u; cases u; simp
  constructor
  · cases a with
    | take t =>
      simp only [tstep]
      cases s.cells.read t with
      | none => rfl
      | some o => simp only [Option.bind_some]; cases s.cells.write t (o + 1) <;> rfl
    | skip =>
      simp only [tstep]
      cases s.skip.read 0 with
      | none => rfl
      | some o => simp only [Option.bind_some]; cases s.skip.write 0 (o + 1) <;> rfl
    | store c v =>
      simp only [tstep]
      cases v with
      | none => rfl
      | some v => simp only [Option.bind_some]; cases (s.out c).write (s.reg ()) v <;> rfl
  · intro s' h
    unfold tstep at h
    cases a with
    | _ =>
      simp only [Option.bind_eq_some_iff, Option.map_eq_some_iff] at h
      obtain ⟨_, -, _, -, rfl⟩ := h
      simp only [core, hu]

theorem loop_core : ∀ (l r : List (Act K)) (s s' : TSt K Unit), core s = core s' →
    (loop (fun (s : TSt K Unit) (a : Act K) => tstep { s with todo := fun _ => [a] } ()) s l).map core =
      (trun { s' with todo := fun _ => l ++ r } (List.replicate l.length ())).map core ∧
    ∀ s1, trun { s' with todo := fun _ => l ++ r } (List.replicate l.length ()) = some s1 →
      s1 = { core s1 with todo := fun _ => r } := by
  intro l
  induction l with
  | nil =>
    intro r s s' h
    simp only [loop, trun, List.length_nil, List.replicate_zero, List.nil_append, Option.map_some, Option.some.injEq]
    refine ⟨h, fun s1 h1 => ?_⟩
    rw [← h1]
    rfl
  | cons a l ih =>
    intro r s s' h
    have e0 : ({ s with todo := fun _ => [a] } : TSt K Unit) = { s' with todo := fun _ => [a] } := by
      have := congrArg (fun (z : TSt K Unit) => ({ z with todo := fun _ => [a] } : TSt K Unit)) h
      exact this
    obtain ⟨h1, h2⟩ := tstep_core s' a (l ++ r)
    simp only [loop, trun, List.length_cons, List.replicate_succ, List.cons_append]
    rw [e0]
    cases ht : tstep { s' with todo := fun _ => a :: (l ++ r) } () with
    | none =>
      rw [ht] at h1
      cases hq : tstep { s' with todo := fun _ => [a] } () with
      | none => simp
      | some z => rw [hq] at h1; cases h1
    | some z =>
      rw [ht] at h1
      have hz := h2 z ht
      cases hq : tstep { s' with todo := fun _ => [a] } () with
      | none => rw [hq] at h1; cases h1
      | some y =>
        rw [hq] at h1
        simp only [Option.map_some, Option.some.injEq] at h1
        simp only [Option.bind_some]
        obtain ⟨i1, i2⟩ := ih r y z h1
        have hz' : ({ z with todo := fun _ => l ++ r } : TSt K Unit) = z := by
          rw [hz]
        rw [hz'] at i1 i2
        exact ⟨i1, i2⟩

theorem cpu_trun : ∀ (acts : Nat × Nat × Nat → Option (List (Act K))) (L : Nat × Nat × Nat → List (Act K))
    (qs : List (Nat × Nat × Nat)), (∀ q ∈ qs, acts q = some (L q)) → ∀ (s s' : TSt K Unit), core s = core s' →
    (loop (fun (s : TSt K Unit) (q : Nat × Nat × Nat) => (acts q).bind fun l =>
      loop (fun (s : TSt K Unit) (a : Act K) => tstep { s with todo := fun _ => [a] } ()) s l) s qs).map core =
      (trun { s' with todo := fun _ => qs.flatMap L } (List.replicate (qs.flatMap L).length ())).map core ∧
    ∀ s1, trun { s' with todo := fun _ => qs.flatMap L } (List.replicate (qs.flatMap L).length ()) = some s1 →
      s1.todo () = [] := by
  intro acts L qs
  induction qs with
  | nil =>
    intro _ s s' h
    simp only [loop, trun, List.flatMap_nil, List.length_nil, List.replicate_zero, Option.map_some, Option.some.injEq]
    refine ⟨h, fun s1 h1 => ?_⟩
    rw [← h1]
  | cons q qs ih =>
    intro ha s s' h
    obtain ⟨h1, h2⟩ := loop_core (L q) (qs.flatMap L) s s' h
    have ih' := ih fun y hy => ha y (List.mem_cons_of_mem _ hy)
    simp only [loop, ha q (by simp), Option.bind_some, List.flatMap_cons, List.length_append, List.replicate_add]
    unfold trun at h1 h2 ⊢
    rw [loop_append]
    cases ht : loop tstep { s' with todo := fun _ => L q ++ qs.flatMap L } (List.replicate (L q).length ()) with
    | none =>
      rw [ht] at h1
      cases hq : loop (fun (s : TSt K Unit) (a : Act K) => tstep { s with todo := fun _ => [a] } ()) s (L q) with
      | none => simp
      | some z => rw [hq] at h1; cases h1
    | some z =>
      rw [ht] at h1
      have hz := h2 z ht
      cases hq : loop (fun (s : TSt K Unit) (a : Act K) => tstep { s with todo := fun _ => [a] } ()) s (L q) with
      | none => rw [hq] at h1; cases h1
      | some y =>
        rw [hq] at h1
        simp only [Option.map_some, Option.some.injEq] at h1
        simp only [Option.bind_some]
        have i := ih' y z h1
        have hz' : ({ z with todo := fun _ => qs.flatMap L } : TSt K Unit) = z := by
          rw [hz]
        rw [hz'] at i
        exact i

/-- The loops on the CPU are a launch of one thread. -/
theorem cpu_launch (acts : Nat × Nat × Nat → Option (List (Act K))) (L : Nat × Nat × Nat → List (Act K)) (n : Sizes)
    (ha : ∀ q ∈ every n, acts q = some (L q)) (cells skip : Arr Int) (out : Out K) :
    Launch (fun _ : Unit => some ((every n).flatMap L)) [()] cells skip out (cpuLoops acts n cells skip out) := by
  obtain ⟨h1, h2⟩ := cpu_trun acts L (every n) ha ⟨cells, skip, out, fun _ => 0, fun _ => []⟩
    ⟨cells, skip, out, fun _ => 0, fun _ => []⟩ rfl
  unfold cpuLoops
  change (Option.map core (loop _ _ (nest3 n.times n.baselines n.channels))) = _ at h1
  cases ht : trun (⟨cells, skip, out, fun _ => 0, fun _ => (every n).flatMap L⟩ : TSt K Unit)
      (List.replicate ((every n).flatMap L).length ()) with
  | none =>
    have hd := Launch.fault (K := K) (ι := Unit) (acts := fun _ : Unit => some ((every n).flatMap L)) (ts := [()])
      (fun _ => (every n).flatMap L) (fun _ _ => rfl) _ (fun x _ => by simp) ht
    rw [show trun _ _ = _ from ht] at h1
    rw [Option.map_eq_none_iff.1 h1]
    exact hd
  | some s1 =>
    have hd := Launch.done (K := K) (ι := Unit) (acts := fun _ : Unit => some ((every n).flatMap L)) (ts := [()])
      (fun _ => (every n).flatMap L) (fun _ _ => rfl) _ (fun x _ => by simp) s1 ht (fun _ _ => h2 s1 ht)
    rw [show trun _ _ = _ from ht] at h1
    obtain ⟨s2, e1, e2⟩ := Option.map_eq_some_iff.1 h1
    rw [e1]
    have a1 : s2.cells = s1.cells := (show (core s2).cells = (core s1).cells by rw [e2])
    have a2 : s2.skip = s1.skip := (show (core s2).skip = (core s1).skip by rw [e2])
    have a3 : s2.out = s1.out := (show (core s2).out = (core s1).out by rw [e2])
    simp only [Option.map_some, a1, a2, a3]
    exact hd

/-! ## The items of all visibilities -/

theorem mem_pairs (r : Int × Int × Int × Int) (t : Int × Int) :
    t ∈ pairs r ↔ (r.1 ≤ t.1 ∧ t.1 < r.2.1) ∧ r.2.2.1 ≤ t.2 ∧ t.2 < r.2.2.2 := by
  simp only [pairs, List.mem_flatMap, List.mem_map, Tiling.mem_intRange]
  constructor
  · rintro ⟨pv, hv, pu, hu, rfl⟩; exact ⟨hu, hv⟩
  · rintro ⟨hu, hv⟩; exact ⟨t.2, hv, t.1, hu, rfl⟩

theorem pairs_nodup (r : Int × Int × Int × Int) : (pairs r).Nodup := by
  unfold pairs
  rw [List.nodup_flatMap]
  refine ⟨fun pv _ => (Tiling.nodup_intRange _ _).map fun a b h => by simpa using h, ?_⟩
  refine (Tiling.nodup_intRange _ _).imp_of_mem fun {a b} _ _ hab => ?_
  rw [Function.onFun, List.disjoint_left]
  intro t h1 h2
  rw [List.mem_map] at h1 h2
  obtain ⟨_, -, rfl⟩ := h1
  obtain ⟨_, -, h⟩ := h2
  exact hab (Prod.ext_iff.1 h).2.symm

/-- `Hits t q` is what the loops with ranges `R` do. -/
structure Ranges (R : Tiling → Int → Int → Int × Int × Int × Int) (p : Par K) (n : Sizes) (x : Inputs K)
    (Hits : Int × Int → Nat × Nat × Nat → Prop) : Prop where
  exact : ∀ q t, Tile p t → (Hits t q ↔ p.tiling.inGrid (column p n x q) (row p n x q) = true ∧
    t ∈ pairs (R p.tiling (column p n x q) (row p n x q)))
  range : ∀ q t, p.tiling.inGrid (column p n x q) (row p n x q) = true →
    t ∈ pairs (R p.tiling (column p n x q) (row p n x q)) → Tile p t

theorem inside_iff (p : Par K) (n : Sizes) (x : Inputs K) (q : Nat × Nat × Nat) :
    p.tiling.inGrid (column p n x q) (row p n x q) = true ↔ Inside p n x q := by
  rw [Tiling.inGrid_iff]
  unfold Inside
  simp only [Par.tiling]
  omega

/-- The ranges of the GPU are the tiles that a footprint touches. -/
theorem ranges_gpu (p : Par K) (n : Sizes) (x : Inputs K) (hc : p.tiling.Covers) :
    Ranges Tiling.rangesGpu p n x (Touches p n x) := by
  have key : ∀ q t, t ∈ pairs (p.tiling.rangesGpu (column p n x q) (row p n x q)) ↔
      Tiling.Overlaps p.tiling.topU p.tileU p.support (column p n x q) t.1 ∧
        Tiling.Overlaps p.tiling.topV p.tileV p.support (row p n x q) t.2 := by
    intro q t
    rw [mem_pairs]
    simp only [Tiling.rangesGpu]
    rw [Tiling.axis_exact _ _ _ _ _ hc.tu hc.s, Tiling.axis_exact _ _ _ _ _ hc.tv hc.s]
    rfl
  refine ⟨fun q t _ => ?_, fun q t hg ht => ?_⟩
  · rw [inside_iff, key]
    rfl
  · rw [key] at ht
    rw [Tiling.inGrid_iff] at hg
    obtain ⟨g1, g2, g3, g4⟩ := hg
    exact ⟨Tiling.axis_bound _ _ _ _ _ _ _ hc.tu hc.topU hc.endU g1 g2 ht.1,
      Tiling.axis_bound _ _ _ _ _ _ _ hc.tv hc.topV hc.endV g3 g4 ht.2⟩

/-- The ranges of the CPU are the tiles that a footprint reaches. -/
theorem ranges_cpu (p : Par K) (n : Sizes) (x : Inputs K) (hc : p.tiling.Covers) :
    Ranges Tiling.rangesCpu p n x (Reaches p n x) := by
  have hu : 0 < p.tileU := hc.tu
  have key : ∀ q t, t ∈ pairs (p.tiling.rangesCpu (column p n x q) (row p n x q)) ↔
      (0 ≤ t.1 ∧ p.tiling.topU + t.1 * p.tileU ≤ column p n x q + p.support) ∧
        Tiling.Overlaps p.tiling.topV p.tileV p.support (row p n x q) t.2 := by
    intro q t
    rw [mem_pairs]
    simp only [Tiling.rangesCpu]
    rw [Tiling.axis_exact _ _ _ _ _ hc.tv hc.s, Tiling.lt_ceilDiv _ _ _ hc.tu]
    have : t.1 * p.tiling.tileU < column p n x q - p.tiling.topU + p.tiling.support + 1 ↔
        p.tiling.topU + t.1 * p.tileU ≤ column p n x q + p.support := by
      show t.1 * p.tileU < column p n x q - p.tiling.topU + p.support + 1 ↔ _
      omega
    rw [this]
    rfl
  refine ⟨fun q t ht => ?_, fun q t hg ht => ?_⟩
  · rw [inside_iff, key]
    unfold Reaches
    have := ht.1.1
    tauto
  · rw [key] at ht
    rw [Tiling.inGrid_iff] at hg
    obtain ⟨g1, g2, g3, g4⟩ := hg
    refine ⟨⟨ht.1.1, ?_⟩, Tiling.axis_bound _ _ _ _ _ _ _ hc.tv hc.topV hc.endV g3 g4 ht.2⟩
    by_contra h
    have h1 : p.tiling.numU * p.tileU ≤ t.1 * p.tileU := Int.mul_le_mul_of_nonneg_right (by omega) (by omega)
    have h2 : p.tiling.gridSize - p.tiling.topU ≤ p.tiling.numU * p.tileU := hc.endU
    have h3 : column p n x q + p.support < p.tiling.gridSize := g1
    have h4 := ht.1.2
    omega

theorem index_inj (p : Par K) {t t' : Int × Int} (h : Tile p t) (h' : Tile p t')
    (he : p.tiling.index t = p.tiling.index t') : t = t' := by
  obtain ⟨⟨h1, h2⟩, -⟩ := h
  obtain ⟨⟨h1', h2'⟩, -⟩ := h'
  unfold Tiling.index at he
  have e1 : (t.1 + t.2 * p.tiling.numU) / p.tiling.numU = t.2 := by
    rw [Int.add_mul_ediv_right _ _ (by omega), Int.ediv_eq_zero_of_lt h1 h2]; omega
  have e2 : (t'.1 + t'.2 * p.tiling.numU) / p.tiling.numU = t'.2 := by
    rw [Int.add_mul_ediv_right _ _ (by omega), Int.ediv_eq_zero_of_lt h1' h2']; omega
  have h5 : t.2 = t'.2 := by rw [← e1, ← e2, he]
  have h6 : t.1 = t'.1 := by rw [h5] at he; omega
  exact Prod.ext h6 h5

theorem index_range (p : Par K) {t : Int × Int} (h : Tile p t) :
    0 ≤ p.tiling.index t ∧ p.tiling.index t < p.tiling.num :=
  Tiling.index_bound h.1.1 h.1.2 h.2.1 h.2.2

theorem index_number (p : Par K) {t : Int × Int} (h : Tile p t) : p.tiling.index t = (number p t : Int) := by
  have := (index_range p h).1
  unfold number
  unfold Tiling.index at *
  omega

/-- A list of items that has all of them, once. -/
structure Complete (R : Tiling → Int → Int → Int × Int × Int × Int) (p : Par K) (n : Sizes) (x : Inputs K)
    (all : List Item) : Prop where
  nodup : all.Nodup
  mem : ∀ e, e ∈ all ↔ e.1 ∈ every n ∧ p.tiling.inGrid (column p n x e.1) (row p n x e.1) = true ∧
    e.2 ∈ pairs (R p.tiling (column p n x e.1) (row p n x e.1))

variable {R : Tiling → Int → Int → Int × Int × Int × Int} {p : Par K} {n : Sizes} {x : Inputs K}
  {Hits : Int × Int → Nat × Nat × Nat → Prop}

theorem Complete.range {all : List Item} (h : Complete R p n x all) (hr : Ranges R p n x Hits) {e : Item} (he : e ∈ all) :
    Tile p e.2 := by
  have := (h.mem e).1 he
  exact hr.range e.1 e.2 this.2.1 this.2.2

theorem mem_those {n : Sizes} {P : Nat × Nat × Nat → Prop} {q : Nat × Nat × Nat} : q ∈ those n P ↔ q ∈ every n ∧ P q := by
  classical
  unfold those
  rw [List.mem_filter]
  simp

theorem those_nodup (n : Sizes) (P : Nat × Nat × Nat → Prop) : (those n P).Nodup := by
  unfold those every
  exact (nest3_nodup _ _ _).filter _

/-- The items of a tile are the visibilities that hit it. -/
theorem Complete.tile {all : List Item} (h : Complete R p n x all) (hr : Ranges R p n x Hits) {t : Int × Int}
    (ht : Tile p t) :
    ((all.filter fun e => tileE p e = (number p t : Int)).map fun e => e.1).Perm (those n (Hits t)) := by
  classical
  have hm : ∀ e, e ∈ (all.filter fun e => tileE p e = (number p t : Int)) ↔ e ∈ all ∧ e.2 = t := by
    intro e
    rw [List.mem_filter]
    refine and_congr_right fun he => ?_
    have h1 := h.range hr he
    simp only [decide_eq_true_eq]
    constructor
    · intro h2
      exact index_inj p h1 ht (h2.trans (index_number p ht).symm)
    · rintro rfl
      exact index_number p h1
  rw [List.perm_ext_iff_of_nodup]
  · intro q
    rw [List.mem_map, mem_those]
    constructor
    · rintro ⟨e, he, rfl⟩
      obtain ⟨h1, rfl⟩ := (hm e).1 he
      obtain ⟨h2, h3⟩ := (h.mem e).1 h1
      exact ⟨h2, (hr.exact e.1 e.2 ht).2 h3⟩
    · rintro ⟨h1, h2⟩
      exact ⟨(q, t), (hm (q, t)).2 ⟨(h.mem (q, t)).2 ⟨h1, (hr.exact q t ht).1 h2⟩, rfl⟩, rfl⟩
  · refine List.Nodup.map_on ?_ (h.nodup.filter _)
    intro a ha b hb hab
    exact Prod.ext hab (((hm a).1 ha).2.trans ((hm b).1 hb).2.symm)
  · exact those_nodup n _

/-- Items of a visibility are its own. -/
theorem some_mem_visit {skips : Bool} {q : Nat × Nat × Nat} {e : Item} : some e ∈ visitItems R skips p n x q ↔
    e.1 = q ∧ p.tiling.inGrid (column p n x q) (row p n x q) = true ∧
      e.2 ∈ pairs (R p.tiling (column p n x q) (row p n x q)) := by
  unfold visitItems
  by_cases hg : p.tiling.inGrid (column p n x q) (row p n x q) = true
  · rw [if_pos hg, List.mem_map]
    constructor
    · rintro ⟨t, ht, h⟩
      obtain rfl := Option.some.inj h
      exact ⟨rfl, hg, ht⟩
    · rintro ⟨h1, -, h3⟩
      exact ⟨e.2, h3, by rw [← h1]⟩
  · rw [if_neg hg]
    cases skips <;> simp [hg]

theorem visit_nodup (skips : Bool) (q : Nat × Nat × Nat) : ((visitItems R skips p n x q).filterMap id).Nodup := by
  unfold visitItems
  by_cases hg : p.tiling.inGrid (column p n x q) (row p n x q) = true
  · rw [if_pos hg, List.filterMap_map]
    have e : (id ∘ fun t : Int × Int => some (q, t)) = fun t => some (q, t) := rfl
    rw [e, List.filterMap_eq_map']
    exact (pairs_nodup _).map fun a b h => (Prod.ext_iff.1 h).2
  · rw [if_neg hg]
    cases skips <;> simp

/-- Number of skipped visibilities among the items of one. -/
theorem visit_skips (q : Nat × Nat × Nat) : numSkips (visitItems R true p n x q) =
    if p.tiling.inGrid (column p n x q) (row p n x q) then 0 else 1 := by
  unfold visitItems
  by_cases hg : p.tiling.inGrid (column p n x q) (row p n x q) = true
  · rw [if_pos hg, if_pos hg]
    unfold numSkips
    rw [List.filter_map]
    simp [Function.comp_def]
  · rw [if_neg hg, if_neg hg]
    simp [numSkips]

end
end Sdp.Tiles
