import Verif.OptWeighting.Model
import Verif.Common.Outcome
import Verif.Tiles.Model
import Mathlib.Algebra.Order.Floor.Ring
import Mathlib.Algebra.Order.BigOperators.Ring.Finset
import Mathlib.Algebra.Order.Field.Basic
import Mathlib.Tactic.Ring
import Mathlib.Tactic.LinearCombination
import Mathlib.Tactic.Linarith
import Mathlib.Tactic.Positivity

set_option linter.unusedSectionVars false

/-!
# C95: Briggs weighting of the visibilities of a tile, for every schedule
-/

namespace Sdp.OptWeighting
open Sdp.Race

section
variable {F : Type} [Field F] [LinearOrder F] [IsStrictOrderedRing F] [FloorRing F]

/-! ## What the property speaks of -/

/-- Grid point of a visibility. -/
def place (p : Sorted F) (i : Nat) : Int × Int := (roundC (p.uu.get i), roundC (p.vv.get i))

/-- The grid point is one of the 32 x 16 of the tile. -/
def InTile (p : Sorted F) (grid : Int) (k : Tile) (i : Nat) : Prop :=
  k.u ≤ (place p i).1 + centre grid ∧ (place p i).1 + centre grid < k.u + 32 ∧
  k.v ≤ (place p i).2 + centre grid ∧ (place p i).2 + centre grid < k.v + 16

instance (p : Sorted F) (grid : Int) (k : Tile) (i : Nat) : Decidable (InTile p grid k i) := by
  unfold InTile; infer_instance

/-- The visibilities at which a block looks: from where the tile starts to the *number* of visibilities in it. -/
def seen (k : Tile) : Finset Nat := (Finset.range k.total.toNat).filter fun i => k.start ≤ (i : Int)

/-- Weight of all visibilities seen that fall on the grid point of visibility `i`. -/
def cellSum (p : Sorted F) (k : Tile) (i : Nat) : F := ∑ j ∈ (seen k).filter (fun j => place p j = place p i), p.weight.get j

/-- The arrays are large enough and the weights are positive. -/
structure Good (p : Sorted F) (k : Tile) (n : Nat) : Prop where
  uu : k.total.toNat ≤ p.uu.size
  vv : k.total.toNat ≤ p.vv.size
  weight : k.total.toNat ≤ p.weight.size
  out : k.total.toNat ≤ n
  positive : ∀ i ∈ seen k, 0 < p.weight.get i

/-! ## Cells -/

def cellNat (p : Sorted F) (grid : Int) (k : Tile) (i : Nat) : Nat :=
  (16 * ((place p i).1 + centre grid - k.u) + ((place p i).2 + centre grid - k.v)).toNat

theorem cellNat_lt {p : Sorted F} {grid : Int} {k : Tile} {i : Nat} (h : InTile p grid k i) :
    cellNat p grid k i < width := by
  obtain ⟨h1, h2, h3, h4⟩ := h
  unfold cellNat width
  omega

theorem cellNat_inj {p : Sorted F} {grid : Int} {k : Tile} {i j : Nat} (hi : InTile p grid k i)
    (hj : InTile p grid k j) : cellNat p grid k i = cellNat p grid k j ↔ place p i = place p j := by
  obtain ⟨h1, h2, h3, h4⟩ := hi
  obtain ⟨g1, g2, g3, g4⟩ := hj
  unfold cellNat
  constructor
  · intro e
    refine Prod.ext ?_ ?_ <;> omega
  · intro e; rw [e]

theorem InTile.same {p : Sorted F} {grid : Int} {k : Tile} {i j : Nat} (hi : InTile p grid k i)
    (e : place p j = place p i) : InTile p grid k j := by
  unfold InTile at hi ⊢; rw [e]; exact hi

theorem rd {α : Type} {a : Arr α} {i : Nat} (h : i < a.size) : a.read (i : Int) = some (a.get i) := by
  rw [Arr.read_nat, if_pos h]

theorem cellOf_eq {p : Sorted F} {grid : Int} {k : Tile} {i : Nat} (hu : i < p.uu.size) (hv : i < p.vv.size) :
    cellOf p grid k i = some (if InTile p grid k i then some (cellNat p grid k i) else none) := by
  unfold cellOf
  rw [rd hu, rd hv]
  simp only [Option.bind_some]
  congr 1
  by_cases h : InTile p grid k i
  · rw [if_pos h]
    obtain ⟨h1, h2, h3, h4⟩ := h
    simp only [place] at h1 h2 h3 h4
    rw [if_pos (by omega)]
    rfl
  · rw [if_neg h, if_neg]
    intro g
    apply h
    unfold InTile place
    dsimp only
    omega

theorem mem_visits {k : Tile} {t i : Nat} :
    i ∈ visits k t ↔ i ∈ seen k ∧ ((i : Int) - k.start) % (width : Int) = t := by
  simp [visits, seen, and_assoc]

theorem seen_lt {k : Tile} {i : Nat} (h : i ∈ seen k) : i < k.total.toNat := by
  simp only [seen, Finset.mem_filter, Finset.mem_range] at h; exact h.1

/-- Every visibility seen belongs to one thread. -/
theorem visits_sum (k : Tile) {M : Type} [AddCommMonoid M] (f : Nat → M) :
    ∑ t ∈ Finset.range width, ((visits k t).map f).sum = ∑ i ∈ seen k, f i := by
  have e : ∀ t, ((visits k t).map f).sum =
      ∑ i ∈ Finset.range k.total.toNat, if k.start ≤ (i : Int) ∧ ((i : Int) - k.start) % (width : Int) = t then f i else 0 := by
    intro t
    unfold visits
    rw [sum_filter_map, list_sum_range]
    simp only [decide_eq_true_eq]
  simp only [e]
  rw [Finset.sum_comm, seen, Finset.sum_filter]
  refine Finset.sum_congr rfl fun i _ => ?_
  by_cases h : k.start ≤ (i : Int)
  · rw [if_pos h]
    have hw : (0 : Int) < (width : Int) := by unfold width; norm_num
    have h0 : 0 ≤ ((i : Int) - k.start) % (width : Int) := Int.emod_nonneg _ (by omega)
    have h1 : ((i : Int) - k.start) % (width : Int) < width := Int.emod_lt_of_pos _ hw
    rw [Finset.sum_eq_single (((i : Int) - k.start) % (width : Int)).toNat]
    · rw [if_pos ⟨h, by omega⟩]
    · intro t _ ht
      rw [if_neg]
      rintro ⟨-, g⟩
      exact ht (by omega)
    · intro hn
      exact absurd (Finset.mem_range.2 (by omega)) hn
  · rw [if_neg h]
    refine Finset.sum_eq_zero fun t _ => if_neg fun g => h g.1

theorem loop_snoc {α β : Type} (f : List β → α → Option (List β)) (g : α → List β) (xs : List α)
    (h : ∀ x ∈ xs, ∀ l, f l x = some (l ++ g x)) : ∀ l, loop f l xs = some (l ++ xs.flatMap g) := by
  induction xs with
  | nil => intro l; simp [loop]
  | cons x xs ih =>
    intro l
    simp only [loop, List.flatMap_cons]
    rw [h x (by simp), Option.bind_some, ih (fun y hy => h y (by simp [hy])), List.append_assoc]

/-! ## First pass -/

def adds (p : Sorted F) (grid : Int) (k : Tile) (t : Nat) : List (Int × F) :=
  (visits k t).flatMap fun i => if InTile p grid k i then [((cellNat p grid k i : Int), p.weight.get i)] else []

theorem addsOf_ok {p : Sorted F} {grid : Int} {k : Tile} {n : Nat} (h : Good p k n) (t : Nat) :
    addsOf p grid k t = some (adds p grid k t) := by
  unfold addsOf adds
  rw [loop_snoc _ (fun i => if InTile p grid k i then [((cellNat p grid k i : Int), p.weight.get i)] else [])]
  · simp
  · intro i hi l
    have hi' := seen_lt (mem_visits.1 hi).1
    rw [cellOf_eq (lt_of_lt_of_le hi' h.uu) (lt_of_lt_of_le hi' h.vv), Option.bind_some]
    by_cases hin : InTile p grid k i
    · simp only [if_pos hin]
      rw [rd (lt_of_lt_of_le hi' h.weight)]
      rfl
    · simp only [if_neg hin, List.append_nil]

/-- The tile after the first pass. -/
def cells (p : Sorted F) (grid : Int) (k : Tile) : Arr F :=
  ⟨width, fun j => if j < width then
    ∑ i ∈ seen k, if InTile p grid k i ∧ cellNat p grid k i = j then p.weight.get i else 0 else 0⟩

theorem owed_flatMap (l : List Nat) (g : Nat → List (Int × F)) (j : Nat) :
    owed (l.flatMap g) j = (l.map fun i => owed (g i) j).sum := by
  induction l with
  | nil => simp [owed]
  | cons i l ih =>
    rw [List.flatMap_cons, List.map_cons, List.sum_cons, ← ih]
    simp [owed]

theorem first_pass (p : Sorted F) (grid : Int) (k : Tile) (ads : Nat → List (Int × F))
    (hads : ∀ t < width, ads t = adds p grid k t) : AddYields true ads (List.range width) cleared (cells p grid k) := by
  refine add_yields true _ _ List.nodup_range _ _ ?_ rfl ?_ ?_
  · intro t ht q hq
    rw [hads t (List.mem_range.1 ht)] at hq
    simp only [adds, List.mem_flatMap] at hq
    obtain ⟨i, hi, hq⟩ := hq
    by_cases hin : InTile p grid k i
    · rw [if_pos hin, List.mem_singleton] at hq
      subst hq
      have := cellNat_lt hin
      exact ⟨by simp, by simpa [cleared] using this⟩
    · rw [if_neg hin] at hq; exact absurd hq (by simp)
  · intro j hj
    have hj' : j < width := hj
    simp only [cells, cleared, if_pos hj', zero_add]
    rw [list_sum_range]
    rw [← visits_sum]
    refine Finset.sum_congr rfl fun t ht => ?_
    rw [hads t (Finset.mem_range.1 ht)]
    unfold adds
    rw [owed_flatMap]
    congr 1
    refine List.map_congr_left fun i _ => ?_
    by_cases hin : InTile p grid k i
    · simp only [owed, List.map_cons, List.map_nil, List.sum_cons, List.sum_nil, add_zero, hin, true_and,
        Nat.cast_inj, if_true]
    · simp only [owed, List.map_nil, List.sum_nil, hin, false_and, if_false]
  · intro j hj
    have hj' : ¬ j < width := not_lt.2 hj
    simp [cells, cleared, hj']

/-- A cell holds the weight of the visibilities that fall on it. -/
theorem cells_get {p : Sorted F} {grid : Int} {k : Tile} {i : Nat} (h : InTile p grid k i) :
    (cells p grid k).get (cellNat p grid k i) = cellSum p k i := by
  simp only [cells, if_pos (cellNat_lt h), cellSum]
  rw [Finset.sum_filter]
  refine Finset.sum_congr rfl fun j _ => ?_
  by_cases e : place p j = place p i
  · have hj := h.same e
    rw [if_pos e, if_pos ⟨hj, (cellNat_inj hj h).2 e⟩]
  · rw [if_neg e, if_neg]
    rintro ⟨hj, g⟩
    exact e ((cellNat_inj hj h).1 g)

theorem cellSum_pos {p : Sorted F} {k : Tile} {n i : Nat} (h : Good p k n) (hi : i ∈ seen k) : 0 < cellSum p k i := by
  unfold cellSum
  refine Finset.sum_pos (fun j hj => h.positive j (Finset.mem_filter.1 hj).1) ⟨i, by simp [hi]⟩

/-! ## Second pass -/

def acts (p : Sorted F) (grid : Int) (k : Tile) (t : Nat) : List (Act F) :=
  (visits k t).flatMap fun i => if InTile p grid k i then
    [.one (cellSum p k i), .two (cellSum p k i * cellSum p k i), .loadTwo, .loadOne] else [.loadTwo, .loadOne]

theorem actsOf_ok {p : Sorted F} {grid : Int} {k : Tile} {n : Nat} (h : Good p k n) (t : Nat) :
    actsOf p grid k (cells p grid k) t = some (acts p grid k t) := by
  unfold actsOf acts
  rw [loop_snoc _ (fun i => if InTile p grid k i then
    [.one (cellSum p k i), .two (cellSum p k i * cellSum p k i), .loadTwo, .loadOne] else [.loadTwo, .loadOne])]
  · simp
  · intro i hi l
    have hi' := seen_lt (mem_visits.1 hi).1
    rw [cellOf_eq (lt_of_lt_of_le hi' h.uu) (lt_of_lt_of_le hi' h.vv), Option.bind_some]
    by_cases hin : InTile p grid k i
    · simp only [if_pos hin]
      have hc : cellNat p grid k i < (cells p grid k).size := cellNat_lt hin
      rw [rd hc, cells_get hin]
      rfl
    · simp only [if_neg hin]

def Act.toOne : Act F → F
  | .one v => v
  | _ => 0

def Act.toTwo : Act F → F
  | .two v => v
  | _ => 0

/-- What a thread is still to add. -/
def due (f : Act F → F) (l : List (Act F)) : F := (l.map f).sum

/-- The sums and what is still to be added to them. -/
structure BSum (acts : Nat → List (Act F)) (s : BSt F) : Prop where
  one : s.sw + ∑ t ∈ Finset.range width, due Act.toOne (s.todo t) = ∑ t ∈ Finset.range width, due Act.toOne (acts t)
  two : s.sw2 + ∑ t ∈ Finset.range width, due Act.toTwo (s.todo t) = ∑ t ∈ Finset.range width, due Act.toTwo (acts t)

theorem sum_update (g : List (Act F) → F) (td : Nat → List (Act F)) (t : Nat) (rest : List (Act F)) (ht : t < width) :
    ∑ x ∈ Finset.range width, g (Function.update td t rest x) + g (td t) =
      ∑ x ∈ Finset.range width, g (td x) + g rest := by
  have hm : t ∈ Finset.range width := Finset.mem_range.2 ht
  rw [← Finset.add_sum_erase _ _ hm, ← Finset.add_sum_erase _ (fun x => g (td x)) hm]
  have : ∑ x ∈ (Finset.range width).erase t, g (Function.update td t rest x) =
      ∑ x ∈ (Finset.range width).erase t, g (td x) :=
    Finset.sum_congr rfl fun x hx => by rw [Function.update_of_ne (Finset.ne_of_mem_erase hx)]
  rw [this, Function.update_self]
  ring

theorem bsum_step {robust : Int} {ac : Nat → List (Act F)} {s : BSt F} {t : Nat} (ht : t < width) (h : BSum ac s) :
    BSum ac (bstep robust s t) := by
  have key : ∀ (f : Act F → F) (a : Act F) (rest : List (Act F)) (x y : F), s.todo t = a :: rest →
      x + ∑ t ∈ Finset.range width, due f (s.todo t) = y →
      (x + f a) + ∑ u ∈ Finset.range width, due f (Function.update s.todo t rest u) = y := by
    intro f a rest x y e hx
    have := sum_update (due f) s.todo t rest ht
    rw [e] at this
    simp only [due, List.map_cons, List.sum_cons] at this hx ⊢
    rw [← hx]
    linear_combination this
  have key0 : ∀ (f : Act F → F) (a : Act F) (rest : List (Act F)) (x y : F), f a = 0 → s.todo t = a :: rest →
      x + ∑ t ∈ Finset.range width, due f (s.todo t) = y →
      x + ∑ u ∈ Finset.range width, due f (Function.update s.todo t rest u) = y := by
    intro f a rest x y e0 e hx
    have := key f a rest x y e hx
    rwa [e0, add_zero] at this
  unfold bstep
  split
  · exact h
  · next v rest e =>
    exact ⟨key Act.toOne _ rest _ _ e h.one, key0 Act.toTwo _ rest _ _ rfl e h.two⟩
  · next v rest e =>
    exact ⟨key0 Act.toOne _ rest _ _ rfl e h.one, key Act.toTwo _ rest _ _ e h.two⟩
  · next rest e =>
    exact ⟨key0 Act.toOne _ rest _ _ rfl e h.one,
      key0 Act.toTwo _ rest _ _ rfl e h.two⟩
  · next rest e =>
    exact ⟨key0 Act.toOne _ rest _ _ rfl e h.one,
      key0 Act.toTwo _ rest _ _ rfl e h.two⟩

theorem foldl_inv {σ : Type} (P : σ → Prop) (f : σ → Nat → σ) (l : List Nat) (s : σ) (h0 : P s)
    (hs : ∀ s, ∀ t ∈ l, P s → P (f s t)) : P (l.foldl f s) := by
  induction l generalizing s with
  | nil => exact h0
  | cons t l ih => exact ih _ (hs s t (by simp) h0) fun s u hu => hs s u (by simp [hu])

theorem brun_sum (robust : Int) (ac : Nat → List (Act F)) (l : List Nat) (hl : ∀ t ∈ l, t < width) :
    BSum ac (brun robust ac l) := by
  refine foldl_inv (BSum ac) _ l _ ⟨by simp, by simp⟩ fun s t ht h => bsum_step (hl t ht) h

theorem bstep_todo (robust : Int) (s : BSt F) (t u : Nat) :
    (bstep robust s t).todo u = if u = t then (s.todo t).drop 1 else s.todo u := by
  unfold bstep
  by_cases e : u = t
  · subst e
    rw [if_pos rfl]
    split <;> simp_all
  · rw [if_neg e]
    split <;> simp [Function.update_of_ne e]

theorem foldl_todo (robust : Int) (l : List Nat) (u : Nat) : ∀ s : BSt F,
    (l.foldl (bstep robust) s).todo u = (s.todo u).drop (l.count u) := by
  induction l with
  | nil => intro s; simp
  | cons t l ih =>
    intro s
    rw [List.foldl_cons, ih, bstep_todo]
    by_cases e : u = t
    · subst e
      rw [if_pos rfl, List.count_cons_self, List.drop_drop]
      congr 1; omega
    · rw [if_neg e, List.count_cons_of_ne (Ne.symm e)]

/-- What a thread has done of its second pass: added to `sw`, to `sw2`, loaded `sw2` after that, and computed
`robustness` after all of it. -/
structure Flags where
  o : Bool
  w : Bool
  g : Bool
  r : Bool

def flag (f : Flags) : Act F → Flags
  | .one _ => { f with o := true }
  | .two _ => { f with w := true }
  | .loadTwo => { f with g := f.w }
  | .loadOne => { f with r := f.g && f.o }

def scan (l : List (Act F)) : Flags := l.foldl flag ⟨false, false, false, false⟩

/-- All that is added is positive. -/
def Act.Pos : Act F → Prop
  | .one v => 0 < v
  | .two v => 0 < v
  | _ => True

structure BPos (ac : Nat → List (Act F)) (s : BSt F) : Prop where
  past : ∀ t < width, ∃ done, done ++ s.todo t = ac t ∧ ((scan done).o = true → 0 < s.sw) ∧ ((scan done).w = true → 0 < s.sw2) ∧
    ((scan done).g = true → 0 < s.got t) ∧ ((scan done).r = true → ∃ ρ, 0 < ρ ∧ s.rob t = some ρ)
  one : 0 ≤ s.sw
  two : 0 ≤ s.sw2

theorem robOf_pos (robust : Int) {a b : F} (ha : 0 < a) (hb : 0 < b) : ∃ ρ, 0 < ρ ∧ robOf robust a b = some ρ := by
  refine ⟨_, ?_, by unfold robOf; rw [if_neg (by push Not; exact ⟨hb.ne', ha.ne'⟩)]⟩
  have h10 : (0 : F) < (10 : F) ^ robust := zpow_pos (by norm_num) _
  have h5 : (0 : F) < 5 * 1 / (10 : F) ^ robust := div_pos (by norm_num) h10
  exact div_pos (pow_pos h5 2) (div_pos ha hb)

theorem scan_snoc (l : List (Act F)) (a : Act F) : scan (l ++ [a]) = flag (scan l) a := by
  simp [scan]

theorem bpos_step {robust : Int} {ac : Nat → List (Act F)} {s : BSt F} {t : Nat} (htw : t < width)
    (hac : ∀ t < width, ∀ a ∈ ac t, a.Pos) (h : BPos ac s) : BPos ac (bstep robust s t) := by
  obtain ⟨dt, et, ht⟩ := h.past t htw
  have lift : ∀ (s' : BSt F) (a : Act F) (rest : List (Act F)), s.todo t = a :: rest →
      s'.todo = Function.update s.todo t rest → s.sw ≤ s'.sw → s.sw2 ≤ s'.sw2 → (∀ u, u ≠ t → s'.got u = s.got u) →
      (∀ u, u ≠ t → s'.rob u = s.rob u) →
      (((flag (scan dt) a).o = true → 0 < s'.sw) ∧ ((flag (scan dt) a).w = true → 0 < s'.sw2) ∧
        ((flag (scan dt) a).g = true → 0 < s'.got t) ∧
        ((flag (scan dt) a).r = true → ∃ ρ, 0 < ρ ∧ s'.rob t = some ρ)) → BPos ac s' := by
    intro s' a rest e hto h1 h2 h3 h4 h5
    refine ⟨fun u huw => ?_, h.one.trans h1, h.two.trans h2⟩
    by_cases eu : u = t
    · subst eu
      refine ⟨dt ++ [a], ?_, ?_⟩
      · rw [hto, Function.update_self, List.append_assoc, ← et, e]; rfl
      · rw [scan_snoc]; exact h5
    · obtain ⟨d, ed, g1, g2, g3, g4⟩ := h.past u huw
      refine ⟨d, by rw [hto, Function.update_of_ne eu]; exact ed, fun x => (g1 x).trans_le h1, fun x => (g2 x).trans_le h2,
        fun x => by rw [h3 u eu]; exact g3 x, fun x => by rw [h4 u eu]; exact g4 x⟩
  obtain ⟨g1, g2, g3, g4⟩ := ht
  have mem : ∀ a rest, s.todo t = a :: rest → a ∈ ac t := fun a rest e => by rw [← et, e]; simp
  unfold bstep
  split
  · exact h
  · next v rest e =>
    have hv : 0 < v := hac t htw _ (mem _ _ e)
    refine lift _ _ rest e rfl (le_add_of_nonneg_right hv.le) le_rfl (fun _ _ => rfl) (fun _ _ => rfl)
      ⟨fun _ => add_pos_of_nonneg_of_pos h.one hv, g2, g3, g4⟩
  · next v rest e =>
    have hv : 0 < v := hac t htw _ (mem _ _ e)
    refine lift _ _ rest e rfl le_rfl (le_add_of_nonneg_right hv.le) (fun _ _ => rfl) (fun _ _ => rfl)
      ⟨g1, fun _ => add_pos_of_nonneg_of_pos h.two hv, g3, g4⟩
  · next rest e =>
    refine lift _ _ rest e rfl le_rfl le_rfl (fun u hu => Function.update_of_ne hu _ _) (fun _ _ => rfl)
      ⟨g1, g2, fun x => by simp only [Function.update_self]; exact g2 x, g4⟩
  · next rest e =>
    refine lift _ _ rest e rfl le_rfl le_rfl (fun _ _ => rfl) (fun u hu => Function.update_of_ne hu _ _)
      ⟨g1, g2, g3, fun x => ?_⟩
    simp only [flag, Bool.and_eq_true] at x
    simp only [Function.update_self]
    exact robOf_pos robust (g3 x.1) (g1 x.2)

theorem brun_pos (robust : Int) (ac : Nat → List (Act F)) (hac : ∀ t < width, ∀ a ∈ ac t, a.Pos) (l : List Nat)
    (hl : ∀ t ∈ l, t < width) :
    BPos ac (brun robust ac l) := by
  refine foldl_inv (BPos ac) _ l _ ?_ fun s t ht h => bpos_step (hl t ht) hac h
  exact ⟨fun t _ => ⟨[], by simp, by simp [scan], by simp [scan], by simp [scan], by simp [scan]⟩, le_rfl, le_rfl⟩

theorem acts_pos {p : Sorted F} {grid : Int} {k : Tile} {n : Nat} (h : Good p k n) (t : Nat) :
    ∀ a ∈ acts p grid k t, a.Pos := by
  intro a ha
  simp only [acts, List.mem_flatMap] at ha
  obtain ⟨i, hi, ha⟩ := ha
  have := cellSum_pos h (mem_visits.1 hi).1
  by_cases hin : InTile p grid k i
  · rw [if_pos hin] at ha
    simp only [List.mem_cons, List.not_mem_nil, or_false] at ha
    rcases ha with rfl | rfl | rfl | rfl
    · exact this
    · exact mul_pos this this
    · trivial
    · trivial
  · rw [if_neg hin] at ha
    simp only [List.mem_cons, List.not_mem_nil, or_false] at ha
    rcases ha with rfl | rfl <;> trivial

/-- A thread with a visibility of the tile has computed `robustness` after adding. -/
theorem scan_acts {p : Sorted F} {grid : Int} {k : Tile} {t i : Nat} (hi : i ∈ visits k t) (hin : InTile p grid k i) :
    (scan (acts p grid k t)).r = true := by
  unfold acts scan
  generalize visits k t = l at hi
  have all : ∀ (l : List Nat) (f : Flags), f.o = true → f.w = true → f.r = true →
      ((l.flatMap fun i => if InTile p grid k i then
        [Act.one (cellSum p k i), .two (cellSum p k i * cellSum p k i), .loadTwo, .loadOne] else [.loadTwo, .loadOne]).foldl
          flag f).r = true := by
    intro l
    induction l with
    | nil => intro f _ _ h; exact h
    | cons j l ih =>
      intro f h1 h2 h3
      rw [List.flatMap_cons, List.foldl_append]
      by_cases hj : InTile p grid k j
      · rw [if_pos hj]
        exact ih _ rfl rfl rfl
      · rw [if_neg hj]
        refine ih _ h1 h2 ?_
        simp [flag, h1, h2]
  generalize (⟨false, false, false, false⟩ : Flags) = f
  induction l generalizing f with
  | nil => exact absurd hi (by simp)
  | cons j l ih =>
    rw [List.flatMap_cons, List.foldl_append]
    rcases List.mem_cons.1 hi with rfl | hi
    · rw [if_pos hin]
      exact all _ _ rfl rfl rfl
    · exact ih hi _

/-- Whatever the schedule, a thread that is to write has a positive `robustness`. -/
theorem rob_pos {p : Sorted F} {grid robust : Int} {k : Tile} {n : Nat} (h : Good p k n) (ac : Nat → List (Act F))
    (hac : ∀ t < width, ac t = acts p grid k t) (s : List Nat) (hs : ∀ t ∈ s, t < width)
    (hd : ∀ t < width, (brun robust ac s).todo t = []) {t i : Nat} (ht : t < width) (hi : i ∈ visits k t)
    (hin : InTile p grid k i) : ∃ ρ, 0 < ρ ∧ (brun robust ac s).rob t = some ρ := by
  obtain ⟨d, e, -, -, -, h4⟩ := (brun_pos robust ac (fun t ht => by rw [hac t ht]; exact acts_pos h t) s hs).past t ht
  rw [hd t ht, List.append_nil, hac t ht] at e
  subst e
  exact h4 (scan_acts hi hin)

/-- A schedule of the second pass in which every thread makes its last addition before any makes its last two loads. -/
def InStep (ac : Nat → List (Act F)) (s : List Nat) : Prop :=
  ∃ a b, s = a ++ b ∧ ∀ t < width, ac t ≠ [] → (ac t).drop (a.count t) = [.loadTwo, .loadOne]

/-- The two sums of a tile. -/
def sumOne (p : Sorted F) (grid : Int) (k : Tile) : F := ∑ i ∈ (seen k).filter (InTile p grid k), cellSum p k i
def sumTwo (p : Sorted F) (grid : Int) (k : Tile) : F := ∑ i ∈ (seen k).filter (InTile p grid k), cellSum p k i ^ 2

theorem due_flatMap (f : Act F → F) (l : List Nat) (g : Nat → List (Act F)) :
    due f (l.flatMap g) = (l.map fun i => due f (g i)).sum := by
  induction l with
  | nil => simp [due]
  | cons i l ih =>
    rw [List.flatMap_cons, List.map_cons, List.sum_cons, ← ih]
    simp [due]

theorem due_one (p : Sorted F) (grid : Int) (k : Tile) :
    ∑ t ∈ Finset.range width, due Act.toOne (acts p grid k t) = sumOne p grid k := by
  unfold sumOne
  rw [Finset.sum_filter, ← visits_sum]
  refine Finset.sum_congr rfl fun t _ => ?_
  unfold acts
  rw [due_flatMap]
  congr 1
  refine List.map_congr_left fun i _ => ?_
  by_cases hin : InTile p grid k i <;> simp [hin, due, Act.toOne]

theorem due_two (p : Sorted F) (grid : Int) (k : Tile) :
    ∑ t ∈ Finset.range width, due Act.toTwo (acts p grid k t) = sumTwo p grid k := by
  unfold sumTwo
  rw [Finset.sum_filter, ← visits_sum]
  refine Finset.sum_congr rfl fun t _ => ?_
  unfold acts
  rw [due_flatMap]
  congr 1
  refine List.map_congr_left fun i _ => ?_
  by_cases hin : InTile p grid k i <;> simp [hin, due, Act.toTwo, pow_two]

/-- From there on the sums do not change. -/
structure Late (robust : Int) (S1 S2 : F) (ac : Nat → List (Act F)) (s : BSt F) : Prop where
  one : s.sw = S1
  two : s.sw2 = S2
  each : ∀ t < width, (s.todo t = [] ∧ (ac t ≠ [] → s.rob t = robOf robust S2 S1)) ∨
    (s.todo t = [.loadOne] ∧ s.got t = S2) ∨ s.todo t = [.loadTwo, .loadOne]

theorem late_step {robust : Int} {S1 S2 : F} {ac : Nat → List (Act F)} {s : BSt F} {t : Nat} (ht : t < width)
    (h : Late robust S1 S2 ac s) : Late robust S1 S2 ac (bstep robust s t) := by
  rcases h.each t ht with ⟨e, -⟩ | ⟨e, eg⟩ | e
  · have : bstep robust s t = s := by unfold bstep; rw [e]
    rw [this]; exact h
  · have : bstep robust s t = { s with rob := Function.update s.rob t (robOf robust (s.got t) s.sw), todo := Function.update s.todo t [] } := by
      unfold bstep; rw [e]
    rw [this]
    refine ⟨h.one, h.two, fun u hu => ?_⟩
    by_cases eu : u = t
    · subst eu
      refine Or.inl ⟨by simp, fun _ => ?_⟩
      simp only [Function.update_self]
      rw [eg, h.one]
    · simp only [Function.update_of_ne eu]
      exact h.each u hu
  · have : bstep robust s t = { s with got := Function.update s.got t s.sw2, todo := Function.update s.todo t [.loadOne] } := by
      unfold bstep; rw [e]
    rw [this]
    refine ⟨h.one, h.two, fun u hu => ?_⟩
    by_cases eu : u = t
    · subst eu
      refine Or.inr (Or.inl ⟨by simp, ?_⟩)
      simp only [Function.update_self]
      exact h.two
    · simp only [Function.update_of_ne eu]
      exact h.each u hu

theorem rob_exact {p : Sorted F} {grid robust : Int} {k : Tile} (ac : Nat → List (Act F))
    (hac : ∀ t < width, ac t = acts p grid k t) (s : List Nat) (hs : ∀ t ∈ s, t < width)
    (hd : ∀ t < width, (brun robust ac s).todo t = []) (hi : InStep ac s) {t : Nat} (ht : t < width)
    (hne : ac t ≠ []) : (brun robust ac s).rob t = robOf robust (sumTwo p grid k) (sumOne p grid k) := by
  obtain ⟨a, b, rfl, hab⟩ := hi
  have hsum := brun_sum robust ac a fun t ht => hs t (List.mem_append_left _ ht)
  have td : ∀ u < width, ac u ≠ [] → (brun robust ac a).todo u = [.loadTwo, .loadOne] := by
    intro u hu hn
    unfold brun
    rw [foldl_todo]
    exact hab u hu hn
  have tn : ∀ u, ac u = [] → (brun robust ac a).todo u = [] := by
    intro u hn
    unfold brun
    rw [foldl_todo]
    simp [hn]
  have z : ∀ f : Act F → F, f .loadTwo = 0 → f .loadOne = 0 → ∀ u ∈ Finset.range width,
      due f ((brun robust ac a).todo u) = 0 := by
    intro f f1 f2 u hu
    by_cases hn : ac u = []
    · rw [tn u hn]; simp [due]
    · rw [td u (Finset.mem_range.1 hu) hn]; simp [due, f1, f2]
  have h1 := hsum.one
  have h2 := hsum.two
  rw [Finset.sum_eq_zero (z Act.toOne rfl rfl), add_zero] at h1
  rw [Finset.sum_eq_zero (z Act.toTwo rfl rfl), add_zero] at h2
  have c : ∀ f : Act F → F, ∑ t ∈ Finset.range width, due f (ac t) =
      ∑ t ∈ Finset.range width, due f (acts p grid k t) := fun f =>
    Finset.sum_congr rfl fun u hu => by rw [hac u (Finset.mem_range.1 hu)]
  rw [c, due_one] at h1
  rw [c, due_two] at h2
  have hl : Late robust (sumOne p grid k) (sumTwo p grid k) ac (brun robust ac a) := by
    refine ⟨h1, h2, fun u hu => ?_⟩
    by_cases hn : ac u = []
    · exact Or.inl ⟨tn u hn, fun h => absurd hn h⟩
    · exact Or.inr (Or.inr (td u hu hn))
  have e : brun robust ac (a ++ b) = b.foldl (bstep robust) (brun robust ac a) := by
    unfold brun; rw [List.foldl_append]
  have hf : Late robust (sumOne p grid k) (sumTwo p grid k) ac (brun robust ac (a ++ b)) := by
    rw [e]
    exact foldl_inv (Late robust (sumOne p grid k) (sumTwo p grid k) ac) _ b _ hl
      fun s u hu h => late_step (hs u (List.mem_append_right _ hu)) h
  rcases hf.each t ht with ⟨-, g⟩ | ⟨g, -⟩ | g
  · exact g hne
  · rw [hd t ht] at g; cases g
  · rw [hd t ht] at g; cases g

/-- A schedule with given numbers of steps. -/
theorem exists_counts (c : Nat → Nat) : ∀ m, ∃ s : List Nat, (∀ t ∈ s, t < m) ∧ ∀ t < m, s.count t = c t := by
  intro m
  induction m with
  | zero => exact ⟨[], by simp, by simp⟩
  | succ m ih =>
    obtain ⟨s, h1, h2⟩ := ih
    refine ⟨s ++ List.replicate (c m) m, ?_, ?_⟩
    · intro t ht
      rcases List.mem_append.1 ht with h | h
      · have := h1 t h; omega
      · rw [List.eq_of_mem_replicate h]; omega
    · intro t ht
      rw [List.count_append]
      by_cases e : t = m
      · subst e
        rw [List.count_eq_zero.2 fun h => absurd (h1 t h) (lt_irrefl _), List.count_replicate_self, zero_add]
      · rw [h2 t (by omega), List.count_replicate]
        simp [Ne.symm e]

theorem acts_last (p : Sorted F) (grid : Int) (k : Tile) (t : Nat) (h : acts p grid k t ≠ []) :
    ∃ l, acts p grid k t = l ++ [.loadTwo, .loadOne] := by
  unfold acts at h ⊢
  rcases List.eq_nil_or_concat (visits k t) with e | ⟨l, i, e⟩
  · rw [e] at h; exact absurd rfl h
  · rw [e, List.concat_eq_append, List.flatMap_append]
    generalize l.flatMap _ = m
    by_cases hin : InTile p grid k i
    · exact ⟨m ++ [.one (cellSum p k i), .two (cellSum p k i * cellSum p k i)], by simp [hin]⟩
    · exact ⟨m, by simp [hin]⟩

/-- There is a schedule in step that completes the second pass. -/
theorem second_exists (p : Sorted F) (grid robust : Int) (k : Tile) :
    ∃ s : List Nat, (∀ t ∈ s, t < width) ∧ (∀ t < width, (brun robust (acts p grid k) s).todo t = []) ∧
      InStep (acts p grid k) s := by
  obtain ⟨a, a1, a2⟩ := exists_counts (fun t => (acts p grid k t).length - 2) width
  obtain ⟨b, b1, b2⟩ := exists_counts (fun _ => 2) width
  refine ⟨a ++ b, ?_, ?_, a, b, rfl, ?_⟩
  · intro t ht
    rcases List.mem_append.1 ht with h | h
    · exact a1 t h
    · exact b1 t h
  · intro t ht
    unfold brun
    rw [foldl_todo, List.count_append, a2 t ht, b2 t ht]
    exact List.drop_eq_nil_of_le (by show (acts p grid k t).length ≤ _; omega)
  · intro t ht hn
    obtain ⟨l, e⟩ := acts_last p grid k t hn
    rw [a2 t ht, e]
    simp

/-! ## Third pass -/

theorem within_mono {S T : Int → Prop} (h : ∀ x, S x → T x) : ∀ (q : Prog F), q.Within S → q.Within T
  | .done, _ => trivial
  | .fault, _ => trivial
  | .read _ k, hq => ⟨h _ hq.1, fun v => within_mono h (k v) (hq.2 v)⟩
  | .write _ _ k, hq => ⟨h _ hq.1, within_mono h k hq.2⟩

/-- The stores of one thread. -/
theorem store_each {p : Sorted F} {grid : Int} {k : Tile} {n : Nat} (h : Good p k n) (rob : Nat → Option F) (ρ : F)
    (hρ : 0 < ρ) (t : Nat) : ∀ (l : List Nat), (∀ i ∈ l, i ∈ seen k) → (∀ i ∈ l, InTile p grid k i → rob t = some ρ) →
    (storeProg p grid k (cells p grid k) rob t l).Within (fun x : Int => ∃ i ∈ l, InTile p grid k i ∧ x = (i : Int)) ∧
    ∀ a : Arr F, n ≤ a.size → ∃ x, (storeProg p grid k (cells p grid k) rob t l).exec a = some x ∧ x.size = a.size ∧
      ∀ i, x.get i = if i ∈ l ∧ InTile p grid k i then p.weight.get i / (1 + ρ * cellSum p k i) else a.get i := by
  intro l
  induction l with
  | nil => intro _ _; exact ⟨trivial, fun a _ => ⟨a, rfl, rfl, fun i => by simp⟩⟩
  | cons j l ih =>
    intro hs hr
    obtain ⟨w1, w2⟩ := ih (fun i hi => hs i (by simp [hi])) (fun i hi => hr i (by simp [hi]))
    have hj := hs j (by simp)
    have hj' := seen_lt hj
    have w1' : (storeProg p grid k (cells p grid k) rob t l).Within
        (fun x : Int => ∃ i ∈ j :: l, InTile p grid k i ∧ x = (i : Int)) :=
      within_mono (fun x ⟨i, hi, h⟩ => ⟨i, by simp [hi], h⟩) _ w1
    by_cases hin : InTile p grid k j
    · have hc : cellNat p grid k j < (cells p grid k).size := cellNat_lt hin
      have hpos : 0 < 1 + ρ * cellSum p k j := by
        have := mul_pos hρ (cellSum_pos h hj); linarith
      have e : storeProg p grid k (cells p grid k) rob t (j :: l) =
          .write (j : Int) (p.weight.get j / (1 + ρ * cellSum p k j)) (storeProg p grid k (cells p grid k) rob t l) := by
        rw [storeProg, cellOf_eq (lt_of_lt_of_le hj' h.uu) (lt_of_lt_of_le hj' h.vv), if_pos hin]
        simp only [Prog.need]
        rw [rd (lt_of_lt_of_le hj' h.weight), hr j (by simp) hin, rd hc, cells_get hin]
        dsimp only [Prog.need]
        rw [if_neg hpos.ne']
      rw [e]
      refine ⟨⟨⟨j, by simp, hin, rfl⟩, w1'⟩, fun a ha => ?_⟩
      have hja : j < a.size := lt_of_lt_of_le hj' (h.out.trans ha)
      obtain ⟨x, x1, x2, x3⟩ := w2 (a.put j (p.weight.get j / (1 + ρ * cellSum p k j))) ha
      refine ⟨x, ?_, x2, fun i => ?_⟩
      · simp only [Prog.exec]
        rw [Arr.write_nat, if_pos hja]
        exact x1
      · rw [x3 i]
        by_cases hi : i ∈ l ∧ InTile p grid k i
        · rw [if_pos hi, if_pos ⟨by simp [hi.1], hi.2⟩]
        · rw [if_neg hi]
          by_cases eij : i = j
          · subst eij
            rw [if_pos ⟨by simp, hin⟩, Arr.put_get, if_pos rfl]
          · rw [if_neg (by rintro ⟨g1, g2⟩; exact hi ⟨(List.mem_cons.1 g1).resolve_left eij, g2⟩), Arr.put_get, if_neg eij]
    · have e : storeProg p grid k (cells p grid k) rob t (j :: l) = storeProg p grid k (cells p grid k) rob t l := by
        rw [storeProg, cellOf_eq (lt_of_lt_of_le hj' h.uu) (lt_of_lt_of_le hj' h.vv), if_neg hin]
        rfl
      rw [e]
      refine ⟨w1', fun a ha => ?_⟩
      obtain ⟨x, x1, x2, x3⟩ := w2 a ha
      refine ⟨x, x1, x2, fun i => ?_⟩
      rw [x3 i]
      by_cases hi : i ∈ l ∧ InTile p grid k i
      · rw [if_pos hi, if_pos ⟨by simp [hi.1], hi.2⟩]
      · rw [if_neg hi, if_neg]
        rintro ⟨g1, g2⟩
        rcases List.mem_cons.1 g1 with rfl | g1
        · exact hin g2
        · exact hi ⟨g1, g2⟩

/-- Thread of a visibility. -/
def threadOf (k : Tile) (i : Nat) : Nat := (((i : Int) - k.start) % (width : Int)).toNat

theorem threadOf_visits {k : Tile} {t i : Nat} : i ∈ visits k t ↔ i ∈ seen k ∧ threadOf k i = t := by
  rw [mem_visits]
  have h0 : 0 ≤ ((i : Int) - k.start) % (width : Int) := Int.emod_nonneg _ (by unfold width; norm_num)
  unfold threadOf
  constructor
  · rintro ⟨a, b⟩; exact ⟨a, by omega⟩
  · rintro ⟨a, b⟩; exact ⟨a, by omega⟩

theorem threadOf_lt (k : Tile) (i : Nat) : threadOf k i < width := by
  have h1 : ((i : Int) - k.start) % (width : Int) < width := Int.emod_lt_of_pos _ (by unfold width; norm_num)
  have h0 : 0 ≤ ((i : Int) - k.start) % (width : Int) := Int.emod_nonneg _ (by unfold width; norm_num)
  unfold threadOf
  omega

/-- The output of the third pass. -/
def written (p : Sorted F) (grid : Int) (k : Tile) (ρ : Nat → F) (a : Arr F) : Arr F :=
  ⟨a.size, fun i => if i ∈ seen k ∧ InTile p grid k i then
    p.weight.get i / (1 + ρ (threadOf k i) * cellSum p k i) else a.get i⟩

theorem third_pass {p : Sorted F} {grid : Int} {k : Tile} (out : Arr F) (h : Good p k out.size) (rob : Nat → Option F)
    (ρ : Nat → F) (hρ : ∀ t, 0 < ρ t)
    (hr : ∀ t < width, ∀ i ∈ visits k t, InTile p grid k i → rob t = some (ρ t)) :
    Yields (fun t => storeProg p grid k (cells p grid k) rob t (visits k t)) (List.range width) out
      (written p grid k ρ out) := by
  refine yields_each _ (fun (t : Nat) (x : Int) => ∃ i ∈ visits k t, InTile p grid k i ∧ x = (i : Int)) _ ?_ ?_ _ _ rfl ?_ ?_
  · intro t ht
    exact (store_each h rob (ρ t) (hρ t) t _ (fun i hi => (mem_visits.1 hi).1) (hr t (List.mem_range.1 ht))).1
  · rintro t - t' - hne x ⟨i, hi, -, rfl⟩ ⟨j, hj, -, e⟩
    have e' : i = j := by exact_mod_cast e
    subst e'
    rw [threadOf_visits] at hi hj
    exact hne (hi.2.symm.trans hj.2)
  · intro t ht
    obtain ⟨x, x1, -, x3⟩ := (store_each h rob (ρ t) (hρ t) t _ (fun i hi => (mem_visits.1 hi).1)
      (hr t (List.mem_range.1 ht))).2 out le_rfl
    refine ⟨x, x1, ?_⟩
    rintro i ⟨j, hj, hin, e⟩
    have e' : i = j := by exact_mod_cast e
    subst e'
    rw [x3 i, if_pos ⟨hj, hin⟩]
    obtain ⟨g1, g2⟩ := threadOf_visits.1 hj
    simp only [written]
    rw [if_pos ⟨g1, hin⟩, g2]
  · intro i hi
    simp only [written]
    rw [if_neg]
    rintro ⟨g1, g2⟩
    exact hi (threadOf k i) (List.mem_range.2 (threadOf_lt k i)) ⟨i, threadOf_visits.2 ⟨g1, rfl⟩, g2, rfl⟩

/-! ## A block -/

theorem add_done {native : Bool} {ops : Nat → List (Int × F)} {ts : List Nat} {a r : Arr F}
    (h : AddYields native ops ts a r) (hf : ∃ sched : Nat → Nat, (∀ n, sched n ∈ ts) ∧ ∀ t ∈ ts, ∀ n, ∃ m, n ≤ m ∧ sched m = t) :
    ∃ s st, (∀ t ∈ s, t ∈ ts) ∧ arun native ⟨a, ops, fun _ => none⟩ s = some st ∧ (∀ t ∈ ts, st.todo t = []) ∧ st.mem = r := by
  obtain ⟨sched, h1, h2⟩ := hf
  obtain ⟨N, hN⟩ := h.2 sched h1 h2
  obtain ⟨st, e1, e2, e3⟩ := hN N le_rfl
  refine ⟨_, st, ?_, e1, e2, e3⟩
  intro t ht
  obtain ⟨n, -, rfl⟩ := List.mem_map.1 ht
  exact h1 n

theorem fair_mod (w : Nat) (hw : 0 < w) : ∃ sched : Nat → Nat, (∀ n, sched n ∈ List.range w) ∧
    ∀ t ∈ List.range w, ∀ n, ∃ m, n ≤ m ∧ sched m = t := by
  refine ⟨fun n => n % w, fun n => List.mem_range.2 (Nat.mod_lt _ hw), fun t ht n => ⟨t + w * n, ?_, ?_⟩⟩
  · have : n ≤ w * n := Nat.le_mul_of_pos_left n hw
    omega
  · dsimp only
    rw [Nat.add_mul_mod_self_left]
    exact Nat.mod_eq_of_lt (List.mem_range.1 ht)

/-- What every execution of a block does. -/
theorem block_run {Ok : (Nat → List (Act F)) → List Nat → Prop} {p : Sorted F} {grid robust : Int} {b : Nat} {k : Tile}
    (out : Arr F) (hk : tileOf p grid b = some k) (h : Good p k out.size) {o : Arr F}
    (hrun : BlockRun Ok p grid robust b out o) :
    ∃ (ac : Nat → List (Act F)) (s : List Nat), (∀ t < width, ac t = acts p grid k t) ∧ (∀ t ∈ s, t < width) ∧
      (∀ t < width, (brun robust ac s).todo t = []) ∧ Ok ac s ∧
      ∀ ρ : Nat → F, (∀ t, 0 < ρ t) →
        (∀ t < width, ∀ i ∈ visits k t, InTile p grid k i → (brun robust ac s).rob t = some (ρ t)) →
        o = written p grid k ρ out := by
  obtain ⟨k', hk', ads, s1, st1, a1, a2, a3, a4, ac, s2, b1, b2, b3, b4, s3, st3, c1, c2, c3, rfl⟩ := hrun
  rw [hk] at hk'
  cases hk'
  have eads : ∀ t < width, ads t = adds p grid k t := fun t ht => by
    have := a1 t ht
    rw [addsOf_ok h] at this
    exact (Option.some.inj this).symm
  have hy := first_pass p grid k ads eads
  obtain ⟨st, e1, e2⟩ := hy.1 s1 fun t ht => List.mem_range.2 (a2 t ht)
  rw [a3] at e1
  cases e1
  have hm := e2 fun t ht => a4 t (List.mem_range.1 ht)
  refine ⟨ac, s2, fun t ht => ?_, b2, b3, b4, fun ρ hρ hr => ?_⟩
  · have := b1 t ht
    rw [hm, actsOf_ok h] at this
    exact (Option.some.inj this).symm
  · rw [hm] at c2
    obtain ⟨st, e1, e2⟩ := (third_pass out h _ ρ hρ hr).1 s3 fun t ht => List.mem_range.2 (c1 t ht)
    rw [c2] at e1
    cases e1
    exact e2 fun t ht => c3 t (List.mem_range.1 ht)

/-- Every complete schedule of the second pass belongs to an execution of the block. -/
theorem block_exists {Ok : (Nat → List (Act F)) → List Nat → Prop} {p : Sorted F} {grid robust : Int} {b : Nat} {k : Tile}
    (out : Arr F) (hk : tileOf p grid b = some k) (h : Good p k out.size) (s : List Nat) (hs : ∀ t ∈ s, t < width)
    (hd : ∀ t < width, (brun robust (acts p grid k) s).todo t = []) (hok : Ok (acts p grid k) s) (ρ : Nat → F)
    (hρ : ∀ t, 0 < ρ t)
    (hr : ∀ t < width, ∀ i ∈ visits k t, InTile p grid k i → (brun robust (acts p grid k) s).rob t = some (ρ t)) :
    BlockRun Ok p grid robust b out (written p grid k ρ out) := by
  obtain ⟨s1, st1, a1, a2, a3, a4⟩ := add_done (first_pass p grid k _ fun _ _ => rfl) (fair_mod width (by decide))
  obtain ⟨sched, f1, f2⟩ := fair_mod width (by decide)
  obtain ⟨N, hN⟩ := (third_pass out h _ ρ hρ hr).2 sched f1 f2
  obtain ⟨st3, c1, c2, c3⟩ := hN N le_rfl
  rw [runN_eq] at c1
  refine ⟨k, hk, adds p grid k, s1, st1, fun t _ => addsOf_ok h t, fun t ht => List.mem_range.1 (a1 t ht), a2,
    fun t ht => a3 t (List.mem_range.2 ht), acts p grid k, s, fun t _ => by rw [a4]; exact actsOf_ok h t, hs, hd, hok,
    (List.range N).map sched, st3, ?_, by rw [a4]; exact c1, fun t ht => c2 t (List.mem_range.2 ht), c3.symm⟩
  intro t ht
  obtain ⟨n, -, rfl⟩ := List.mem_map.1 ht
  exact List.mem_range.1 (f1 n)

theorem rob_choice {p : Sorted F} {grid robust : Int} {k : Tile} {n : Nat} (h : Good p k n) (ac : Nat → List (Act F))
    (hac : ∀ t < width, ac t = acts p grid k t) (s : List Nat) (hs : ∀ t ∈ s, t < width)
    (hd : ∀ t < width, (brun robust ac s).todo t = []) :
    ∃ ρ : Nat → F, (∀ t, 0 < ρ t) ∧
      ∀ t < width, ∀ i ∈ visits k t, InTile p grid k i → (brun robust ac s).rob t = some (ρ t) := by
  classical
  refine ⟨fun t => if hq : ∃ ρ, 0 < ρ ∧ (brun robust ac s).rob t = some ρ then hq.choose else 1, fun t => ?_, ?_⟩
  · by_cases hq : ∃ ρ, 0 < ρ ∧ (brun robust ac s).rob t = some ρ
    · simp only [dif_pos hq]; exact hq.choose_spec.1
    · simp only [dif_neg hq]; exact one_pos
  · intro t ht i hi hin
    have hq := rob_pos h ac hac s hs hd ht hi hin
    simp only [dif_pos hq]
    exact hq.choose_spec.2

/-! ## The property -/

/-- **C95, grid points.**  The grid point of a visibility is the nearest; halves go away from zero. -/
theorem C95_nearest (x : F) : |(roundC x : F) - x| ≤ 1 / 2 ∧ (|(roundC x : F) - x| = 1 / 2 → |x| < |(roundC x : F)|) := by
  unfold roundC
  by_cases h : 0 ≤ x
  · rw [if_pos h]
    have h1 := Int.floor_le (x + 1 / 2)
    have h2 := Int.lt_floor_add_one (x + 1 / 2)
    refine ⟨abs_le.2 ⟨by linarith, by linarith⟩, fun e => ?_⟩
    rcases (abs_eq (by norm_num)).1 e with e | e
    · have : (⌊x + 1 / 2⌋ : F) = x + 1 / 2 := by linarith
      rw [this, abs_of_nonneg h, abs_of_nonneg (by linarith)]
      linarith
    · linarith
  · rw [if_neg h]
    push Not at h
    have h1 := Int.le_ceil (x - 1 / 2)
    have h2 := Int.ceil_lt_add_one (x - 1 / 2)
    refine ⟨abs_le.2 ⟨by linarith, by linarith⟩, fun e => ?_⟩
    rcases (abs_eq (by norm_num)).1 e with e | e
    · linarith
    · have : (⌈x - 1 / 2⌉ : F) = x - 1 / 2 := by linarith
      rw [this, abs_of_neg h, abs_of_neg (by linarith)]
      linarith

/-- **C95, which visibilities belong to a tile.**  The tile of a block is that of the first visibility in it: where it
starts and how many there are is in the offsets, and a visibility is in the tile exactly if the tile in which counting and
sorting put it (support 0) has the column and the row in that first entry. -/
theorem C95_tile (p : Sorted F) (grid : Int) (hg : 0 ≤ grid) (b : Nat) (k : Tile) (hk : tileOf p grid b = some k) :
    k.start = p.offsets.get b ∧ k.start + k.total = p.offsets.get (b + 1) ∧ 0 ≤ k.total ∧
    ∀ i, InTile p grid k i ↔
      let T : Tiles.Tiling := ⟨grid, 32, 16, 0⟩
      let r := T.rangesGpu ((place p i).1 + T.centre) ((place p i).2 + T.centre)
      r.1 = p.tile.get k.start.toNat % 32768 ∧ r.2.2.1 = p.tile.get k.start.toNat / 32768 := by
  unfold tileOf at hk
  obtain ⟨s, h1, hk⟩ := Option.bind_eq_some_iff.1 hk
  obtain ⟨e, h2, hk⟩ := Option.bind_eq_some_iff.1 hk
  obtain ⟨t, h3, hk⟩ := Option.bind_eq_some_iff.1 hk
  by_cases hlt : e < s
  · rw [if_pos hlt] at hk; cases hk
  rw [if_neg hlt] at hk
  cases hk
  have e1 : s = p.offsets.get b := by
    rw [Arr.read_nat] at h1
    by_cases hb : b < p.offsets.size
    · rw [if_pos hb] at h1; exact (Option.some.inj h1).symm
    · rw [if_neg hb] at h1; cases h1
  have e2 : e = p.offsets.get (b + 1) := by
    rw [Arr.read_nat] at h2
    by_cases hb : b + 1 < p.offsets.size
    · rw [if_pos hb] at h2; exact (Option.some.inj h2).symm
    · rw [if_neg hb] at h2; cases h2
  have e3 : t = p.tile.get s.toNat := by
    exact (Arr.read_some h3).2.2
  refine ⟨e1, by dsimp only; omega, by dsimp only; omega, fun i => ?_⟩
  dsimp only
  rw [← e3]
  have hc : centre grid = grid / 2 := by
    unfold centre
    rw [Int.tdiv_eq_ediv_of_nonneg hg]
  have hc0 : 0 ≤ grid / 2 := by omega
  simp only [Tiles.Tiling.rangesGpu, Tiles.Tiling.floorDiv, Tiles.Tiling.topU, Tiles.Tiling.topV, Tiles.Tiling.centre, InTile,
    topU, topV, hc]
  rw [Int.tdiv_eq_ediv_of_nonneg hc0, Int.tdiv_eq_ediv_of_nonneg hc0]
  generalize t % 32768 = ku
  generalize t / 32768 = kv
  omega

/-- **C95, every schedule (part).**  Every execution of a block, whatever the order of the steps of its threads, gives
every visibility that it sees and that is in the tile its weight divided by one plus a positive multiple of the weight on
its grid point, and changes nothing else; and there is such an execution.  Missing: that the multiple is that of Briggs
weighting; it is not, see `C95_race_false`; and the visibilities that a block does not see, see `C95_rest_false`. -/
theorem C95_block_partial (p : Sorted F) (grid robust : Int) (b : Nat) (k : Tile) (out : Arr F)
    (hk : tileOf p grid b = some k) (h : Good p k out.size) :
    (∃ o, BlockRun (fun _ _ => True) p grid robust b out o) ∧
    ∀ o, BlockRun (fun _ _ => True) p grid robust b out o → o.size = out.size ∧
      ∃ ρ : Nat → F, (∀ t, 0 < ρ t) ∧ ∀ i, o.get i =
        if i ∈ seen k ∧ InTile p grid k i then p.weight.get i / (1 + ρ ((i - k.start.toNat) % 512) * cellSum p k i)
        else out.get i := by
  constructor
  · obtain ⟨s, s1, s2, -⟩ := second_exists p grid robust k
    obtain ⟨ρ, r1, r2⟩ := rob_choice h _ (fun _ _ => rfl) s s1 s2
    exact ⟨_, block_exists out hk h s s1 s2 trivial ρ r1 r2⟩
  · intro o ho
    obtain ⟨ac, s, a1, a2, a3, -, a4⟩ := block_run out hk h ho
    obtain ⟨ρ, r1, r2⟩ := rob_choice h ac a1 s a2 a3
    rw [a4 ρ r1 r2]
    refine ⟨rfl, ρ, r1, fun i => ?_⟩
    simp only [written]
    by_cases hi : i ∈ seen k ∧ InTile p grid k i
    · rw [if_pos hi, if_pos hi]
      have e : threadOf k i = (i - k.start.toNat) % 512 := by
        have h1 : k.start ≤ (i : Int) := by
          have := hi.1
          simp only [seen, Finset.mem_filter] at this
          exact this.2
        have h2 : 0 ≤ k.start := by
          unfold tileOf at hk
          obtain ⟨s, -, hk⟩ := Option.bind_eq_some_iff.1 hk
          obtain ⟨e, -, hk⟩ := Option.bind_eq_some_iff.1 hk
          obtain ⟨t, h3, hk⟩ := Option.bind_eq_some_iff.1 hk
          by_cases hlt : e < s
          · rw [if_pos hlt] at hk; cases hk
          · rw [if_neg hlt] at hk
            cases hk
            exact (Arr.read_some h3).1
        unfold threadOf width
        omega
      rw [e]
    · rw [if_neg hi, if_neg hi]

/-- **C95, threads in step (part).**  If every thread has made its last addition before any makes its last loads, the
multiple is that of Briggs weighting for the tile: (5 / 10 ^ robust) ^ 2 over the ratio of the sums of squared weights and
of weights; and there is such an execution. -/
theorem C95_step_partial (p : Sorted F) (grid robust : Int) (b : Nat) (k : Tile) (out : Arr F)
    (hk : tileOf p grid b = some k) (h : Good p k out.size) :
    (∃ o, BlockRun InStep p grid robust b out o) ∧
    ∀ o, BlockRun InStep p grid robust b out o → o.size = out.size ∧ ∀ i, o.get i =
        if i ∈ seen k ∧ InTile p grid k i then
          p.weight.get i / (1 + (5 / (10 : F) ^ robust) ^ 2 /
            ((∑ j ∈ (seen k).filter (InTile p grid k), cellSum p k j ^ 2) /
              ∑ j ∈ (seen k).filter (InTile p grid k), cellSum p k j) * cellSum p k i)
        else out.get i := by
  have key : ∃ ρ : F, 0 < ρ ∧ (∀ i, i ∈ seen k → InTile p grid k i → robOf robust (sumTwo p grid k) (sumOne p grid k) = some ρ ∧
      ρ = (5 / (10 : F) ^ robust) ^ 2 / (sumTwo p grid k / sumOne p grid k)) := by
    by_cases hex : ∃ i, i ∈ seen k ∧ InTile p grid k i
    · obtain ⟨i, hi, hin⟩ := hex
      have hm : ((seen k).filter (InTile p grid k)).Nonempty := ⟨i, by simp [hi, hin]⟩
      have p1 : 0 < sumOne p grid k := Finset.sum_pos (fun j hj => cellSum_pos h (Finset.mem_filter.1 hj).1) hm
      have p2 : 0 < sumTwo p grid k :=
        Finset.sum_pos (fun j hj => pow_pos (cellSum_pos h (Finset.mem_filter.1 hj).1) 2) hm
      obtain ⟨ρ, r1, r2⟩ := robOf_pos robust p2 p1
      refine ⟨ρ, r1, fun _ _ _ => ⟨r2, ?_⟩⟩
      unfold robOf at r2
      rw [if_neg (by push Not; exact ⟨p1.ne', p2.ne'⟩)] at r2
      rw [← Option.some.inj r2, mul_one]
    · exact ⟨1, one_pos, fun i hi hin => absurd ⟨i, hi, hin⟩ hex⟩
  obtain ⟨ρ, r1, r2⟩ := key
  have rob : ∀ (ac : Nat → List (Act F)) (s : List Nat), (∀ t < width, ac t = acts p grid k t) → (∀ t ∈ s, t < width) →
      (∀ t < width, (brun robust ac s).todo t = []) → InStep ac s →
      ∀ t < width, ∀ i ∈ visits k t, InTile p grid k i → (brun robust ac s).rob t = some ρ := by
    intro ac s a1 a2 a3 a4 t ht i hi hin
    have hne : ac t ≠ [] := by
      rw [a1 t ht]
      intro e
      have := scan_acts (p := p) (grid := grid) hi hin
      rw [e] at this
      exact absurd this (by simp [scan])
    rw [rob_exact ac a1 s a2 a3 a4 ht hne]
    exact (r2 i (mem_visits.1 hi).1 hin).1
  constructor
  · obtain ⟨s, s1, s2, s3⟩ := second_exists p grid robust k
    exact ⟨_, block_exists out hk h s s1 s2 s3 (fun _ => ρ) (fun _ => r1) (rob _ s (fun _ _ => rfl) s1 s2 s3)⟩
  · intro o ho
    obtain ⟨ac, s, a1, a2, a3, a4, a5⟩ := block_run out hk h ho
    rw [a5 (fun _ => ρ) (fun _ => r1) (rob ac s a1 a2 a3 a4)]
    refine ⟨rfl, fun i => ?_⟩
    simp only [written]
    by_cases hi : i ∈ seen k ∧ InTile p grid k i
    · rw [if_pos hi, if_pos hi, (r2 i hi.1 hi.2).2]
      rfl
    · rw [if_neg hi, if_neg hi]

end
end Sdp.OptWeighting
