import Verif.OptWeighting.Indexed
import Verif.OptWeighting.False

set_option linter.unusedSectionVars false

/-!
# C99: the indexed variant of the optimised Briggs weighting, for every schedule
-/

namespace Sdp.OptWeighting
open Sdp.Race

section
variable {F : Type} [Field F] [LinearOrder F] [IsStrictOrderedRing F] [FloorRing F]

/-! ## What the property speaks of -/

/-- The visibility at place `i` of the sorted arrays. -/
def visAt (q : Indexed F) (i : Nat) : Nat := (q.index.get i).toNat

/-- Weight of all visibilities seen that fall on the grid point of the one at place `i`. -/
def onPoint (q : Indexed F) (k : Tile) (i : Nat) : F :=
  ∑ j ∈ (seen k).filter (fun j => place q.p j = place q.p i), q.p.weight.get (visAt q j)

/-- The arrays are large enough, the index is one of visibilities, each at one place, and their weights are positive. -/
structure GoodIndex (q : Indexed F) (k : Tile) (n : Nat) : Prop where
  uu : k.total.toNat ≤ q.p.uu.size
  vv : k.total.toNat ≤ q.p.vv.size
  index : k.total.toNat ≤ q.index.size
  nonneg : ∀ i ∈ seen k, 0 ≤ q.index.get i
  weight : ∀ i ∈ seen k, visAt q i < q.p.weight.size
  out : ∀ i ∈ seen k, visAt q i < n
  once : ∀ i ∈ seen k, ∀ j ∈ seen k, visAt q i = visAt q j → i = j
  positive : ∀ i ∈ seen k, 0 < q.p.weight.get (visAt q i)

/-- A schedule of the second pass in which every thread makes its last addition before any makes its last two loads. -/
def InStepI (mv : Nat → List Move) (s : List Nat) : Prop :=
  ∃ a b, s = a ++ b ∧ ∀ t < width, mv t ≠ [] → (mv t).drop (a.count t) = [.loadTwo, .loadOne]

/-! ## First pass -/

/-- The weights in the order of the sorted arrays. -/
def gathered (q : Indexed F) (k : Tile) : Sorted F :=
  { q.p with weight := ⟨k.total.toNat, fun i => q.p.weight.get (visAt q i)⟩ }

theorem gathered_good {q : Indexed F} {k : Tile} {n : Nat} (h : GoodIndex q k n) :
    Good (gathered q k) k k.total.toNat :=
  ⟨h.uu, h.vv, le_rfl, le_rfl, h.positive⟩

theorem index_read {q : Indexed F} {k : Tile} {n i : Nat} (h : GoodIndex q k n) (hi : i ∈ seen k) :
    q.index.read (i : Int) = some ((visAt q i : Nat) : Int) := by
  rw [rd (lt_of_lt_of_le (seen_lt hi) h.index)]
  have := h.nonneg i hi
  unfold visAt
  rw [Int.toNat_of_nonneg this]

theorem cellOf_seen {q : Indexed F} {grid : Int} {k : Tile} {n i : Nat} (h : GoodIndex q k n) (hi : i ∈ seen k) :
    cellOf q.p grid k i = some (if InTile q.p grid k i then some (cellNat q.p grid k i) else none) :=
  cellOf_eq (lt_of_lt_of_le (seen_lt hi) h.uu) (lt_of_lt_of_le (seen_lt hi) h.vv)

theorem indexAdds_ok {q : Indexed F} {grid : Int} {k : Tile} {n : Nat} (h : GoodIndex q k n) (t : Nat) :
    indexAdds q grid k t = some (adds (gathered q k) grid k t) := by
  unfold indexAdds adds
  rw [loop_snoc _ (fun i => if InTile (gathered q k) grid k i then
    [((cellNat (gathered q k) grid k i : Int), (gathered q k).weight.get i)] else [])]
  · simp
  · intro i hi l
    have hi' := (mem_visits.1 hi).1
    rw [index_read h hi', Option.bind_some, cellOf_seen h hi', Option.bind_some]
    by_cases hin : InTile q.p grid k i
    · have hin' : InTile (gathered q k) grid k i := hin
      simp only [if_pos hin, if_pos hin']
      rw [rd (h.weight i hi')]
      rfl
    · have hin' : ¬ InTile (gathered q k) grid k i := hin
      simp only [if_neg hin, if_neg hin', List.append_nil]

/-! ## Second pass -/

def movesAt (q : Indexed F) (grid : Int) (k : Tile) (i : Nat) : List Move :=
  if InTile q.p grid k i then
    [.loadX (cellNat q.p grid k i), .addX, .loadY (cellNat q.p grid k i), .loadZ (cellNat q.p grid k i), .addYZ,
      .loadTwo, .loadOne]
  else [.loadTwo, .loadOne]

def moves (q : Indexed F) (grid : Int) (k : Tile) (t : Nat) : List Move := (visits k t).flatMap (movesAt q grid k)

theorem movesOf_ok {q : Indexed F} {grid : Int} {k : Tile} {n : Nat} (h : GoodIndex q k n) (t : Nat) :
    movesOf q grid k t = some (moves q grid k t) := by
  unfold movesOf moves
  rw [loop_snoc _ (movesAt q grid k)]
  · simp
  · intro i hi l
    have hi' := (mem_visits.1 hi).1
    rw [cellOf_seen h hi', Option.bind_some]
    unfold movesAt
    by_cases hin : InTile q.p grid k i
    · simp only [if_pos hin, if_pos (cellNat_lt hin)]
    · simp only [if_neg hin]

/-- What a thread has done of its second pass. -/
structure Past where
  x : Bool
  y : Bool
  z : Bool
  s : Bool
  g : Bool
  r : Bool

def mark (f : Past) : Move → Past
  | .loadX _ => { f with x := true }
  | .addX => { f with s := f.s || f.x }
  | .loadY _ => { f with y := true }
  | .loadZ _ => { f with z := true }
  | .addYZ => { f with s := f.s || (f.y && f.z) }
  | .loadTwo => { f with g := f.s }
  | .loadOne => { f with r := f.g }

def marks (l : List Move) : Past := l.foldl mark ⟨false, false, false, false, false, false⟩

theorem marks_snoc (l : List Move) (a : Move) : marks (l ++ [a]) = mark (marks l) a := by simp [marks]

/-- The cells that are loaded hold something positive. -/
def Move.Ok (base : Nat → F) : Move → Prop
  | .loadX c => 0 < base c
  | .loadY c => 0 < base c
  | .loadZ c => 0 < base c
  | _ => True

/-- `(5 / 10 ^ robust) ^ 2`. -/
def numer (robust : Int) : F := (5 / (10 : F) ^ robust) ^ 2

theorem numer_pos (robust : Int) : (0 : F) < numer robust := by
  have h10 : (0 : F) < (10 : F) ^ robust := zpow_pos (by norm_num) _
  exact pow_pos (div_pos (by norm_num) h10) 2

structure Known (robust : Int) (st : ISt F) (t : Nat) (f : Past) : Prop where
  x : f.x = true → 0 < st.x t
  y : f.y = true → 0 < st.y t
  z : f.z = true → 0 < st.z t
  s : f.s = true → 0 < st.mem 0
  g : f.g = true → 0 < st.got t ∧ st.got t ≤ st.mem 0
  r : f.r = true → ∃ ρ, numer robust ≤ ρ ∧ st.rob t = some ρ

structure IInv (robust : Int) (base : Nat → F) (mv : Nat → List Move) (s : ISt F) : Prop where
  low : ∀ c, base c ≤ s.mem c
  same : ∀ c, c ≠ 0 → s.mem c = base c
  nx : ∀ t, 0 ≤ s.x t
  ny : ∀ t, 0 ≤ s.y t
  nz : ∀ t, 0 ≤ s.z t
  past : ∀ t < width, ∃ done, done ++ s.todo t = mv t ∧ Known robust s t (marks done)

theorem robOf_ge (robust : Int) {a b : F} (ha : 0 < a) (hb : a ≤ b) :
    ∃ ρ, numer robust ≤ ρ ∧ robOf robust a b = some ρ := by
  have hb0 : 0 < b := ha.trans_le hb
  refine ⟨_, ?_, by unfold robOf; rw [if_neg (by push Not; exact ⟨hb0.ne', ha.ne'⟩)]⟩
  have e : (5 * 1 / (10 : F) ^ robust) ^ 2 = numer robust := by rw [mul_one]; rfl
  rw [e]
  exact le_div_self (numer_pos robust).le (div_pos ha hb0) ((div_le_one hb0).2 hb)

theorem iinv_step {robust : Int} {base : Nat → F} {mv : Nat → List Move} {s : ISt F} {t : Nat} (htw : t < width)
    (hbase : ∀ c, 0 ≤ base c) (hmv : ∀ t < width, ∀ a ∈ mv t, a.Ok base) (h : IInv robust base mv s) :
    IInv robust base mv (istep robust s t) := by
  obtain ⟨dt, et, ht⟩ := h.past t htw
  have lift : ∀ (s' : ISt F) (a : Move) (rest : List Move), s.todo t = a :: rest →
      s'.todo = Function.update s.todo t rest → (∀ c, c ≠ 0 → s'.mem c = s.mem c) → s.mem 0 ≤ s'.mem 0 →
      (∀ u, u ≠ t → s'.x u = s.x u ∧ s'.y u = s.y u ∧ s'.z u = s.z u ∧ s'.got u = s.got u ∧ s'.rob u = s.rob u) →
      0 ≤ s'.x t → 0 ≤ s'.y t → 0 ≤ s'.z t → Known robust s' t (mark (marks dt) a) → IInv robust base mv s' := by
    intro s' a rest e hto h1 h2 h3 hx hy hz h5
    refine ⟨fun c => ?_, fun c hc => by rw [h1 c hc, h.same c hc], ?_, ?_, ?_, fun u huw => ?_⟩
    · by_cases hc : c = 0
      · subst hc; exact (h.low 0).trans h2
      · rw [h1 c hc]; exact h.low c
    · intro u
      by_cases eu : u = t
      · rw [eu]; exact hx
      · rw [(h3 u eu).1]; exact h.nx u
    · intro u
      by_cases eu : u = t
      · rw [eu]; exact hy
      · rw [(h3 u eu).2.1]; exact h.ny u
    · intro u
      by_cases eu : u = t
      · rw [eu]; exact hz
      · rw [(h3 u eu).2.2.1]; exact h.nz u
    · by_cases eu : u = t
      · subst eu
        refine ⟨dt ++ [a], ?_, ?_⟩
        · rw [hto, Function.update_self, List.append_assoc, ← et, e]; rfl
        · rw [marks_snoc]; exact h5
      · obtain ⟨d, ed, g⟩ := h.past u huw
        obtain ⟨q1, q2, q3, q4, q5⟩ := h3 u eu
        refine ⟨d, by rw [hto, Function.update_of_ne eu]; exact ed, ?_⟩
        exact ⟨fun f => by rw [q1]; exact g.x f, fun f => by rw [q2]; exact g.y f, fun f => by rw [q3]; exact g.z f,
          fun f => (g.s f).trans_le h2, fun f => by rw [q4]; exact ⟨(g.g f).1, (g.g f).2.trans h2⟩,
          fun f => by rw [q5]; exact g.r f⟩
  have mem : ∀ a rest, s.todo t = a :: rest → a ∈ mv t := fun a rest e => by rw [← et, e]; simp
  have others : ∀ (f : Nat → F) (v : F) (u : Nat), u ≠ t → Function.update f t v u = f u := fun f v u hu =>
    Function.update_of_ne hu _ _
  have m0 : 0 ≤ s.mem 0 := (hbase 0).trans (h.low 0)
  have pos : ∀ c, 0 < base c → 0 < s.mem c := fun c hc => hc.trans_le (h.low c)
  unfold istep
  split
  · exact h
  · next c rest e =>
    have hc : 0 < s.mem c := pos c (hmv t htw _ (mem _ _ e))
    refine lift _ _ rest e rfl (fun _ _ => rfl) le_rfl
      (fun u hu => ⟨others _ _ u hu, rfl, rfl, rfl, rfl⟩) ?_ (h.ny t) (h.nz t) ?_
    · dsimp only; rw [Function.update_self]; exact hc.le
    · exact ⟨fun _ => by dsimp only; rw [Function.update_self]; exact hc, ht.y, ht.z, ht.s, ht.g, ht.r⟩
  · next rest e =>
    refine lift _ _ rest e rfl (fun c hc => Function.update_of_ne hc _ _) ?_
      (fun u hu => ⟨rfl, rfl, rfl, rfl, rfl⟩) (h.nx t) (h.ny t) (h.nz t) ?_
    · dsimp only; rw [Function.update_self]; exact le_add_of_nonneg_right (h.nx t)
    · refine ⟨ht.x, ht.y, ht.z, fun f => ?_, fun f => ⟨(ht.g f).1, ?_⟩, ht.r⟩
      · dsimp only; rw [Function.update_self]
        simp only [mark, Bool.or_eq_true] at f
        rcases f with f | f
        · exact add_pos_of_pos_of_nonneg (ht.s f) (h.nx t)
        · exact add_pos_of_nonneg_of_pos m0 (ht.x f)
      · dsimp only; rw [Function.update_self]
        exact (ht.g f).2.trans (le_add_of_nonneg_right (h.nx t))
  · next c rest e =>
    have hc : 0 < s.mem c := pos c (hmv t htw _ (mem _ _ e))
    refine lift _ _ rest e rfl (fun _ _ => rfl) le_rfl
      (fun u hu => ⟨rfl, others _ _ u hu, rfl, rfl, rfl⟩) (h.nx t) ?_ (h.nz t) ?_
    · dsimp only; rw [Function.update_self]; exact hc.le
    · exact ⟨ht.x, fun _ => by dsimp only; rw [Function.update_self]; exact hc, ht.z, ht.s, ht.g, ht.r⟩
  · next c rest e =>
    have hc : 0 < s.mem c := pos c (hmv t htw _ (mem _ _ e))
    refine lift _ _ rest e rfl (fun _ _ => rfl) le_rfl
      (fun u hu => ⟨rfl, rfl, others _ _ u hu, rfl, rfl⟩) (h.nx t) (h.ny t) ?_ ?_
    · dsimp only; rw [Function.update_self]; exact hc.le
    · exact ⟨ht.x, ht.y, fun _ => by dsimp only; rw [Function.update_self]; exact hc, ht.s, ht.g, ht.r⟩
  · next rest e =>
    have hyz : 0 ≤ s.y t * s.z t := mul_nonneg (h.ny t) (h.nz t)
    refine lift _ _ rest e rfl (fun c hc => Function.update_of_ne hc _ _) ?_
      (fun u hu => ⟨rfl, rfl, rfl, rfl, rfl⟩) (h.nx t) (h.ny t) (h.nz t) ?_
    · dsimp only; rw [Function.update_self]; exact le_add_of_nonneg_right hyz
    · refine ⟨ht.x, ht.y, ht.z, fun f => ?_, fun f => ⟨(ht.g f).1, ?_⟩, ht.r⟩
      · dsimp only; rw [Function.update_self]
        simp only [mark, Bool.or_eq_true, Bool.and_eq_true] at f
        rcases f with f | f
        · exact add_pos_of_pos_of_nonneg (ht.s f) hyz
        · exact add_pos_of_nonneg_of_pos m0 (mul_pos (ht.y f.1) (ht.z f.2))
      · dsimp only; rw [Function.update_self]
        exact (ht.g f).2.trans (le_add_of_nonneg_right hyz)
  · next rest e =>
    refine lift _ _ rest e rfl (fun _ _ => rfl) le_rfl
      (fun u hu => ⟨rfl, rfl, rfl, others _ _ u hu, rfl⟩) (h.nx t) (h.ny t) (h.nz t) ?_
    exact ⟨ht.x, ht.y, ht.z, ht.s, fun f => by dsimp only; rw [Function.update_self]; exact ⟨ht.s f, le_rfl⟩, ht.r⟩
  · next rest e =>
    refine lift _ _ rest e rfl (fun _ _ => rfl) le_rfl
      (fun u hu => ⟨rfl, rfl, rfl, rfl, Function.update_of_ne hu _ _⟩) (h.nx t) (h.ny t) (h.nz t) ?_
    refine ⟨ht.x, ht.y, ht.z, ht.s, ht.g, fun f => ?_⟩
    dsimp only; rw [Function.update_self]
    obtain ⟨g1, g2⟩ := ht.g f
    exact robOf_ge robust g1 g2

theorem irun_inv (robust : Int) (base : Nat → F) (mv : Nat → List Move) (hbase : ∀ c, 0 ≤ base c)
    (hmv : ∀ t < width, ∀ a ∈ mv t, a.Ok base) (l : List Nat) (hl : ∀ t ∈ l, t < width) :
    IInv robust base mv (irun robust base mv l) := by
  refine foldl_inv (IInv robust base mv) _ l _ ?_ fun s t ht h => iinv_step (hl t ht) hbase hmv h
  refine ⟨fun _ => le_rfl, fun _ _ => rfl, fun _ => le_rfl, fun _ => le_rfl, fun _ => le_rfl, fun t _ => ⟨[], by simp, ?_⟩⟩
  exact ⟨by simp [marks], by simp [marks], by simp [marks], by simp [marks], by simp [marks], by simp [marks]⟩

theorem istep_todo (robust : Int) (s : ISt F) (t u : Nat) :
    (istep robust s t).todo u = if u = t then (s.todo t).drop 1 else s.todo u := by
  unfold istep
  by_cases e : u = t
  · subst e
    rw [if_pos rfl]
    split <;> simp_all
  · rw [if_neg e]
    split <;> simp [Function.update_of_ne e]

theorem ifoldl_todo (robust : Int) (l : List Nat) (u : Nat) : ∀ s : ISt F,
    (l.foldl (istep robust) s).todo u = (s.todo u).drop (l.count u) := by
  induction l with
  | nil => intro s; simp
  | cons t l ih =>
    intro s
    rw [List.foldl_cons, ih, istep_todo]
    by_cases e : u = t
    · subst e
      rw [if_pos rfl, List.count_cons_self, List.drop_drop]
      congr 1; omega
    · rw [if_neg e, List.count_cons_of_ne (Ne.symm e)]

/-- A thread with a visibility of the tile has computed `robustness` after adding. -/
theorem marks_moves {q : Indexed F} {grid : Int} {k : Tile} {t i : Nat} (hi : i ∈ visits k t)
    (hin : InTile q.p grid k i) : (marks (moves q grid k t)).r = true := by
  unfold moves marks
  generalize visits k t = l at hi
  have all : ∀ (l : List Nat) (f : Past), f.s = true → f.r = true →
      ((l.flatMap (movesAt q grid k)).foldl mark f).r = true ∧ True := by
    intro l
    induction l with
    | nil => intro f _ h; exact ⟨h, trivial⟩
    | cons j l ih =>
      intro f h1 h2
      rw [List.flatMap_cons, List.foldl_append]
      unfold movesAt
      by_cases hj : InTile q.p grid k j
      · rw [if_pos hj]
        refine ih _ ?_ ?_ <;> simp [mark]
      · rw [if_neg hj]
        refine ih _ h1 ?_
        simp [mark, h1]
  generalize (⟨false, false, false, false, false, false⟩ : Past) = f
  induction l generalizing f with
  | nil => exact absurd hi (by simp)
  | cons j l ih =>
    rw [List.flatMap_cons, List.foldl_append]
    rcases List.mem_cons.1 hi with rfl | hi
    · refine (all _ _ ?_ ?_).1
      · unfold movesAt; rw [if_pos hin]; simp [mark]
      · unfold movesAt; rw [if_pos hin]; simp [mark]
    · exact ih hi _

theorem base_get {q : Indexed F} {grid : Int} {k : Tile} {i : Nat} (hin : InTile q.p grid k i) :
    (cells (gathered q k) grid k).get (cellNat q.p grid k i) = onPoint q k i :=
  cells_get (p := gathered q k) hin

theorem onPoint_pos {q : Indexed F} {k : Tile} {n i : Nat} (h : GoodIndex q k n) (hi : i ∈ seen k) :
    0 < onPoint q k i := cellSum_pos (gathered_good h) hi

theorem base_nonneg {q : Indexed F} {grid : Int} {k : Tile} {n : Nat} (h : GoodIndex q k n) (c : Nat) :
    0 ≤ (cells (gathered q k) grid k).get c := by
  simp only [cells]
  by_cases hc : c < width
  · rw [if_pos hc]
    refine Finset.sum_nonneg fun i hi => ?_
    by_cases g : InTile (gathered q k) grid k i ∧ cellNat (gathered q k) grid k i = c
    · rw [if_pos g]; exact (h.positive i hi).le
    · rw [if_neg g]
  · rw [if_neg hc]

theorem moves_ok {q : Indexed F} {grid : Int} {k : Tile} {n : Nat} (h : GoodIndex q k n) (t : Nat) :
    ∀ a ∈ moves q grid k t, a.Ok (cells (gathered q k) grid k).get := by
  intro a ha
  simp only [moves, List.mem_flatMap] at ha
  obtain ⟨i, hi, ha⟩ := ha
  have hp := onPoint_pos h (mem_visits.1 hi).1
  unfold movesAt at ha
  by_cases hin : InTile q.p grid k i
  · rw [if_pos hin] at ha
    rw [← base_get hin] at hp
    simp only [List.mem_cons, List.not_mem_nil, or_false] at ha
    rcases ha with rfl | rfl | rfl | rfl | rfl | rfl | rfl
    · exact hp
    · trivial
    · exact hp
    · exact hp
    · trivial
    · trivial
    · trivial
  · rw [if_neg hin] at ha
    simp only [List.mem_cons, List.not_mem_nil, or_false] at ha
    rcases ha with rfl | rfl <;> trivial

/-- Whatever the schedule: the tile has grown, and only in its first cell; and a thread that is to write has a multiple
of at least `(5 / 10 ^ robust) ^ 2`. -/
theorem second_pass {q : Indexed F} {grid robust : Int} {k : Tile} {n : Nat} (h : GoodIndex q k n) (mv : Nat → List Move)
    (hmv : ∀ t < width, mv t = moves q grid k t) (s : List Nat) (hs : ∀ t ∈ s, t < width)
    (hd : ∀ t < width, (irun robust (cells (gathered q k) grid k).get mv s).todo t = []) :
    (∀ c, (cells (gathered q k) grid k).get c ≤ (irun robust (cells (gathered q k) grid k).get mv s).mem c) ∧
    (∀ c, c ≠ 0 → (irun robust (cells (gathered q k) grid k).get mv s).mem c = (cells (gathered q k) grid k).get c) ∧
    ∃ ρ : Nat → F, (∀ t, numer robust ≤ ρ t) ∧ ∀ t < width, ∀ i ∈ visits k t, InTile q.p grid k i →
      (irun robust (cells (gathered q k) grid k).get mv s).rob t = some (ρ t) := by
  have inv := irun_inv robust (cells (gathered q k) grid k).get mv (base_nonneg h)
    (fun t ht => by rw [hmv t ht]; exact moves_ok h t) s hs
  refine ⟨inv.low, inv.same, ?_⟩
  generalize irun robust (cells (gathered q k) grid k).get mv s = st at hd inv
  classical
  refine ⟨fun t => if hq : ∃ ρ, numer robust ≤ ρ ∧ st.rob t = some ρ then hq.choose else numer robust, fun t => ?_, ?_⟩
  · by_cases hq : ∃ ρ, numer robust ≤ ρ ∧ st.rob t = some ρ
    · simp only [dif_pos hq]; exact hq.choose_spec.1
    · simp only [dif_neg hq]; exact le_rfl
  · intro t ht i hi hin
    obtain ⟨d, e, g⟩ := inv.past t ht
    rw [hd t ht, List.append_nil, hmv t ht] at e
    subst e
    have hq := g.r (marks_moves hi hin)
    simp only [dif_pos hq]
    exact hq.choose_spec.2

/-! ## Third pass -/

/-- The stores of one thread. -/
theorem index_each {q : Indexed F} {grid : Int} {k : Tile} {n : Nat} (h : GoodIndex q k n) (tile : Arr F)
    (hsz : tile.size = width) (rob : Nat → Option F) (ρ : F) (hρ : 0 < ρ) (t : Nat)
    (htile : ∀ i ∈ seen k, InTile q.p grid k i → 0 < tile.get (cellNat q.p grid k i)) :
    ∀ (l : List Nat), (∀ i ∈ l, i ∈ seen k) → (∀ i ∈ l, InTile q.p grid k i → rob t = some ρ) →
    (indexStore q grid k tile rob t l).Within (fun x : Int => ∃ i ∈ l, InTile q.p grid k i ∧ x = (visAt q i : Int)) ∧
    ∀ a : Arr F, (∀ i ∈ l, visAt q i < a.size) → ∃ x, (indexStore q grid k tile rob t l).exec a = some x ∧ x.size = a.size ∧
      ∀ i ∈ l, InTile q.p grid k i →
        x.get (visAt q i) = q.p.weight.get (visAt q i) / (1 + ρ * tile.get (cellNat q.p grid k i)) := by
  intro l
  induction l with
  | nil => intro _ _; exact ⟨trivial, fun a _ => ⟨a, rfl, rfl, fun i hi => absurd hi (by simp)⟩⟩
  | cons j l ih =>
    intro hs hr
    obtain ⟨w1, w2⟩ := ih (fun i hi => hs i (by simp [hi])) (fun i hi => hr i (by simp [hi]))
    have hj := hs j (by simp)
    have w1' : (indexStore q grid k tile rob t l).Within
        (fun x : Int => ∃ i ∈ j :: l, InTile q.p grid k i ∧ x = (visAt q i : Int)) :=
      within_mono (fun x ⟨i, hi, h⟩ => ⟨i, by simp [hi], h⟩) _ w1
    by_cases hin : InTile q.p grid k j
    · have hc : cellNat q.p grid k j < tile.size := by rw [hsz]; exact cellNat_lt hin
      have hpos : 0 < 1 + ρ * tile.get (cellNat q.p grid k j) := by
        have := mul_pos hρ (htile j hj hin); linarith
      have e : indexStore q grid k tile rob t (j :: l) =
          .write ((visAt q j : Nat) : Int) (q.p.weight.get (visAt q j) / (1 + ρ * tile.get (cellNat q.p grid k j)))
            (indexStore q grid k tile rob t l) := by
        rw [indexStore, index_read h hj, cellOf_seen h hj, if_pos hin]
        simp only [Prog.need]
        rw [rd (h.weight j hj), hr j (by simp) hin, rd hc]
        dsimp only [Prog.need]
        rw [if_neg hpos.ne']
      rw [e]
      refine ⟨⟨⟨j, by simp, hin, rfl⟩, w1'⟩, fun a ha => ?_⟩
      have hja : visAt q j < a.size := ha j (by simp)
      obtain ⟨x, x1, x2, x3⟩ := w2 (a.put (visAt q j) (q.p.weight.get (visAt q j) / (1 + ρ * tile.get (cellNat q.p grid k j))))
        fun i hi => ha i (by simp [hi])
      refine ⟨x, ?_, x2, fun i hi hin' => ?_⟩
      · simp only [Prog.exec]
        rw [Arr.write_nat, if_pos hja]
        exact x1
      · by_cases hil : i ∈ l
        · exact x3 i hil hin'
        · have eij : i = j := (List.mem_cons.1 hi).resolve_right hil
          subst eij
          rw [(exec_frame w1 x1).2 (visAt q i), Arr.put_get, if_pos rfl]
          rintro ⟨i', hi', -, e'⟩
          have e'' : visAt q i = visAt q i' := by exact_mod_cast e'
          exact hil (h.once _ hj _ (hs i' (by simp [hi'])) e'' ▸ hi')
    · have e : indexStore q grid k tile rob t (j :: l) = indexStore q grid k tile rob t l := by
        rw [indexStore, index_read h hj, cellOf_seen h hj, if_neg hin]
        rfl
      rw [e]
      refine ⟨w1', fun a ha => ?_⟩
      obtain ⟨x, x1, x2, x3⟩ := w2 a fun i hi => ha i (by simp [hi])
      refine ⟨x, x1, x2, fun i hi hin' => ?_⟩
      rcases List.mem_cons.1 hi with rfl | hi
      · exact absurd hin' hin
      · exact x3 i hi hin'

open Classical in
/-- The output of the third pass. -/
noncomputable def placed (q : Indexed F) (grid : Int) (k : Tile) (tile : Arr F) (ρ : Nat → F) (a : Arr F) : Arr F :=
  ⟨a.size, fun j => if hq : ∃ i, i ∈ seen k ∧ InTile q.p grid k i ∧ visAt q i = j then
    q.p.weight.get j / (1 + ρ (threadOf k hq.choose) * tile.get (cellNat q.p grid k hq.choose)) else a.get j⟩

theorem placed_get {q : Indexed F} {grid : Int} {k : Tile} {n : Nat} (h : GoodIndex q k n) (tile : Arr F) (ρ : Nat → F)
    (a : Arr F) {i : Nat} (hi : i ∈ seen k) (hin : InTile q.p grid k i) :
    (placed q grid k tile ρ a).get (visAt q i) =
      q.p.weight.get (visAt q i) / (1 + ρ (threadOf k i) * tile.get (cellNat q.p grid k i)) := by
  classical
  have hq : ∃ i', i' ∈ seen k ∧ InTile q.p grid k i' ∧ visAt q i' = visAt q i := ⟨i, hi, hin, rfl⟩
  have e : hq.choose = i := h.once _ hq.choose_spec.1 _ hi hq.choose_spec.2.2
  simp only [placed]
  rw [dif_pos hq, e]

theorem placed_rest {q : Indexed F} {grid : Int} {k : Tile} (tile : Arr F) (ρ : Nat → F)
    (a : Arr F) {j : Nat} (hj : ∀ i ∈ seen k, InTile q.p grid k i → visAt q i ≠ j) :
    (placed q grid k tile ρ a).get j = a.get j := by
  simp only [placed]
  rw [dif_neg]
  rintro ⟨i, h1, h2, h3⟩
  exact hj i h1 h2 h3

theorem index_third {q : Indexed F} {grid : Int} {k : Tile} (out : Arr F) (h : GoodIndex q k out.size) (tile : Arr F)
    (hsz : tile.size = width) (htile : ∀ i ∈ seen k, InTile q.p grid k i → 0 < tile.get (cellNat q.p grid k i))
    (rob : Nat → Option F) (ρ : Nat → F) (hρ : ∀ t, 0 < ρ t)
    (hr : ∀ t < width, ∀ i ∈ visits k t, InTile q.p grid k i → rob t = some (ρ t)) :
    Yields (fun t => indexStore q grid k tile rob t (visits k t)) (List.range width) out (placed q grid k tile ρ out) := by
  have each := fun (t : Nat) (ht : t < width) => index_each h tile hsz rob (ρ t) (hρ t) t htile (visits k t)
    (fun i hi => (mem_visits.1 hi).1) (hr t ht)
  refine yields_each _ (fun (t : Nat) (x : Int) => ∃ i ∈ visits k t, InTile q.p grid k i ∧ x = (visAt q i : Int)) _
    ?_ ?_ _ _ rfl ?_ ?_
  · intro t ht
    exact (each t (List.mem_range.1 ht)).1
  · rintro t - t' - hne x ⟨i, hi, -, rfl⟩ ⟨j, hj, -, e⟩
    have e' : visAt q i = visAt q j := by exact_mod_cast e
    rw [threadOf_visits] at hi hj
    have := h.once _ hi.1 _ hj.1 e'
    subst this
    exact hne (hi.2.symm.trans hj.2)
  · intro t ht
    obtain ⟨x, x1, -, x3⟩ := (each t (List.mem_range.1 ht)).2 out fun i hi => h.out i (mem_visits.1 hi).1
    refine ⟨x, x1, ?_⟩
    rintro j ⟨i, hi, hin, e⟩
    have e' : j = visAt q i := by exact_mod_cast e
    subst e'
    obtain ⟨g1, g2⟩ := threadOf_visits.1 hi
    rw [x3 i hi hin, placed_get h tile ρ out g1 hin, g2]
  · intro j hj
    refine placed_rest tile ρ out fun i hi hin e => ?_
    exact hj (threadOf k i) (List.mem_range.2 (threadOf_lt k i)) ⟨i, threadOf_visits.2 ⟨hi, rfl⟩, hin, by rw [e]⟩

/-! ## A block -/

/-- The tile after the second pass. -/
def after (robust : Int) (q : Indexed F) (grid : Int) (k : Tile) (mv : Nat → List Move) (s : List Nat) : Arr F :=
  ⟨width, (irun robust (cells (gathered q k) grid k).get mv s).mem⟩

/-- What every execution of a block does. -/
theorem index_run {Ok : (Nat → List Move) → List Nat → Prop} {q : Indexed F} {grid robust : Int} {b : Nat} {k : Tile}
    (out : Arr F) (hk : tileOf q.p grid b = some k) (h : GoodIndex q k out.size) {o : Arr F}
    (hrun : IndexRun Ok q grid robust b out o) :
    ∃ (mv : Nat → List Move) (s : List Nat), (∀ t < width, mv t = moves q grid k t) ∧ (∀ t ∈ s, t < width) ∧
      (∀ t < width, (irun robust (cells (gathered q k) grid k).get mv s).todo t = []) ∧ Ok mv s ∧
      ∃ ρ : Nat → F, (∀ t, numer robust ≤ ρ t) ∧
        (∀ t < width, ∀ i ∈ visits k t, InTile q.p grid k i →
          (irun robust (cells (gathered q k) grid k).get mv s).rob t = some (ρ t)) ∧
        o = placed q grid k (after robust q grid k mv s) ρ out := by
  obtain ⟨k', hk', ads, s1, st1, a1, a2, a3, a4, mv, s2, b1, b2, b3, b4, s3, st3, c1, c2, c3, rfl⟩ := hrun
  rw [hk] at hk'
  cases hk'
  have eads : ∀ t < width, ads t = adds (gathered q k) grid k t := fun t ht => by
    have := a1 t ht
    rw [indexAdds_ok h] at this
    exact (Option.some.inj this).symm
  have hy := first_pass (gathered q k) grid k ads eads
  obtain ⟨st, e1, e2⟩ := hy.1 s1 fun t ht => List.mem_range.2 (a2 t ht)
  rw [a3] at e1
  cases e1
  have hm := e2 fun t ht => a4 t (List.mem_range.1 ht)
  rw [hm] at b3 c2
  have emv : ∀ t < width, mv t = moves q grid k t := fun t ht => by
    have := b1 t ht
    rw [movesOf_ok h] at this
    exact (Option.some.inj this).symm
  obtain ⟨low, -, ρ, r1, r2⟩ := second_pass h mv emv s2 b2 b3
  refine ⟨mv, s2, emv, b2, b3, b4, ρ, r1, r2, ?_⟩
  have htile : ∀ i ∈ seen k, InTile q.p grid k i → 0 < (after robust q grid k mv s2).get (cellNat q.p grid k i) :=
    fun i hi hin => lt_of_lt_of_le (by rw [base_get hin]; exact onPoint_pos h hi) (low _)
  obtain ⟨st, e1, e2⟩ := (index_third out h (after robust q grid k mv s2) rfl htile _ ρ
    (fun t => (numer_pos robust).trans_le (r1 t)) r2).1 s3 fun t ht => List.mem_range.2 (c1 t ht)
  have e1' := c2.symm.trans e1
  cases e1'
  exact e2 fun t ht => c3 t (List.mem_range.1 ht)

/-- Every complete schedule of the second pass belongs to an execution of the block. -/
theorem index_exists {Ok : (Nat → List Move) → List Nat → Prop} {q : Indexed F} {grid robust : Int} {b : Nat} {k : Tile}
    (out : Arr F) (hk : tileOf q.p grid b = some k) (h : GoodIndex q k out.size) (s : List Nat) (hs : ∀ t ∈ s, t < width)
    (hd : ∀ t < width, (irun robust (cells (gathered q k) grid k).get (moves q grid k) s).todo t = [])
    (hok : Ok (moves q grid k) s) : ∃ ρ : Nat → F, (∀ t, numer robust ≤ ρ t) ∧
      (∀ t < width, ∀ i ∈ visits k t, InTile q.p grid k i →
        (irun robust (cells (gathered q k) grid k).get (moves q grid k) s).rob t = some (ρ t)) ∧
      IndexRun Ok q grid robust b out (placed q grid k (after robust q grid k (moves q grid k) s) ρ out) := by
  obtain ⟨low, -, ρ, r1, r2⟩ := second_pass h (moves q grid k) (fun _ _ => rfl) s hs hd
  refine ⟨ρ, r1, r2, ?_⟩
  have htile : ∀ i ∈ seen k, InTile q.p grid k i →
      0 < (after robust q grid k (moves q grid k) s).get (cellNat q.p grid k i) :=
    fun i hi hin => lt_of_lt_of_le (by rw [base_get hin]; exact onPoint_pos h hi) (low _)
  obtain ⟨s1, st1, a1, a2, a3, a4⟩ := add_done (first_pass (gathered q k) grid k _ fun _ _ => rfl) (fair_mod width (by decide))
  obtain ⟨sched, f1, f2⟩ := fair_mod width (by decide)
  obtain ⟨N, hN⟩ := (index_third out h (after robust q grid k (moves q grid k) s) rfl htile _ ρ
    (fun t => (numer_pos robust).trans_le (r1 t)) r2).2 sched f1 f2
  obtain ⟨st3, c1, c2, c3⟩ := hN N le_rfl
  rw [runN_eq] at c1
  refine ⟨k, hk, adds (gathered q k) grid k, s1, st1, fun t _ => indexAdds_ok h t, fun t ht => List.mem_range.1 (a1 t ht), a2,
    fun t ht => a3 t (List.mem_range.2 ht), moves q grid k, s, fun t _ => movesOf_ok h t, hs, by rw [a4]; exact hd, hok,
    (List.range N).map sched, st3, ?_, by rw [a4]; exact c1, fun t ht => c2 t (List.mem_range.2 ht), c3.symm⟩
  intro t ht
  obtain ⟨n, -, rfl⟩ := List.mem_map.1 ht
  exact List.mem_range.1 (f1 n)

theorem moves_last (q : Indexed F) (grid : Int) (k : Tile) (t : Nat) (h : moves q grid k t ≠ []) :
    ∃ l, moves q grid k t = l ++ [.loadTwo, .loadOne] := by
  unfold moves at h ⊢
  rcases List.eq_nil_or_concat (visits k t) with e | ⟨l, i, e⟩
  · rw [e] at h; exact absurd rfl h
  · rw [e, List.concat_eq_append, List.flatMap_append]
    generalize l.flatMap _ = m
    by_cases hin : InTile q.p grid k i
    · exact ⟨m ++ [.loadX (cellNat q.p grid k i), .addX, .loadY (cellNat q.p grid k i), .loadZ (cellNat q.p grid k i),
        .addYZ], by simp [movesAt, hin]⟩
    · exact ⟨m, by simp [movesAt, hin]⟩

/-- There is a schedule in step that completes the second pass. -/
theorem index_second (q : Indexed F) (grid robust : Int) (k : Tile) (base : Nat → F) :
    ∃ s : List Nat, (∀ t ∈ s, t < width) ∧ (∀ t < width, (irun robust base (moves q grid k) s).todo t = []) ∧
      InStepI (moves q grid k) s := by
  obtain ⟨a, a1, a2⟩ := exists_counts (fun t => (moves q grid k t).length - 2) width
  obtain ⟨b, b1, b2⟩ := exists_counts (fun _ => 2) width
  refine ⟨a ++ b, ?_, ?_, a, b, rfl, ?_⟩
  · intro t ht
    rcases List.mem_append.1 ht with h | h
    · exact a1 t h
    · exact b1 t h
  · intro t ht
    unfold irun
    rw [ifoldl_todo, List.count_append, a2 t ht, b2 t ht]
    exact List.drop_eq_nil_of_le (by show (moves q grid k t).length ≤ _; omega)
  · intro t ht hn
    obtain ⟨l, e⟩ := moves_last q grid k t hn
    rw [a2 t ht, e]
    simp

/-- From there on the tile does not change. -/
structure LateI (robust : Int) (m : F) (mv : Nat → List Move) (s : ISt F) : Prop where
  mem : s.mem 0 = m
  each : ∀ t < width, (s.todo t = [] ∧ (mv t ≠ [] → s.rob t = robOf robust m m)) ∨
    (s.todo t = [.loadOne] ∧ s.got t = m) ∨ s.todo t = [.loadTwo, .loadOne]

theorem lateI_step {robust : Int} {m : F} {mv : Nat → List Move} {s : ISt F} {t : Nat} (ht : t < width)
    (h : LateI robust m mv s) : LateI robust m mv (istep robust s t) := by
  rcases h.each t ht with ⟨e, -⟩ | ⟨e, eg⟩ | e
  · have : istep robust s t = s := by unfold istep; rw [e]
    rw [this]; exact h
  · have : istep robust s t = { s with rob := Function.update s.rob t (robOf robust (s.got t) (s.mem 0)), todo := Function.update s.todo t [] } := by
      unfold istep; rw [e]
    rw [this]
    refine ⟨h.mem, fun u hu => ?_⟩
    by_cases eu : u = t
    · subst eu
      refine Or.inl ⟨by simp, fun _ => ?_⟩
      simp only [Function.update_self]
      rw [eg, h.mem]
    · simp only [Function.update_of_ne eu]
      exact h.each u hu
  · have : istep robust s t = { s with got := Function.update s.got t (s.mem 0), todo := Function.update s.todo t [.loadOne] } := by
      unfold istep; rw [e]
    rw [this]
    refine ⟨h.mem, fun u hu => ?_⟩
    by_cases eu : u = t
    · subst eu
      refine Or.inr (Or.inl ⟨by simp, ?_⟩)
      simp only [Function.update_self]
      exact h.mem
    · simp only [Function.update_of_ne eu]
      exact h.each u hu

/-- With the threads in step the two sums are the same number and the multiple is `(5 / 10 ^ robust) ^ 2`. -/
theorem rob_step {q : Indexed F} {grid robust : Int} {k : Tile} (mv : Nat → List Move)
    (hmv : ∀ t < width, mv t = moves q grid k t) (s : List Nat) (hs : ∀ t ∈ s, t < width)
    (hd : ∀ t < width, (irun robust (cells (gathered q k) grid k).get mv s).todo t = []) (hi : InStepI mv s)
    {ρ : F} {t i : Nat} (ht : t < width) (hv : i ∈ visits k t) (hin : InTile q.p grid k i)
    (hr : (irun robust (cells (gathered q k) grid k).get mv s).rob t = some ρ) : ρ = numer robust := by
  have hne : mv t ≠ [] := by
    rw [hmv t ht]
    intro e
    have := marks_moves (q := q) (grid := grid) hv hin
    rw [e] at this
    exact absurd this (by simp [marks])
  obtain ⟨a, b, rfl, hab⟩ := hi
  generalize hB : (cells (gathered q k) grid k).get = base at hd hr
  have td : ∀ u < width, mv u ≠ [] → (irun robust base mv a).todo u = [.loadTwo, .loadOne] := by
    intro u hu hn
    unfold irun
    rw [ifoldl_todo]
    exact hab u hu hn
  have tn : ∀ u, mv u = [] → (irun robust base mv a).todo u = [] := by
    intro u hn
    unfold irun
    rw [ifoldl_todo]
    simp [hn]
  have hl : LateI robust ((irun robust base mv a).mem 0) mv (irun robust base mv a) := by
    refine ⟨rfl, fun u hu => ?_⟩
    by_cases hn : mv u = []
    · exact Or.inl ⟨tn u hn, fun h => absurd hn h⟩
    · exact Or.inr (Or.inr (td u hu hn))
  have e : irun robust base mv (a ++ b) = b.foldl (istep robust) (irun robust base mv a) := by
    unfold irun; rw [List.foldl_append]
  have hf : LateI robust ((irun robust base mv a).mem 0) mv (irun robust base mv (a ++ b)) := by
    rw [e]
    exact foldl_inv (LateI robust ((irun robust base mv a).mem 0) mv) _ b _ hl
      fun s u hu h => lateI_step (hs u (List.mem_append_right _ hu)) h
  rcases hf.each t ht with ⟨-, g⟩ | ⟨g, -⟩ | g
  · have g := g hne
    rw [hr] at g
    unfold robOf at g
    by_cases hz : (irun robust base mv a).mem 0 = 0 ∨ (irun robust base mv a).mem 0 = 0
    · rw [if_pos hz] at g; cases g
    · rw [if_neg hz] at g
      rw [Option.some.inj g, div_self (by simpa using hz), div_one, mul_one]
      rfl
  · rw [hd t ht] at g; cases g
  · rw [hd t ht] at g; cases g

/-! ## The property -/

/-- **C99, every schedule (part).**  Every execution of a block, whatever the order of the steps of its threads, gives
every visibility that it sees and that is in the tile a positive weight, at the place of that visibility in the output,
and changes nothing else; there is such an execution.  The new weight is at most the old one over one plus
(5 / 10 ^ robust) ^ 2 times the weight on the grid point.  Missing: that it is the Briggs weight; it is not, see
`C99_mean_false`. -/
theorem C99_block_partial (q : Indexed F) (grid robust : Int) (b : Nat) (k : Tile) (out : Arr F)
    (hk : tileOf q.p grid b = some k) (h : GoodIndex q k out.size) :
    (∃ o, IndexRun (fun _ _ => True) q grid robust b out o) ∧
    ∀ o, IndexRun (fun _ _ => True) q grid robust b out o → o.size = out.size ∧
      (∀ i ∈ seen k, InTile q.p grid k i → 0 < o.get (visAt q i) ∧
        o.get (visAt q i) ≤ q.p.weight.get (visAt q i) / (1 + (5 / (10 : F) ^ robust) ^ 2 * onPoint q k i)) ∧
      ∀ j, (∀ i ∈ seen k, InTile q.p grid k i → visAt q i ≠ j) → o.get j = out.get j := by
  constructor
  · obtain ⟨s, s1, s2, -⟩ := index_second q grid robust k (cells (gathered q k) grid k).get
    obtain ⟨ρ, -, -, hr⟩ := index_exists (Ok := fun _ _ => True) out hk h s s1 s2 trivial
    exact ⟨_, hr⟩
  · intro o ho
    obtain ⟨mv, s, a1, a2, a3, -, ρ, r1, -, rfl⟩ := index_run out hk h ho
    refine ⟨rfl, fun i hi hin => ?_, fun j hj => placed_rest _ _ _ hj⟩
    rw [placed_get h _ _ _ hi hin]
    have hw := h.positive i hi
    have hp := onPoint_pos h hi
    have hN := numer_pos (F := F) robust
    have low : onPoint q k i ≤ (after robust q grid k mv s).get (cellNat q.p grid k i) := by
      rw [← base_get hin]
      exact (second_pass h mv a1 s a2 a3).1 _
    have hm : numer robust * onPoint q k i ≤
        ρ (threadOf k i) * (after robust q grid k mv s).get (cellNat q.p grid k i) :=
      mul_le_mul (r1 _) low hp.le (hN.le.trans (r1 _))
    have h1 : 0 < 1 + numer robust * onPoint q k i := by have := mul_pos hN hp; linarith
    refine ⟨div_pos hw (by linarith), ?_⟩
    have h2 : 1 + numer robust * onPoint q k i ≤
        1 + ρ (threadOf k i) * (after robust q grid k mv s).get (cellNat q.p grid k i) := by linarith
    exact div_le_div_of_nonneg_left hw.le h1 h2

/-- **C99, threads in step (part).**  If every thread has made its last addition before any makes its last loads, the
weight of every visibility that is not on the first point of the tile is the old one over one plus (5 / 10 ^ robust) ^ 2
times the weight on its grid point: the mean weight of the tile is taken as 1; and there is such an execution. -/
theorem C99_step_partial (q : Indexed F) (grid robust : Int) (b : Nat) (k : Tile) (out : Arr F)
    (hk : tileOf q.p grid b = some k) (h : GoodIndex q k out.size) :
    (∃ o, IndexRun InStepI q grid robust b out o) ∧
    ∀ o, IndexRun InStepI q grid robust b out o → ∀ i ∈ seen k, InTile q.p grid k i →
      ((place q.p i).1 + centre grid, (place q.p i).2 + centre grid) ≠ (k.u, k.v) →
      o.get (visAt q i) = q.p.weight.get (visAt q i) / (1 + (5 / (10 : F) ^ robust) ^ 2 * onPoint q k i) := by
  constructor
  · obtain ⟨s, s1, s2, s3⟩ := index_second q grid robust k (cells (gathered q k) grid k).get
    obtain ⟨ρ, -, -, hr⟩ := index_exists (Ok := InStepI) out hk h s s1 s2 s3
    exact ⟨_, hr⟩
  · intro o ho i hi hin hne
    obtain ⟨mv, s, a1, a2, a3, a4, ρ, r1, r2, rfl⟩ := index_run out hk h ho
    rw [placed_get h _ _ _ hi hin]
    have hv : i ∈ visits k (threadOf k i) := threadOf_visits.2 ⟨hi, rfl⟩
    have e1 := rob_step mv a1 s a2 a3 a4 (threadOf_lt k i) hv hin (r2 _ (threadOf_lt k i) i hv hin)
    have hc : cellNat q.p grid k i ≠ 0 := by
      obtain ⟨g1, g2, g3, g4⟩ := hin
      intro e
      apply hne
      unfold cellNat at e
      refine Prod.ext ?_ ?_ <;> dsimp only <;> omega
    have e2 : (after robust q grid k mv s).get (cellNat q.p grid k i) = onPoint q k i := by
      rw [← base_get hin]
      exact (second_pass h mv a1 s a2 a3).2.1 _ hc
    rw [e1, e2]
    rfl

/-- **C99 fails** for every tile whose mean weight, the sum of the squares over the sum of the weights on the grid points
of its visibilities, is above 1: both sums are kept in the first cell of the tile, and in every execution every
visibility of the tile gets less than its Briggs weight. -/
theorem C99_mean_false (q : Indexed F) (grid robust : Int) (b : Nat) (k : Tile) (out : Arr F)
    (hk : tileOf q.p grid b = some k) (h : GoodIndex q k out.size)
    (hmean : 1 < (∑ j ∈ (seen k).filter (InTile q.p grid k), onPoint q k j ^ 2) /
      ∑ j ∈ (seen k).filter (InTile q.p grid k), onPoint q k j)
    (o : Arr F) (ho : IndexRun (fun _ _ => True) q grid robust b out o) (i : Nat) (hi : i ∈ seen k)
    (hin : InTile q.p grid k i) :
    o.get (visAt q i) < q.p.weight.get (visAt q i) / (1 + (5 / (10 : F) ^ robust) ^ 2 /
      ((∑ j ∈ (seen k).filter (InTile q.p grid k), onPoint q k j ^ 2) /
        ∑ j ∈ (seen k).filter (InTile q.p grid k), onPoint q k j) * onPoint q k i) := by
  obtain ⟨-, hall, -⟩ := (C99_block_partial q grid robust b k out hk h).2 o ho
  refine lt_of_le_of_lt (hall i hi hin).2 ?_
  generalize (∑ j ∈ (seen k).filter (InTile q.p grid k), onPoint q k j ^ 2) /
    ∑ j ∈ (seen k).filter (InTile q.p grid k), onPoint q k j = m at hmean ⊢
  have hN : (0 : F) < (5 / (10 : F) ^ robust) ^ 2 := numer_pos robust
  generalize (5 / (10 : F) ^ robust) ^ 2 = N at hN ⊢
  have hp := onPoint_pos h hi
  have hm0 : 0 < m := by linarith
  have h1 : N / m < N := div_lt_self hN hmean
  have h2 : N / m * onPoint q k i < N * onPoint q k i := mul_lt_mul_of_pos_right h1 hp
  have h3 : 0 < N / m * onPoint q k i := mul_pos (div_pos hN hm0) hp
  exact div_lt_div_of_pos_left (h.positive i hi) (by linarith) (by linarith)

end
end Sdp.OptWeighting
