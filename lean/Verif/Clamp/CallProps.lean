import Verif.Clamp.Call
import Verif.Clamp.Rows
import Verif.GridUtil.ScaleProps
import Verif.GridUtil.KernelProps

set_option linter.unusedSectionVars false

/-!
# C93: clamping calls, on the CPU and on the GPU, under every interleaving
-/

namespace Sdp.Clamp
open Sdp.Race

variable {K : Type} [Field K] [LinearOrder K] [IsStrictOrderedRing K] [FloorRing K]

/-- Positions of the channel numbers of every row. -/
structure Pos where
  si : Nat → Nat
  ei : Nat → Nat
  so : Nat → Nat
  eo : Nat → Nat

/-- Position `x` belongs to row `i`. -/
def Pos.Row (P : Pos) (i : Nat) (x : Int) : Prop := x = P.si i ∨ x = P.ei i ∨ x = P.so i ∨ x = P.eo i

/-- The cells of different rows are different, and the outputs of a row are different from each other.  Inputs may be
outputs of the same row. -/
structure Pos.Apart (P : Pos) (n : Nat) : Prop where
  rows : ∀ i j, i < n → j < n → i ≠ j → ∀ x, P.Row i x → ¬ P.Row j x
  outs : ∀ i, i < n → P.so i ≠ P.eo i
  order : ∀ i, i < n → P.ei i ≠ P.so i

def Pos.cells (P : Pos) (i : Nat) : Cells := ⟨P.si i, P.ei i, P.so i, P.eo i⟩

theorem put_put (a : Arr Int) (j : Nat) (v w : Int) : (a.put j v).put j w = a.put j w := by
  unfold Arr.put
  congr 1
  funext i
  dsimp only
  by_cases h : i = j
  · rw [if_pos h, if_pos h]
  · rw [if_neg h, if_neg h, if_neg h]

theorem put_self (a : Arr Int) (j : Nat) : a.put j (a.get j) = a := by
  unfold Arr.put
  cases a
  congr 1
  funext i
  dsimp only
  split_ifs with h
  · rw [h]
  · rfl

theorem exec_read (a : Arr Int) (j : Nat) (h : j < a.size) (k : Int → Prog Int) :
    (Prog.read (j : Int) k).exec a = (k (a.get j)).exec a := by
  simp only [Prog.exec]
  rw [Arr.read_nat, if_pos h]
  rfl

theorem exec_write (a : Arr Int) (j : Nat) (h : j < a.size) (v : Int) (k : Prog Int) :
    (Prog.write (j : Int) v k).exec a = k.exec (a.put j v) := by
  simp only [Prog.exec]
  rw [Arr.write_nat, if_pos h]
  rfl

theorem last_exec (so eo : Nat) (h : so ≠ eo) (k : Prog Int) (a : Arr Int) (x y : Int) (hso : so < a.size)
    (heo : eo < a.size) :
    (Prog.read (eo : Int) fun e => .read (so : Int) fun s => .write (eo : Int) (max e s) k).exec
      ((a.put so x).put eo y) = k.exec ((a.put so x).put eo (max y x)) := by
  rw [exec_read _ _ (by exact heo), exec_read _ _ (by exact hso), exec_write _ _ (by exact heo), put_put]
  simp only [Arr.put_get, if_true, if_neg h]

/-- One coordinate of one row, alone. -/
theorem axis_exec (P : Pos) (i : Nat) (h1 : P.so i ≠ P.eo i) (h2 : P.ei i ≠ P.so i) (copy : Bool)
    (hc : copy = false → P.si i = P.so i ∧ P.ei i = P.eo i) (u0 du lo hi : K) (k : Prog Int)
    (a : Arr Int) (hs : P.si i < a.size) (he : P.ei i < a.size) (hso : P.so i < a.size) (heo : P.eo i < a.size) :
    (axisProg (P.cells i) copy u0 du lo hi k).exec a =
      (clampAxis u0 du lo hi (a.get (P.si i)) (a.get (P.ei i))).bind fun r =>
        k.exec ((a.put (P.so i) r.1).put (P.eo i) r.2) := by
  have two : ∀ f g : Int → Int, (Prog.read (P.si i : Int) fun s => .write (P.so i : Int) (f s) <|
      .read (P.ei i : Int) fun e => .write (P.eo i : Int) (g e) <|
      .read (P.eo i : Int) fun e => .read (P.so i : Int) fun s => .write (P.eo i : Int) (max e s) k).exec a =
      k.exec ((a.put (P.so i) (f (a.get (P.si i)))).put (P.eo i)
        (max (g (a.get (P.ei i))) (f (a.get (P.si i))))) := by
    intro f g
    rw [exec_read _ _ hs, exec_write _ _ hso, exec_read _ _ (by exact he), exec_write _ _ (by exact heo),
      last_exec _ _ h1 _ _ _ _ hso heo]
    simp only [Arr.put_get, if_neg h2]
  unfold axisProg clampAxis Pos.cells
  dsimp only
  by_cases g1 : eta u0 lo hi < |du|
  · rw [if_pos g1, if_pos g1]
    simp only [exec_need, Option.bind_assoc, Option.bind_some]
    refine Option.bind_congr fun mins _ => Option.bind_congr fun maxs _ => Option.bind_congr fun start _ =>
      Option.bind_congr fun stop _ => ?_
    exact two (fun s => max s start) (fun e => min e stop)
  · rw [if_neg g1, if_neg g1]
    by_cases g2 : u0 < lo ∨ hi ≤ u0
    · rw [if_pos g2, if_pos g2]
      simp only [Option.bind_some]
      rw [exec_write _ _ hso, exec_write _ _ (by exact heo), last_exec _ _ h1 _ _ _ _ hso heo]
    · rw [if_neg g2, if_neg g2]
      simp only [Option.bind_some]
      cases copy with
      | true =>
        rw [if_pos rfl]
        exact two (fun s => s) (fun e => e)
      | false =>
        obtain ⟨c1, c2⟩ := hc rfl
        rw [if_neg (by simp), c1, c2]
        have e : a = (a.put (P.so i) (a.get (P.so i))).put (P.eo i) (a.get (P.eo i)) := by
          rw [put_self, put_self]
        conv_lhs => rw [e]
        rw [last_exec _ _ h1 _ _ _ _ hso heo]

theorem axis_within (P : Pos) (i : Nat) (S : Int → Prop) (hS : ∀ x, P.Row i x → S x) (copy : Bool) (u0 du lo hi : K)
    (k : Prog Int) (hk : k.Within S) : (axisProg (P.cells i) copy u0 du lo hi k).Within S := by
  have s1 : S (P.si i) := hS _ (.inl rfl)
  have s2 : S (P.ei i) := hS _ (.inr (.inl rfl))
  have s3 : S (P.so i) := hS _ (.inr (.inr (.inl rfl)))
  have s4 : S (P.eo i) := hS _ (.inr (.inr (.inr rfl)))
  have last : (Prog.read (P.eo i : Int) fun e => .read (P.so i : Int) fun s =>
      .write (P.eo i : Int) (max e s) k).Within S := ⟨s4, fun _ => ⟨s3, fun _ => ⟨s4, hk⟩⟩⟩
  unfold axisProg Pos.cells
  dsimp only
  by_cases g1 : eta u0 lo hi < |du|
  · rw [if_pos g1]
    exact within_need _ _ fun _ _ => within_need _ _ fun _ _ => within_need _ _ fun _ _ => within_need _ _ fun _ _ =>
      ⟨s1, fun _ => ⟨s3, s2, fun _ => ⟨s4, last⟩⟩⟩
  · rw [if_neg g1]
    by_cases g2 : u0 < lo ∨ hi ≤ u0
    · rw [if_pos g2]
      exact ⟨s3, s4, last⟩
    · rw [if_neg g2]
      cases copy with
      | true => exact ⟨s1, fun _ => ⟨s3, s2, fun _ => ⟨s4, last⟩⟩⟩
      | false => exact last

open Classical in
/-- Threads that each rewrite the outputs of one row. -/
theorem rows_yield (prog : Int → Prog Int) (ts : List Int) (g : Int → Prop) (row : Int → Nat) (n : Nat) (P : Pos)
    (hP : P.Apart n) (hrow : ∀ t ∈ ts, g t → row t < n)
    (hinj : ∀ t ∈ ts, ∀ t' ∈ ts, g t → g t' → row t = row t' → t = t') (a : Arr Int) (val : Nat → Int × Int)
    (h1 : ∀ t ∈ ts, g t → (prog t).Within (P.Row (row t)) ∧ (prog t).exec a =
      some ((a.put (P.so (row t)) (val (row t)).1).put (P.eo (row t)) (val (row t)).2))
    (h2 : ∀ t ∈ ts, ¬ g t → prog t = .done) :
    ∃ r, Yields prog ts a r ∧ r.size = a.size ∧
      (∀ t ∈ ts, g t → r.get (P.so (row t)) = (val (row t)).1 ∧ r.get (P.eo (row t)) = (val (row t)).2) ∧
      ∀ x, (∀ t ∈ ts, g t → x ≠ P.so (row t) ∧ x ≠ P.eo (row t)) → r.get x = a.get x := by
  let hit : (Nat → Nat) → Nat → Prop := fun p x => ∃ t ∈ ts, g t ∧ p (row t) = x
  let r : Arr Int := ⟨a.size, fun x => if h : hit P.so x then (val (row h.choose)).1
    else if h : hit P.eo x then (val (row h.choose)).2 else a.get x⟩
  have inS : ∀ i, P.Row i (P.so i) := fun i => .inr (.inr (.inl rfl))
  have inE : ∀ i, P.Row i (P.eo i) := fun i => .inr (.inr (.inr rfl))
  have same : ∀ t ∈ ts, g t → ∀ t' ∈ ts, g t' → ∀ x, P.Row (row t) x → P.Row (row t') x → row t = row t' := by
    intro t ht hg t' ht' hg' x hx hx'
    by_contra hne
    exact hP.rows _ _ (hrow t ht hg) (hrow t' ht' hg') hne x hx hx'
  have rS : ∀ t ∈ ts, g t → r.get (P.so (row t)) = (val (row t)).1 := by
    intro t ht hg
    have hh : hit P.so (P.so (row t)) := ⟨t, ht, hg, rfl⟩
    have hc := hh.choose_spec
    have : row hh.choose = row t :=
      same _ hc.1 hc.2.1 t ht hg (P.so (row t)) (.inr (.inr (.inl (by exact_mod_cast hc.2.2.symm)))) (inS _)
    simp only [r]
    rw [dif_pos hh, this]
  have nE : ∀ t ∈ ts, g t → ¬ hit P.so (P.eo (row t)) := by
    rintro t ht hg ⟨t', ht', hg', e⟩
    have := same t' ht' hg' t ht hg (P.eo (row t)) (by rw [← e]; exact inS _) (inE _)
    rw [this] at e
    exact hP.outs _ (hrow t ht hg) e
  have rE : ∀ t ∈ ts, g t → r.get (P.eo (row t)) = (val (row t)).2 := by
    intro t ht hg
    have hh : hit P.eo (P.eo (row t)) := ⟨t, ht, hg, rfl⟩
    have hc := hh.choose_spec
    have : row hh.choose = row t :=
      same _ hc.1 hc.2.1 t ht hg (P.eo (row t)) (.inr (.inr (.inr (by exact_mod_cast hc.2.2.symm)))) (inE _)
    simp only [r]
    rw [dif_neg (nE t ht hg), dif_pos hh, this]
  have rO : ∀ x, (∀ t ∈ ts, g t → x ≠ P.so (row t) ∧ x ≠ P.eo (row t)) → r.get x = a.get x := by
    intro x hx
    simp only [r]
    rw [dif_neg, dif_neg]
    · rintro ⟨t, ht, hg, e⟩
      exact (hx t ht hg).2 e.symm
    · rintro ⟨t, ht, hg, e⟩
      exact (hx t ht hg).1 e.symm
  refine ⟨r, ?_, rfl, fun t ht hg => ⟨rS t ht hg, rE t ht hg⟩, rO⟩
  refine yields_each prog (fun t x => g t ∧ P.Row (row t) x) ts ?_ ?_ a r rfl ?_ ?_
  · intro t ht
    by_cases hg : g t
    · have := (h1 t ht hg).1
      have e : (fun x => g t ∧ P.Row (row t) x) = P.Row (row t) := by
        funext x
        simp [hg]
      rw [e]
      exact this
    · rw [h2 t ht hg]
      trivial
  · rintro t ht t' ht' hne x ⟨hg, hx⟩ ⟨hg', hx'⟩
    exact hne (hinj t ht t' ht' hg hg' (same t ht hg t' ht' hg' x hx hx'))
  · intro t ht
    by_cases hg : g t
    · refine ⟨_, (h1 t ht hg).2, ?_⟩
      rintro x ⟨-, hx⟩
      rw [Arr.put_get, Arr.put_get]
      by_cases e1 : x = P.eo (row t)
      · rw [if_pos e1, e1, rE t ht hg]
      · rw [if_neg e1]
        by_cases e2 : x = P.so (row t)
        · rw [if_pos e2, e2, rS t ht hg]
        · rw [if_neg e2]
          symm
          apply rO
          intro t' ht' hg'
          refine ⟨fun e => ?_, fun e => ?_⟩
          · have := same t ht hg t' ht' hg' x hx (by rw [e]; exact inS _)
            rw [this] at e2
            exact e2 e
          · have := same t ht hg t' ht' hg' x hx (by rw [e]; exact inE _)
            rw [this] at e1
            exact e1 e
    · refine ⟨a, by rw [h2 t ht hg]; rfl, ?_⟩
      rintro x ⟨hg', -⟩
      exact absurd hg' hg
  · intro x hx
    apply rO
    intro t ht hg
    refine ⟨fun e => hx t ht ⟨hg, ?_⟩, fun e => hx t ht ⟨hg, ?_⟩⟩
    · rw [e]; exact inS _
    · rw [e]; exact inE _

/-- A channel array of at least `n` numbers in the memory. -/
structure Chan (s : Slot) (l : MemLocation) (size n : Nat) (pos : Nat → Nat) : Prop where
  type : s.desc.type = .int
  dims : s.desc.numDims = 1
  loc : s.desc.location = l
  data : s.desc.data ≠ none
  strides : ∀ i, i < n → (pos i : Int) = s.base + i * s.desc.strideElementsDim 0
  fits : ∀ i, i < n → pos i < size

theorem Chan.view {s : Slot} {l : MemLocation} {size n : Nat} {pos : Nat → Nat} (h : Chan s l size n pos) :
    checkAndViewConst s.desc .int 1 l .success = (mkView s.desc 1 .success, .success) := by
  have := (viewConst_status s.desc .int 1 l .success).2 ⟨rfl, h.type, by simpa using h.dims, h.loc⟩
  have e : (checkAndViewConst s.desc .int 1 l .success).1 = mkView s.desc 1 (checkAndViewConst s.desc .int 1 l .success).2 := rfl
  rw [this] at e
  exact Prod.ext e this

theorem Chan.viewOut {s : Slot} {l : MemLocation} {size n : Nat} {pos : Nat → Nat} (h : Chan s l size n pos)
    (hr : s.desc.isReadOnly = false) :
    checkAndView s.desc .int 1 l .success = (mkView s.desc 1 .success, .success) := by
  have := (view_status s.desc .int 1 l .success).2 ⟨rfl, h.type, by simpa using h.dims, h.loc, h.data, hr⟩
  have e : (checkAndView s.desc .int 1 l .success).1 = mkView s.desc 1 (checkAndView s.desc .int 1 l .success).2 := rfl
  rw [this] at e
  exact Prod.ext e this

theorem Chan.place {s : Slot} {l : MemLocation} {size n : Nat} {pos : Nat → Nat} (h : Chan s l size n pos) (i : Nat)
    (hi : i < n) : place s.base (mkView s.desc 1 .success) i = pos i := by
  unfold Clamp.place
  rw [if_neg (by exact h.data), h.strides i hi]
  simp [mkView, List.range_succ, dot]

/-- The arguments of a clamping call that make sense. -/
structure Args (cuda : Bool) (mU : Mem) (si ei so eo : Slot) (size n : Nat) (P : Pos) : Prop where
  loc : mU.location = .cpu ∨ mU.location = .gpu ∧ cuda = true ∧ 0 < n
  type : mU.type = .double ∨ mU.type = .float
  dims : mU.numDims = 2
  rows : mU.shapeDim 0 = n
  hsi : Chan si mU.location size n P.si
  hei : Chan ei mU.location size n P.ei
  hso : Chan so mU.location size n P.so
  heo : Chan eo mU.location size n P.eo
  wso : so.desc.isReadOnly = false
  weo : eo.desc.isReadOnly = false
  apart : P.Apart n

/-- A call, given what its rows do alone. -/
theorem call_yields {cuda : Bool} {mU : Mem} {si ei so eo : Slot} {n : Nat} {P : Pos} {a : Arr Int}
    (h : Args cuda mU si ei so eo a.size n P) (row : View → Cells → Int → Prog Int) (startRow endRow : Int)
    (hb : mU.location = .cpu → endRow ≤ n) (val : Nat → Int × Int)
    (hrow : ∀ i : Nat, i < n → (row (mkView mU 2 .success) (P.cells i) i).Within (P.Row i) ∧
      (row (mkView mU 2 .success) (P.cells i) i).exec a =
        some ((a.put (P.so i) (val i).1).put (P.eo i) (val i).2)) :
    let job := clampCall cuda row mU si ei so eo startRow endRow .success
    let rr := rowRange n startRow endRow
    job.status = .success ∧ ∃ r, Yields job.prog job.threads a r ∧ r.size = a.size ∧
      (∀ i : Nat, i < n → rr.1 ≤ i → (i : Int) < rr.2 → r.get (P.so i) = (val i).1 ∧ r.get (P.eo i) = (val i).2) ∧
      ∀ x, (∀ i : Nat, i < n → rr.1 ≤ i → (i : Int) < rr.2 → x ≠ P.so i ∧ x ≠ P.eo i) → r.get x = a.get x := by
  intro job rr
  have hcells : ∀ i : Nat, i < n → (⟨place si.base (mkView si.desc 1 .success) i,
      place ei.base (mkView ei.desc 1 .success) i, place so.base (mkView so.desc 1 .success) i,
      place eo.base (mkView eo.desc 1 .success) i⟩ : Cells) = P.cells i := by
    intro i hi
    rw [h.hsi.place i hi, h.hei.place i hi, h.hso.place i hi, h.heo.place i hi]
    rfl
  have hr0 : 0 ≤ rr.1 := by
    simp only [rr]
    unfold rowRange
    split_ifs <;> simp <;> omega
  have hj : job = clampCall cuda row mU si ei so eo startRow endRow .success := rfl
  unfold clampCall at hj
  rw [if_neg (by simp), h.rows] at hj
  dsimp only at hj
  change job = (match mU.location with
    | .cpu => if mU.type = .double ∨ mU.type = .float then cpuJob row mU si ei so eo rr.1 rr.2 .success
      else Job.none .dataType
    | .gpu => gpuJob cuda row mU si ei so eo rr.1 rr.2 .success
    | .other => Job.none .success) at hj
  have g1 := h.hsi.view
  have g2 := h.hei.view
  have g3 := h.hso.viewOut h.wso
  have g4 := h.heo.viewOut h.weo
  have g0 := GridUtil.viewConst_ok (m := mU) (t := mU.type) (l := mU.location) h.dims rfl rfl
  rcases h.loc with hl | ⟨hl, hc, hn⟩
  · rw [hl] at hj g1 g2 g3 g4 g0
    dsimp only at hj
    rw [if_pos h.type] at hj
    unfold cpuJob at hj
    rw [g0] at hj
    dsimp only at hj
    rw [g1] at hj
    dsimp only at hj
    rw [g2] at hj
    dsimp only at hj
    rw [g3] at hj
    dsimp only at hj
    rw [g4] at hj
    dsimp only at hj
    have hr1 : rr.2 ≤ n := by
      have := hb hl
      simp only [rr]
      unfold rowRange
      split_ifs <;> simp <;> omega
    rw [hj]
    dsimp only
    refine ⟨rfl, ?_⟩
    have key : ∀ t ∈ rowsOf rr.1 rr.2, t.toNat < n ∧ t = ((t.toNat : Nat) : Int) := by
      intro t ht
      have := mem_rowsOf.1 ht
      omega
    obtain ⟨r, r1, r2, r3, r4⟩ := rows_yield (fun i =>
        row (mkView mU 2 .success) ⟨place si.base (mkView si.desc 1 .success) i,
          place ei.base (mkView ei.desc 1 .success) i, place so.base (mkView so.desc 1 .success) i,
          place eo.base (mkView eo.desc 1 .success) i⟩ i) (rowsOf rr.1 rr.2) (fun _ => True) Int.toNat n P h.apart
      (fun t ht _ => (key t ht).1) (fun t ht t' ht' _ _ e => by
        rw [(key t ht).2, (key t' ht').2, e]) a val (fun t ht _ => by
        obtain ⟨k1, k2⟩ := key t ht
        have := hrow t.toNat k1
        rw [← hcells _ k1, ← k2] at this
        exact this) (fun t _ ht => absurd trivial ht)
    refine ⟨r, r1, r2, fun i hi h1 h2 => ?_, fun x hx => r4 x fun t ht _ => ?_⟩
    · have := r3 (i : Int) (mem_rowsOf.2 ⟨h1, h2⟩) trivial
      rwa [Int.toNat_natCast] at this
    · obtain ⟨k1, k2⟩ := key t ht
      have := mem_rowsOf.1 ht
      exact hx t.toNat k1 (by omega) (by omega)
  · rw [hl] at hj g1 g2 g3 g4 g0
    dsimp only at hj
    unfold gpuJob at hj
    rw [g1] at hj
    dsimp only at hj
    rw [g2] at hj
    dsimp only at hj
    rw [g3] at hj
    dsimp only at hj
    rw [g4] at hj
    dsimp only at hj
    rw [if_neg (not_not.2 h.type), g0] at hj
    dsimp only at hj
    have hbl := le_blocks n 256 (by omega)
    rw [if_neg (by simp), h.rows, Int.toNat_natCast, if_neg (by
      rintro (e | e)
      · rw [hc] at e; cases e
      · rw [e] at hbl; omega)] at hj
    have hsh : (mkView mU 2 .success).shape.getD 0 0 = n := by
      have := h.rows
      simp [mkView, List.range_succ, this]
    rw [hsh] at hj
    rw [hj]
    dsimp only
    refine ⟨rfl, ?_⟩
    have key : ∀ t : Int, t ∈ rowsOf 0 ((blocks n 256 : Int) * 256) → ¬ (t + rr.1 ≥ rr.2 ∨ t + rr.1 ≥ (n : Int)) →
        (t + rr.1).toNat < n ∧ t + rr.1 = (((t + rr.1).toNat : Nat) : Int) := by
      intro t ht hg
      have := mem_rowsOf.1 ht
      omega
    obtain ⟨r, r1, r2, r3, r4⟩ := rows_yield (fun t => if t + rr.1 ≥ rr.2 ∨ t + rr.1 ≥ (n : Int) then .done else
        row (mkView mU 2 .success) ⟨place si.base (mkView si.desc 1 .success) (t + rr.1),
          place ei.base (mkView ei.desc 1 .success) (t + rr.1), place so.base (mkView so.desc 1 .success) (t + rr.1),
          place eo.base (mkView eo.desc 1 .success) (t + rr.1)⟩ (t + rr.1)) (rowsOf 0 ((blocks n 256 : Int) * 256))
      (fun t => ¬ (t + rr.1 ≥ rr.2 ∨ t + rr.1 ≥ (n : Int))) (fun t => (t + rr.1).toNat) n P h.apart
      (fun t ht hg => (key t ht hg).1) (fun t ht t' ht' hg hg' e => by
        have h1 := (key t ht hg).2
        have h2 := (key t' ht' hg').2
        rw [e, ← h2] at h1
        omega) a val (fun t ht hg => by
        obtain ⟨k1, k2⟩ := key t ht hg
        have := hrow (t + rr.1).toNat k1
        rw [← hcells _ k1, ← k2] at this
        rw [if_neg hg]
        exact this) (fun t _ ht => by
        rw [if_pos (not_not.1 ht)])
    refine ⟨r, r1, r2, fun i hi h1 h2 => ?_, fun x hx => r4 x fun t ht hg => ?_⟩
    · have := r3 ((i : Int) - rr.1) (mem_rowsOf.2 ⟨by omega, by omega⟩) (by omega)
      rwa [show (i : Int) - rr.1 + rr.1 = i by ring, Int.toNat_natCast] at this
    · obtain ⟨k1, k2⟩ := key t ht hg
      have := mem_rowsOf.1 ht
      exact hx (t + rr.1).toNat k1 (by omega) (by omega)

/-- **C93, one coordinate.**  With sensible arguments, on the CPU or the GPU, the call succeeds; under every
interleaving every row of the row range gets exactly the input channels selected, and nothing else changes.  Inputs
and outputs may be the same arrays. -/
theorem C93_single_partial {cuda : Bool} {mU : Mem} {si ei so eo : Slot} {n : Nat} {P : Pos} {a : Arr Int}
    (h : Args cuda mU si ei so eo a.size n P) (c0 : K) (uvw : Arr K) (posU : Nat → Nat → Nat)
    (hU : GridUtil.Plane mU uvw.size n 3 posU) (dim : Nat) (hdim : dim < 3) (freq0 dfreq lo hi : K)
    (startRow endRow : Int) (hb : mU.location = .cpu → endRow ≤ n) :
    let job := clampCall cuda (singleRow c0 uvw dim freq0 dfreq lo hi) mU si ei so eo startRow endRow .success
    let rr := rowRange n startRow endRow
    job.status = .success ∧ ∃ r, Yields job.prog job.threads a r ∧ r.size = a.size ∧
      (∀ i : Nat, i < n → rr.1 ≤ i → (i : Int) < rr.2 → r.get (P.so i) ≤ r.get (P.eo i) ∧
        ∀ ch : Int, (r.get (P.so i) ≤ ch ∧ ch < r.get (P.eo i)) ↔
          (a.get (P.si i) ≤ ch ∧ ch < a.get (P.ei i) ∧
            Sel (uvw.get (posU i dim) * (freq0 / c0)) (uvw.get (posU i dim) * (dfreq / c0)) lo hi ch)) ∧
      ∀ x, (∀ i : Nat, i < n → rr.1 ≤ i → (i : Int) < rr.2 → x ≠ P.so i ∧ x ≠ P.eo i) → r.get x = a.get x := by
  have spec : ∀ i : Nat, ∃ v : Int × Int,
      clampAxis (uvw.get (posU i dim) * (freq0 / c0)) (uvw.get (posU i dim) * (dfreq / c0)) lo hi (a.get (P.si i))
        (a.get (P.ei i)) = some v ∧ v.1 ≤ v.2 ∧ ∀ ch : Int, (v.1 ≤ ch ∧ ch < v.2) ↔
          (a.get (P.si i) ≤ ch ∧ ch < a.get (P.ei i) ∧
            Sel (uvw.get (posU i dim) * (freq0 / c0)) (uvw.get (posU i dim) * (dfreq / c0)) lo hi ch) := by
    intro i
    obtain ⟨s, e, h1, h2, h3⟩ := clampAxis_spec (uvw.get (posU i dim) * (freq0 / c0))
      (uvw.get (posU i dim) * (dfreq / c0)) lo hi (a.get (P.si i)) (a.get (P.ei i))
    exact ⟨(s, e), h1, h2, h3⟩
  choose val v1 v2 v3 using spec
  obtain ⟨j1, r, j2, j3, j4, j5⟩ := call_yields h (singleRow c0 uvw dim freq0 dfreq lo hi) startRow endRow hb val (by
    intro i hi
    have hread : uvw.read (dot [(i : Int), (dim : Int)] (mkView mU 2 .success).stride) =
        some (uvw.get (posU i dim)) := by
      have := GridUtil.plane_addr hU hi hdim
      unfold GridUtil.addr at this
      dsimp only at this
      rw [this, Arr.read_nat, if_pos (hU.fits i dim hi hdim)]
    unfold singleRow
    rw [hread]
    refine ⟨axis_within P i _ (fun _ h => h) _ _ _ _ _ _ trivial, ?_⟩
    show (axisProg _ _ _ _ _ _ _).exec a = _
    rw [axis_exec P i (h.apart.outs i hi) (h.apart.order i hi) true (by simp) _ _ _ _ _ _ (h.hsi.fits i hi)
      (h.hei.fits i hi) (h.hso.fits i hi) (h.heo.fits i hi), v1]
    rfl)
  refine ⟨j1, r, j2, j3, fun i hi h1 h2 => ?_, j5⟩
  obtain ⟨e1, e2⟩ := j4 i hi h1 h2
  rw [e1, e2]
  exact ⟨v2 i, v3 i⟩

/-- **C93, two coordinates.** -/
theorem C93_uv_partial {cuda : Bool} {mU : Mem} {si ei so eo : Slot} {n : Nat} {P : Pos} {a : Arr Int}
    (h : Args cuda mU si ei so eo a.size n P) (c0 : K) (uvw : Arr K) (posU : Nat → Nat → Nat)
    (hU : GridUtil.Plane mU uvw.size n 3 posU) (freq0 dfreq loU hiU loV hiV : K)
    (startRow endRow : Int) (hb : mU.location = .cpu → endRow ≤ n) :
    let job := clampCall cuda (uvRow c0 uvw freq0 dfreq loU hiU loV hiV) mU si ei so eo startRow endRow .success
    let rr := rowRange n startRow endRow
    job.status = .success ∧ ∃ r, Yields job.prog job.threads a r ∧ r.size = a.size ∧
      (∀ i : Nat, i < n → rr.1 ≤ i → (i : Int) < rr.2 → r.get (P.so i) ≤ r.get (P.eo i) ∧
        ∀ ch : Int, (r.get (P.so i) ≤ ch ∧ ch < r.get (P.eo i)) ↔
          (a.get (P.si i) ≤ ch ∧ ch < a.get (P.ei i) ∧
            Sel (uvw.get (posU i 0) * (freq0 / c0)) (uvw.get (posU i 0) * (dfreq / c0)) loU hiU ch ∧
            Sel (uvw.get (posU i 1) * (freq0 / c0)) (uvw.get (posU i 1) * (dfreq / c0)) loV hiV ch)) ∧
      ∀ x, (∀ i : Nat, i < n → rr.1 ≤ i → (i : Int) < rr.2 → x ≠ P.so i ∧ x ≠ P.eo i) → r.get x = a.get x := by
  have spec : ∀ i : Nat, ∃ v : Int × Int,
      clampAxis2 (uvw.get (posU i 0) * (freq0 / c0)) (uvw.get (posU i 0) * (dfreq / c0))
        (uvw.get (posU i 1) * (freq0 / c0)) (uvw.get (posU i 1) * (dfreq / c0)) loU hiU loV hiV (a.get (P.si i))
        (a.get (P.ei i)) = some v ∧ v.1 ≤ v.2 ∧ ∀ ch : Int, (v.1 ≤ ch ∧ ch < v.2) ↔
          (a.get (P.si i) ≤ ch ∧ ch < a.get (P.ei i) ∧
            Sel (uvw.get (posU i 0) * (freq0 / c0)) (uvw.get (posU i 0) * (dfreq / c0)) loU hiU ch ∧
            Sel (uvw.get (posU i 1) * (freq0 / c0)) (uvw.get (posU i 1) * (dfreq / c0)) loV hiV ch) := by
    intro i
    obtain ⟨s, e, h1, h2, h3⟩ := clampAxis2_spec (uvw.get (posU i 0) * (freq0 / c0))
      (uvw.get (posU i 0) * (dfreq / c0)) (uvw.get (posU i 1) * (freq0 / c0)) (uvw.get (posU i 1) * (dfreq / c0))
      loU hiU loV hiV (a.get (P.si i)) (a.get (P.ei i))
    exact ⟨(s, e), h1, h2, h3⟩
  choose val v1 v2 v3 using spec
  obtain ⟨j1, r, j2, j3, j4, j5⟩ := call_yields h (uvRow c0 uvw freq0 dfreq loU hiU loV hiV) startRow endRow hb val (by
    intro i hi
    have hread : ∀ d : Nat, d < 3 → uvw.read (dot [(i : Int), (d : Int)] (mkView mU 2 .success).stride) =
        some (uvw.get (posU i d)) := by
      intro d hd
      have := GridUtil.plane_addr hU hi hd
      unfold GridUtil.addr at this
      dsimp only at this
      rw [this, Arr.read_nat, if_pos (hU.fits i d hi hd)]
    have e0 := hread 0 (by omega)
    have e1 := hread 1 (by omega)
    rw [Nat.cast_zero] at e0
    rw [Nat.cast_one] at e1
    have inS : P.Row i (P.so i) := .inr (.inr (.inl rfl))
    have inE : P.Row i (P.eo i) := .inr (.inr (.inr rfl))
    have hso := h.hso.fits i hi
    have heo := h.heo.fits i hi
    have hne := h.apart.outs i hi
    let Q : Pos := ⟨P.so, P.eo, P.so, P.eo⟩
    have hQ : ∀ x, Q.Row i x → P.Row i x := by
      rintro x (e | e | e | e) <;> rw [e]
      · exact inS
      · exact inE
      · exact inS
      · exact inE
    unfold uvRow
    rw [e0, e1]
    refine ⟨axis_within P i _ (fun _ h => h) _ _ _ _ _ _ ⟨inS, fun s => ⟨inE, fun e => ?_⟩⟩, ?_⟩
    · dsimp only
      split_ifs
      · trivial
      · exact axis_within Q i _ hQ _ _ _ _ _ _ trivial
    · show (axisProg _ _ _ _ _ _ _).exec a = _
      rw [axis_exec P i hne (h.apart.order i hi) true (by simp) _ _ _ _ _ _ (h.hsi.fits i hi)
        (h.hei.fits i hi) hso heo]
      have hv := v1 i
      unfold clampAxis2 at hv
      cases hA : clampAxis (uvw.get (posU i 0) * (freq0 / c0)) (uvw.get (posU i 0) * (dfreq / c0)) loU hiU
          (a.get (P.si i)) (a.get (P.ei i)) with
      | none => rw [hA] at hv; cases hv
      | some q =>
        rw [hA] at hv
        simp only [Option.bind_some] at hv ⊢
        show (Prog.read ((P.so i : Nat) : Int) fun s => .read ((P.eo i : Nat) : Int) fun e => _).exec _ = _
        rw [exec_read _ _ (by exact hso), exec_read _ _ (by exact heo)]
        simp only [Arr.put_get, if_true, if_neg hne]
        by_cases hq : q.2 ≤ q.1
        · rw [if_pos hq] at hv
          rw [if_pos hq]
          cases hv
          rfl
        · rw [if_neg hq] at hv
          rw [if_neg hq]
          show (axisProg (Q.cells i) _ _ _ _ _ _).exec _ = _
          rw [axis_exec Q i hne hne.symm false (fun _ => ⟨rfl, rfl⟩) _ _ _ _ _ _ (by exact hso) (by exact heo)
            (by exact hso) (by exact heo)]
          show (clampAxis _ _ _ _ ((_ : Arr Int).get (P.so i)) ((_ : Arr Int).get (P.eo i))).bind _ = _
          simp only [Arr.put_get, if_true, if_neg hne]
          rw [hv]
          simp only [Option.bind_some, Prog.exec]
          congr 1
          show (((a.put (P.so i) q.1).put (P.eo i) q.2).put (P.so i) _).put (P.eo i) _ = _
          unfold Arr.put
          dsimp only
          congr 1
          funext x
          split_ifs <;> simp_all)
  refine ⟨j1, r, j2, j3, fun i hi h1 h2 => ?_, j5⟩
  obtain ⟨e1, e2⟩ := j4 i hi h1 h2
  rw [e1, e2]
  exact ⟨v2 i, v3 i⟩

end Sdp.Clamp
