import Mathlib.Algebra.BigOperators.Group.List.Lemmas
import Mathlib.Algebra.BigOperators.Ring.List
import Mathlib.Algebra.Order.Floor.Ring
import Mathlib.Algebra.Order.Field.Basic
import Mathlib.Analysis.SpecialFunctions.Pow.Real
import Mathlib.Tactic.Linarith
import Mathlib.Tactic.FieldSimp
import Mathlib.Tactic.NormNum
import Mathlib.Data.Rat.Floor
import Verif.Weighting.Model

/-!
# C16 — uniform weighting;  C17 — Briggs weighting
-/

namespace Sdp.Weighting

section
variable {F : Type} [Field F] [LinearOrder F] [FloorRing F]

/-! ## Specification -/

/-- Buffer sizes: `uvw` [times, baselines, 3], `freq` [channels], weights
[times, baselines, channels, pols], grid [grid, grid, pols]. -/
structure Sizes (D : Dims) (uvw freq win grid out : Arr F) : Prop where
  uvw : uvw.size = D.times * D.baselines * 3
  freq : freq.size = D.channels
  win : win.size = D.times * D.baselines * D.channels * D.pols
  grid : grid.size = D.grid * D.grid * D.pols
  out : out.size = D.times * D.baselines * D.channels * D.pols

/-- A sample: time, baseline, channel, polarisation. -/
abbrev Sample := Nat × Nat × Nat × Nat

def samples (D : Dims) : List Sample := nest4 D.times D.baselines D.channels D.pols

/-- Row-major position of a sample in the weight arrays. -/
def pos (D : Dims) (x : Sample) : Nat :=
  D.pols * (D.channels * (D.baselines * x.1 + x.2.1) + x.2.2.1) + x.2.2.2

/-- Row-major position of a grid cell. -/
def cellPos (D : Dims) (k : Int × Int) (p : Nat) : Nat :=
  D.pols * (D.grid * k.1.toNat + k.2.toNat) + p

/-- The (u, v) cell of a sample. -/
def cellOf (D : Dims) (maxUv : F) (uvw freq : Arr F) (x : Sample) : Int × Int :=
  (cellIdx D maxUv (uvw.get (3 * (D.baselines * x.1 + x.2.1))) (freq.get x.2.2.1),
   cellIdx D maxUv (uvw.get (3 * (D.baselines * x.1 + x.2.1) + 1)) (freq.get x.2.2.1))

/-- Inside the grid. -/
def InGrid (D : Dims) (k : Int × Int) : Prop :=
  0 ≤ k.1 ∧ k.1 < D.grid ∧ 0 ≤ k.2 ∧ k.2 < D.grid

instance (D : Dims) (k : Int × Int) : Decidable (InGrid D k) := by unfold InGrid; infer_instance

/-- Total of `f` over the samples of polarisation `p` in cell `k`. -/
def cellTotal (D : Dims) (cellf : Sample → Int × Int) (k : Int × Int) (p : Nat) (f : Sample → F) :
    F :=
  ((samples D).map fun x => if cellf x = k ∧ x.2.2.2 = p then f x else 0).sum

/-! ## Index lemmas -/

theorem visIdx_eq (D : Dims) (x : Sample) :
    visIdx D x.1 x.2.1 x.2.2.1 x.2.2.2 = (pos D x : Int) := by
  unfold visIdx index4 pos; push_cast; ring

theorem pos_lt (D : Dims) {x : Sample} (hx : x ∈ samples D) :
    pos D x < D.times * D.baselines * D.channels * D.pols := by
  obtain ⟨h1, h2, h3, h4⟩ := mem_nest4.1 hx
  exact flat_lt (flat_lt (flat_lt h1 h2) h3) h4

theorem pos_nodup (D : Dims) : ((samples D).map (pos D)).Nodup := by
  have := nest4_flat D.times D.baselines D.channels D.pols
  unfold samples
  rw [show (nest4 D.times D.baselines D.channels D.pols).map (pos D) =
    List.range (D.times * D.baselines * D.channels * D.pols) from this]
  exact List.nodup_range

theorem gridIdx_eq (D : Dims) {k : Int × Int} (hk : InGrid D k) (p : Nat) :
    gridIdx D k p = (cellPos D k p : Int) := by
  obtain ⟨h1, _, h3, _⟩ := hk
  unfold gridIdx index3 cellPos
  push_cast [Int.toNat_of_nonneg h1, Int.toNat_of_nonneg h3]; ring

theorem cellPos_lt (D : Dims) {k : Int × Int} (hk : InGrid D k) {p : Nat} (hp : p < D.pols) :
    cellPos D k p < D.grid * D.grid * D.pols := by
  obtain ⟨h1, h2, h3, h4⟩ := hk
  exact flat_lt (flat_lt (by omega) (by omega)) hp

theorem cellPos_inj (D : Dims) {k k' : Int × Int} (hk : InGrid D k) (hk' : InGrid D k')
    {p p' : Nat} (hp : p < D.pols) (hp' : p' < D.pols) (h : cellPos D k p = cellPos D k' p') :
    k = k' ∧ p = p' := by
  obtain ⟨h1, h2, h3, h4⟩ := hk
  obtain ⟨h1', h2', h3', h4'⟩ := hk'
  obtain ⟨e1, e2⟩ := flat_inj hp hp' h
  obtain ⟨e3, e4⟩ := flat_inj (by omega) (by omega) e1
  refine ⟨?_, e2⟩
  obtain ⟨a, b⟩ := k
  obtain ⟨a', b'⟩ := k'
  simp only [Prod.mk.injEq] at *
  omega

theorem cell_eq (D : Dims) (maxUv : F) {uvw freq win grid out : Arr F}
    (hS : Sizes D uvw freq win grid out) {x : Sample} (hx : x ∈ samples D) :
    cell D maxUv uvw freq x.1 x.2.1 x.2.2.1 = some (cellOf D maxUv uvw freq x) := by
  obtain ⟨h1, h2, h3, h4⟩ := mem_nest4.1 hx
  have hb := flat_lt h1 h2
  have e0 : index3 D.baselines 3 x.1 x.2.1 0 = ((3 * (D.baselines * x.1 + x.2.1) : Nat) : Int) := by
    unfold index3; push_cast; ring
  have e1 : index3 D.baselines 3 x.1 x.2.1 0 + 1 =
      ((3 * (D.baselines * x.1 + x.2.1) + 1 : Nat) : Int) := by rw [e0]; push_cast; ring
  unfold cell
  rw [e1, e0, Arr.read_nat, Arr.read_nat, Arr.read_nat, hS.freq, hS.uvw, if_pos h3,
    if_pos (by omega), if_pos (by omega)]
  rfl

/-- Every sample's cell is non-negative (the test the code does not make). -/
def NonNeg (D : Dims) (maxUv : F) (uvw freq : Arr F) : Prop :=
  ∀ x ∈ samples D, 0 ≤ (cellOf D maxUv uvw freq x).1 ∧ 0 ≤ (cellOf D maxUv uvw freq x).2

theorem tested_iff (D : Dims) {k : Int × Int} (h : 0 ≤ k.1 ∧ 0 ≤ k.2) :
    tested D k = true ↔ InGrid D k := by
  simp [tested, InGrid]; omega

/-- Gridding the weights in any order. -/
theorem gridWrite_perm (D : Dims) (maxUv : F) {uvw freq win grid out : Arr F}
    (hS : Sizes D uvw freq win grid out) (hN : NonNeg D maxUv uvw freq) (L : List Sample)
    (hL : L.Perm (samples D)) :
    ∃ g, loop (writeBody D maxUv uvw freq win) grid L = some g ∧ g.size = grid.size ∧
      ∀ k, InGrid D k → ∀ p < D.pols, g.get (cellPos D k p) = grid.get (cellPos D k p) +
        cellTotal D (cellOf D maxUv uvw freq) k p (fun x => win.get (pos D x)) := by
  set cf := cellOf D maxUv uvw freq with hcf
  have hloop : loop (writeBody D maxUv uvw freq win) grid L =
      loop (fun (g : Arr F) (x : Sample) => g.addAt (gridIdx D (cf x) x.2.2.2) (win.get (pos D x)))
        grid (L.filter fun x => tested D (cf x)) := by
    rw [← loop_filter]
    apply loop_congr
    intro x hx s
    have hx := hL.mem_iff.1 hx
    unfold writeBody
    rw [cell_eq D maxUv hS hx, Option.bind_some]
    congr 1
    rw [visIdx_eq, Arr.read_nat, hS.win, if_pos (pos_lt D hx), Option.bind_some]
  obtain ⟨g, hg, hs, hv⟩ := Arr.accum_spec (L.filter fun x => tested D (cf x))
    (fun x => gridIdx D (cf x) x.2.2.2) (fun x => win.get (pos D x)) grid (by
      intro x hx
      rw [List.mem_filter] at hx
      have hx := And.intro (hL.mem_iff.1 hx.1) hx.2
      have hin := (tested_iff D (hN x hx.1)).1 hx.2
      rw [gridIdx_eq D hin, hS.grid]
      have := cellPos_lt D hin (mem_nest4.1 hx.1).2.2.2
      omega)
  refine ⟨g, by rw [hloop, hg], hs, fun k hk p hp => ?_⟩
  rw [hv]
  congr 1
  rw [sum_filter_map, (hL.map _).sum_eq]
  unfold cellTotal
  congr 1
  apply List.map_congr_left
  intro x hx
  have hp' := (mem_nest4.1 hx).2.2.2
  by_cases ht : tested D (cf x) = true
  · have hin := (tested_iff D (hN x hx)).1 ht
    rw [if_pos ht, gridIdx_eq D hin]
    by_cases he : cf x = k ∧ x.2.2.2 = p
    · rw [if_pos he, if_pos (by rw [← he.1, ← he.2])]
    · rw [if_neg he, if_neg]
      intro h
      exact he (cellPos_inj D hin hk hp' hp (by exact_mod_cast h))
  · rw [if_neg ht, if_neg]
    rintro ⟨he, -⟩
    exact ht ((tested_iff D (hN x hx)).2 (by rw [← he] at hk; exact hk))

theorem gridWrite_spec (D : Dims) (maxUv : F) {uvw freq win grid out : Arr F}
    (hS : Sizes D uvw freq win grid out) (hN : NonNeg D maxUv uvw freq) :
    ∃ g, gridWrite D maxUv uvw freq win grid = some g ∧ g.size = grid.size ∧
      ∀ k, InGrid D k → ∀ p < D.pols, g.get (cellPos D k p) = grid.get (cellPos D k p) +
        cellTotal D (cellOf D maxUv uvw freq) k p (fun x => win.get (pos D x)) :=
  gridWrite_perm D maxUv hS hN _ (List.Perm.refl _)

/-- Reading the uniform weights in any order. -/
theorem uniformRead_perm (D : Dims) (maxUv : F) {uvw freq win g out : Arr F}
    (hS : Sizes D uvw freq win g out) (hN : NonNeg D maxUv uvw freq) (L : List Sample)
    (hL : L.Perm (samples D)) :
    ∃ o, loop (uniformBody D maxUv uvw freq g) out L = some o ∧ o.size = out.size ∧
      (∀ x ∈ samples D, InGrid D (cellOf D maxUv uvw freq x) →
        o.get (pos D x) = 1 / g.get (cellPos D (cellOf D maxUv uvw freq x) x.2.2.2)) ∧
      (∀ x ∈ samples D, ¬ InGrid D (cellOf D maxUv uvw freq x) → o.get (pos D x) = out.get (pos D x)) := by
  set cf := cellOf D maxUv uvw freq with hcf
  have hloop : loop (uniformBody D maxUv uvw freq g) out L =
      loop (fun (o : Arr F) (x : Sample) => o.write (pos D x) (1 / g.get (cellPos D (cf x) x.2.2.2)))
        out (L.filter fun x => tested D (cf x)) := by
    rw [← loop_filter]
    apply loop_congr
    intro x hx s
    have hx := hL.mem_iff.1 hx
    unfold uniformBody
    rw [cell_eq D maxUv hS hx, Option.bind_some]
    by_cases ht : tested D (cf x) = true
    · have hin := (tested_iff D (hN x hx)).1 ht
      rw [if_pos ht, if_pos ht, visIdx_eq, gridIdx_eq D hin, Arr.read_nat, hS.grid,
        if_pos (cellPos_lt D hin (mem_nest4.1 hx).2.2.2), Option.bind_some]
    · rw [if_neg ht, if_neg ht]
  obtain ⟨o, ho, hos, hov, hof⟩ := Arr.store_spec (L.filter fun x => tested D (cf x))
    (fun x => (pos D x : Int)) (fun x => 1 / g.get (cellPos D (cf x) x.2.2.2))
    (by
      have : (L.filter fun x => tested D (cf x)).map (fun x => (pos D x : Int)) =
        ((L.filter fun x => tested D (cf x)).map (pos D)).map (fun n : Nat => (n : Int)) := by
        simp
      rw [this]
      exact (((hL.map (pos D)).nodup_iff.2 (pos_nodup D)).sublist (List.filter_sublist.map _)).map
        (fun a b h => by simpa using h))
    out (by
      intro x hx
      have := pos_lt D (hL.mem_iff.1 (List.mem_filter.1 hx).1)
      rw [hS.out]; omega)
  refine ⟨o, by rw [hloop, ho], hos, ?_, ?_⟩
  · intro x hx hin
    have := hov x (List.mem_filter.2 ⟨hL.mem_iff.2 hx, (tested_iff D (hN x hx)).2 hin⟩)
    rw [Int.toNat_natCast] at this
    exact this
  · intro x hx hin
    apply hof
    intro y hy heq
    rw [List.mem_filter] at hy
    have hxy : pos D y = pos D x := by exact_mod_cast heq
    have : y = x := List.inj_on_of_nodup_map (pos_nodup D) (hL.mem_iff.1 hy.1) hx hxy
    subst this
    exact hin ((tested_iff D (hN y hx)).1 hy.2)

/-! ## C16 -/

/-- C16 (partial).  If no cell index is negative, uniform weighting runs without
out-of-bounds accesses; every sample inside the grid receives one over the total
input weight of its cell (plus the grid's initial contents), every other sample's
output is left as it was, and the grid holds the totals.  Missing: the code does
not test for negative indices (`C16_negative_false`). -/
theorem C16_uniform_partial (D : Dims) (maxUv : F) {uvw freq win grid out : Arr F}
    (hS : Sizes D uvw freq win grid out) (hN : NonNeg D maxUv uvw freq) :
    ∃ g o, uniform D maxUv uvw freq win grid out = some (g, o) ∧ o.size = out.size ∧
      (∀ k, InGrid D k → ∀ p < D.pols, g.get (cellPos D k p) = grid.get (cellPos D k p) +
        cellTotal D (cellOf D maxUv uvw freq) k p (fun x => win.get (pos D x))) ∧
      (∀ x ∈ samples D, InGrid D (cellOf D maxUv uvw freq x) →
        o.get (pos D x) = 1 / (grid.get (cellPos D (cellOf D maxUv uvw freq x) x.2.2.2) +
          cellTotal D (cellOf D maxUv uvw freq) (cellOf D maxUv uvw freq x) x.2.2.2
            (fun y => win.get (pos D y)))) ∧
      (∀ x ∈ samples D, ¬ InGrid D (cellOf D maxUv uvw freq x) →
        o.get (pos D x) = out.get (pos D x)) := by
  obtain ⟨g, hg, hgs, hgv⟩ := gridWrite_spec D maxUv hS hN
  set cf := cellOf D maxUv uvw freq with hcf
  obtain ⟨o, ho, hos, hov, hof⟩ := uniformRead_perm D maxUv (win := win) (g := g) (out := out)
    ⟨hS.uvw, hS.freq, hS.win, by rw [hgs, hS.grid], hS.out⟩ hN _ (List.Perm.refl (samples D))
  refine ⟨g, o, ?_, hos, hgv, ?_, hof⟩
  · unfold uniform uniformRead
    rw [hg, Option.bind_some]
    show (loop (uniformBody D maxUv uvw freq g) out (samples D)).bind _ = _
    rw [ho]; rfl
  · intro x hx hin
    rw [hov x hx hin, hgv _ hin _ (mem_nest4.1 hx).2.2.2]

/-- C16: with an initially zero grid, the input weights of a cell times their output
weights total 1, for every cell with non-zero total weight. -/
theorem C16_cell_normalised_partial (D : Dims) (maxUv : F) {uvw freq win grid out : Arr F}
    (hS : Sizes D uvw freq win grid out) (hN : NonNeg D maxUv uvw freq)
    (hz : ∀ j, grid.get j = 0) :
    ∃ g o, uniform D maxUv uvw freq win grid out = some (g, o) ∧
      ∀ k, InGrid D k → ∀ p < D.pols,
        cellTotal D (cellOf D maxUv uvw freq) k p (fun x => win.get (pos D x)) ≠ 0 →
        cellTotal D (cellOf D maxUv uvw freq) k p
          (fun x => win.get (pos D x) * o.get (pos D x)) = 1 := by
  obtain ⟨g, o, hu, -, -, hin, -⟩ := C16_uniform_partial D maxUv hS hN
  refine ⟨g, o, hu, fun k hk p hp hne => ?_⟩
  set cf := cellOf D maxUv uvw freq with hcf
  set S := cellTotal D cf k p (fun x => win.get (pos D x)) with hSdef
  have : cellTotal D cf k p (fun x => win.get (pos D x) * o.get (pos D x)) = S * (1 / S) := by
    rw [hSdef]
    unfold cellTotal
    rw [← List.sum_map_mul_right]
    congr 1
    apply List.map_congr_left
    intro x hx
    by_cases he : cf x = k ∧ x.2.2.2 = p
    · have hk' : InGrid D (cf x) := by rw [he.1]; exact hk
      rw [if_pos he, if_pos he]
      simp only
      rw [hin x hx hk', hz, he.1, he.2, zero_add]
      rfl
    · rw [if_neg he, if_neg he, zero_mul]
  rw [this]; field_simp

end

/-- The grid index is in range when the coordinate (in wavelengths) is in
[−max, max), for an even grid. -/
theorem C16_in_range {F : Type} [Field F] [LinearOrder F] [IsStrictOrderedRing F] [FloorRing F]
    (D : Dims) (hG : D.grid % 2 = 0) (maxUv uv freq : F) (hm : 0 < maxUv)
    (h1 : -maxUv ≤ uv * (freq / c0)) (h2 : uv * (freq / c0) < maxUv) (hpos : 0 < D.grid) :
    0 ≤ cellIdx D maxUv uv freq ∧ cellIdx D maxUv uv freq < D.grid := by
  unfold cellIdx
  have hh : (half D : Int) * 2 = D.grid := by unfold half; omega
  have hhp : (0 : F) < (half D : F) := by
    have : 0 < half D := by unfold half; omega
    exact_mod_cast this
  constructor
  · have : (-(half D : Int)) ≤ ⌊uv * (freq / c0) / maxUv * (half D : F)⌋ := by
      rw [Int.le_floor]
      push_cast
      have : -1 ≤ uv * (freq / c0) / maxUv := by rw [le_div_iff₀ hm]; linarith
      nlinarith
    omega
  · have : ⌊uv * (freq / c0) / maxUv * (half D : F)⌋ < (half D : Int) := by
      rw [Int.floor_lt]
      push_cast
      have : uv * (freq / c0) / maxUv < 1 := by rw [div_lt_one hm]; exact h2
      nlinarith
    omega

/-! ### Examples over ℚ -/

/-- One time, three baselines, one channel, one polarisation, 4×4 grid, c0 Hz
channel: u = 1, 1, −2 (max 2). -/
def exD : Dims := ⟨1, 3, 1, 1, 4⟩
def exUvw : Arr ℚ := ⟨9, fun i => if i = 6 then -2 else if i % 3 = 2 then 0 else 1⟩
def exFreq : Arr ℚ := ⟨1, fun _ => 299792458⟩
def exWin : Arr ℚ := ⟨3, fun i => i + 1⟩
def exGrid : Arr ℚ := ⟨16, fun _ => 0⟩

theorem ex_sizes : Sizes exD exUvw exFreq exWin exGrid exWin := by constructor <;> rfl

theorem ex_cells : (samples exD).map (cellOf exD 2 exUvw exFreq) = [(3, 3), (3, 3), (0, 3)] := by
  decide +kernel

theorem ex_nonneg : NonNeg exD 2 exUvw exFreq := by
  unfold NonNeg; decide +kernel

example : (uniform exD 2 exUvw exFreq exWin exGrid exWin).map
    (fun r => (List.range 3).map r.2.get) = some [1 / 3, 1 / 3, 1 / 3] := by decide +kernel

/-- Violation: a visibility with u below −max has a negative index, which passes the
test; the access is out of bounds. -/
theorem C16_negative_false :
    ∃ (D : Dims) (maxUv : ℚ) (uvw freq win grid out : Arr ℚ),
      Sizes D uvw freq win grid out ∧ (∀ x ∈ samples D, ¬ InGrid D (cellOf D maxUv uvw freq x)) ∧
      uniform D maxUv uvw freq win grid out = none :=
  ⟨⟨1, 1, 1, 1, 4⟩, 2, ⟨3, fun i => if i = 0 then -3 else 1⟩, exFreq, ⟨1, fun _ => 1⟩, exGrid,
    ⟨1, fun _ => 1⟩, by constructor <;> rfl, by decide +kernel, by decide +kernel⟩

/-- Violation: a visibility outside the grid in v (index −1) is gridded into, and
reweighted from, an unrelated cell of the previous row. -/
theorem C16_wrapped_false :
    ∃ (D : Dims) (maxUv : ℚ) (uvw freq win grid out g o : Arr ℚ) (x : Sample),
      Sizes D uvw freq win grid out ∧ x ∈ samples D ∧
      ¬ InGrid D (cellOf D maxUv uvw freq x) ∧
      uniform D maxUv uvw freq win grid out = some (g, o) ∧
      o.get (pos D x) ≠ out.get (pos D x) := by
  have h : (uniform ⟨1, 1, 1, 1, 4⟩ 2 ⟨3, fun i => if i = 1 then -3 else 1⟩ exFreq
      ⟨1, fun _ => 2⟩ exGrid ⟨1, fun _ => 7⟩).map (fun r => r.2.get 0) = some (1 / 2) := by
    decide +kernel
  obtain ⟨⟨g, o⟩, hr, ho⟩ := Option.map_eq_some_iff.1 h
  refine ⟨⟨1, 1, 1, 1, 4⟩, 2, _, _, _, _, _, g, o, (0, 0, 0, 0), ?_, by decide, ?_, hr, ?_⟩
  · constructor <;> rfl
  · decide +kernel
  · show o.get 0 ≠ 7
    rw [ho]; norm_num

/-- Violation: the number of polarisations of the grid is not compared with that of
the weights; with fewer the grid is overrun although every cell is inside. -/
theorem C16_grid_pols_unchecked_false :
    ∃ (D : Dims) (maxUv : ℚ) (uvw freq win grid out : Arr ℚ),
      (∀ x ∈ samples D, InGrid D (cellOf D maxUv uvw freq x)) ∧
      win.size = D.times * D.baselines * D.channels * D.pols ∧
      grid.size = D.grid * D.grid * 1 ∧
      uniform D maxUv uvw freq win grid out = none :=
  ⟨⟨1, 1, 1, 4, 2⟩, 2, ⟨3, fun _ => 1⟩, exFreq, ⟨4, fun _ => 1⟩, ⟨4, fun _ => 0⟩,
    ⟨4, fun _ => 1⟩, by decide +kernel, rfl, rfl, by decide +kernel⟩

/-! ## C17 -/

section
variable {F : Type} [Field F] [LinearOrder F] [FloorRing F]

/-- Total of `f` over the samples inside the grid. -/
def gridTotal (D : Dims) (cellf : Sample → Int × Int) (f : Sample → F) : F :=
  ((samples D).map fun x => if InGrid D (cellf x) then f x else 0).sum

/-- Summing in any order, from any initial values. -/
theorem sumWeights_perm (D : Dims) (maxUv : F) {uvw freq win grid out : Arr F}
    (hS : Sizes D uvw freq win grid out) (hN : NonNeg D maxUv uvw freq) (s₀ : F × F) (L : List Sample)
    (hL : L.Perm (samples D)) :
    loop (sumBody D maxUv uvw freq grid) s₀ L = some
      (s₀.1 + gridTotal D (cellOf D maxUv uvw freq)
        (fun x => grid.get (cellPos D (cellOf D maxUv uvw freq x) x.2.2.2)),
       s₀.2 + gridTotal D (cellOf D maxUv uvw freq)
        (fun x => grid.get (cellPos D (cellOf D maxUv uvw freq x) x.2.2.2) ^ 2)) := by
  set cf := cellOf D maxUv uvw freq with hcf
  have gen : ∀ (l : List Sample) (s : F × F), (∀ x ∈ l, x ∈ samples D) →
      loop (sumBody D maxUv uvw freq grid) s l = some
      (s.1 + (l.map fun x => if InGrid D (cf x) then
          grid.get (cellPos D (cf x) x.2.2.2) else 0).sum,
       s.2 + (l.map fun x => if InGrid D (cf x) then
          grid.get (cellPos D (cf x) x.2.2.2) ^ 2 else 0).sum) := by
    intro l
    induction l with
    | nil => intro s _; simp [loop]
    | cons x l ih =>
      intro s h
      have hx := h x (by simp)
      simp only [loop]
      rw [show sumBody D maxUv uvw freq grid s x = (cell D maxUv uvw freq x.1 x.2.1 x.2.2.1).bind fun k =>
        if tested D k then (grid.read (gridIdx D k x.2.2.2)).bind fun w => some (s.1 + w, s.2 + w * w)
        else some s from rfl]
      rw [cell_eq D maxUv hS hx, Option.bind_some]
      by_cases ht : tested D (cf x) = true
      · have hin := (tested_iff D (hN x hx)).1 ht
        rw [if_pos ht, gridIdx_eq D hin, Arr.read_nat, hS.grid,
          if_pos (cellPos_lt D hin (mem_nest4.1 hx).2.2.2), Option.bind_some, Option.bind_some,
          ih _ fun y hy => h y (by simp [hy])]
        have hin' : InGrid D (cf x) := hin
        simp only [List.map_cons, List.sum_cons, if_pos hin']
        rw [← hcf]
        congr 2 <;> ring
      · have hin : ¬ InGrid D (cf x) := fun hi => ht ((tested_iff D (hN x hx)).2 hi)
        rw [if_neg ht, Option.bind_some, ih _ fun y hy => h y (by simp [hy])]
        simp only [List.map_cons, List.sum_cons, if_neg hin, zero_add]
  rw [gen L s₀ fun x hx => hL.mem_iff.1 hx, (hL.map _).sum_eq, (hL.map _).sum_eq]
  rfl

theorem sumWeights_spec (D : Dims) (maxUv : F) {uvw freq win grid out : Arr F}
    (hS : Sizes D uvw freq win grid out) (hN : NonNeg D maxUv uvw freq) :
    sumWeights D maxUv uvw freq grid = some
      (gridTotal D (cellOf D maxUv uvw freq)
        (fun x => grid.get (cellPos D (cellOf D maxUv uvw freq x) x.2.2.2)),
       gridTotal D (cellOf D maxUv uvw freq)
        (fun x => grid.get (cellPos D (cellOf D maxUv uvw freq x) x.2.2.2) ^ 2)) := by
  have h := sumWeights_perm D maxUv hS hN (0, 0) (samples D) (List.Perm.refl _)
  simp only [zero_add] at h
  exact h

/-- The summed weight of the cell of a sample, including the initial grid. -/
def cellW (D : Dims) (maxUv : F) (uvw freq win grid : Arr F) (x : Sample) : F :=
  grid.get (cellPos D (cellOf D maxUv uvw freq x) x.2.2.2) +
    cellTotal D (cellOf D maxUv uvw freq) (cellOf D maxUv uvw freq x) x.2.2.2
      (fun y => win.get (pos D y))

/-- The Briggs factor `R = (5·10^−r)² / (ΣW² / ΣW)`, sums over the in-grid samples of
their cell's summed weight. -/
def briggsR (D : Dims) (maxUv tenPow : F) (uvw freq win grid : Arr F) : F :=
  (5 / tenPow) ^ 2 /
    (gridTotal D (cellOf D maxUv uvw freq) (fun x => cellW D maxUv uvw freq win grid x ^ 2) /
     gridTotal D (cellOf D maxUv uvw freq) (cellW D maxUv uvw freq win grid))

/-- Reading the Briggs weights in any order. -/
theorem briggsRead_perm (D : Dims) (maxUv R : F) {uvw freq win g out : Arr F}
    (hS : Sizes D uvw freq win g out) (hN : NonNeg D maxUv uvw freq) (L : List Sample)
    (hL : L.Perm (samples D)) :
    ∃ o, loop (briggsBody D maxUv R uvw freq g win) out L = some o ∧ o.size = out.size ∧
      (∀ x ∈ samples D, InGrid D (cellOf D maxUv uvw freq x) → o.get (pos D x) = win.get (pos D x) /
        (1 + R * g.get (cellPos D (cellOf D maxUv uvw freq x) x.2.2.2))) ∧
      (∀ x ∈ samples D, ¬ InGrid D (cellOf D maxUv uvw freq x) → o.get (pos D x) = out.get (pos D x)) := by
  set cf := cellOf D maxUv uvw freq with hcf
  have hloop : loop (briggsBody D maxUv R uvw freq g win) out L =
      loop (fun (o : Arr F) (x : Sample) => o.write (pos D x)
          (win.get (pos D x) / (1 + R * g.get (cellPos D (cf x) x.2.2.2))))
        out (L.filter fun x => tested D (cf x)) := by
    rw [← loop_filter]
    apply loop_congr
    intro x hx s
    have hx := hL.mem_iff.1 hx
    unfold briggsBody
    rw [cell_eq D maxUv hS hx, Option.bind_some]
    by_cases ht : tested D (cf x) = true
    · have hin := (tested_iff D (hN x hx)).1 ht
      rw [if_pos ht, if_pos ht, visIdx_eq, gridIdx_eq D hin, Arr.read_nat, hS.win,
        if_pos (pos_lt D hx), Option.bind_some, Arr.read_nat, hS.grid,
        if_pos (cellPos_lt D hin (mem_nest4.1 hx).2.2.2), Option.bind_some]
    · rw [if_neg ht, if_neg ht]
  obtain ⟨o, ho, hos, hov, hof⟩ := Arr.store_spec (L.filter fun x => tested D (cf x))
    (fun x => (pos D x : Int))
    (fun x => win.get (pos D x) / (1 + R * g.get (cellPos D (cf x) x.2.2.2)))
    (by
      have : (L.filter fun x => tested D (cf x)).map (fun x => (pos D x : Int)) =
        ((L.filter fun x => tested D (cf x)).map (pos D)).map (fun n : Nat => (n : Int)) := by
        simp
      rw [this]
      exact (((hL.map (pos D)).nodup_iff.2 (pos_nodup D)).sublist (List.filter_sublist.map _)).map
        (fun a b h => by simpa using h))
    out (by
      intro x hx
      have := pos_lt D (hL.mem_iff.1 (List.mem_filter.1 hx).1)
      rw [hS.out]; omega)
  refine ⟨o, by rw [hloop, ho], hos, ?_, ?_⟩
  · intro x hx hin
    have := hov x (List.mem_filter.2 ⟨hL.mem_iff.2 hx, (tested_iff D (hN x hx)).2 hin⟩)
    rw [Int.toNat_natCast] at this
    exact this
  · intro x hx hin
    apply hof
    intro y hy heq
    rw [List.mem_filter] at hy
    have hxy : pos D y = pos D x := by exact_mod_cast heq
    have : y = x := List.inj_on_of_nodup_map (pos_nodup D) (hL.mem_iff.1 hy.1) hx hxy
    subst this
    exact hin ((tested_iff D (hN y hx)).1 hy.2)

/-- C17 (partial, same missing case as C16): every in-grid sample of weight `w` in a
cell of summed weight `W` receives `w / (1 + R W)`; others are untouched. -/
theorem C17_formula_partial (D : Dims) (maxUv tenPow : F) {uvw freq win grid out : Arr F}
    (hS : Sizes D uvw freq win grid out) (hN : NonNeg D maxUv uvw freq) :
    ∃ g o, briggs D maxUv tenPow uvw freq win grid out = some (g, o) ∧ o.size = out.size ∧
      (∀ x ∈ samples D, InGrid D (cellOf D maxUv uvw freq x) →
        o.get (pos D x) = win.get (pos D x) /
          (1 + briggsR D maxUv tenPow uvw freq win grid * cellW D maxUv uvw freq win grid x)) ∧
      (∀ x ∈ samples D, ¬ InGrid D (cellOf D maxUv uvw freq x) →
        o.get (pos D x) = out.get (pos D x)) := by
  obtain ⟨g, hg, hgs, hgv⟩ := gridWrite_spec D maxUv hS hN
  have hS' : Sizes D uvw freq win g out := ⟨hS.uvw, hS.freq, hS.win, by rw [hgs, hS.grid], hS.out⟩
  have hsum := sumWeights_spec D maxUv hS' hN
  set cf := cellOf D maxUv uvw freq with hcf
  have hW : ∀ x ∈ samples D, InGrid D (cf x) →
      g.get (cellPos D (cf x) x.2.2.2) = cellW D maxUv uvw freq win grid x := by
    intro x hx hin
    rw [hgv _ hin _ (mem_nest4.1 hx).2.2.2]; rfl
  have htot : ∀ (φ : F → F), gridTotal D cf (fun x => φ (g.get (cellPos D (cf x) x.2.2.2))) =
      gridTotal D cf (fun x => φ (cellW D maxUv uvw freq win grid x)) := by
    intro φ
    unfold gridTotal
    congr 1
    apply List.map_congr_left
    intro x hx
    by_cases hin : InGrid D (cf x)
    · rw [if_pos hin, if_pos hin]; simp only; rw [hW x hx hin]
    · rw [if_neg hin, if_neg hin]
  have h1 := htot id
  have h2 := htot (fun y => y ^ 2)
  simp only [id] at h1
  rw [h1, h2] at hsum
  have hR : robustness (gridTotal D cf (fun x => cellW D maxUv uvw freq win grid x ^ 2))
      (gridTotal D cf (fun x => cellW D maxUv uvw freq win grid x)) tenPow =
      briggsR D maxUv tenPow uvw freq win grid := by
    unfold robustness briggsR
    rw [mul_one]
  set R := briggsR D maxUv tenPow uvw freq win grid with hRdef
  obtain ⟨o, ho, hos, hov, hof⟩ := briggsRead_perm D maxUv R hS' hN _ (List.Perm.refl (samples D))
  refine ⟨g, o, ?_, hos, ?_, hof⟩
  · unfold briggs
    rw [hg, Option.bind_some, hsum, Option.bind_some, hR]
    show (loop (briggsBody D maxUv R uvw freq g win) out (samples D)).bind _ = _
    rw [ho]; rfl
  · intro x hx hin
    rw [hov x hx hin, hW x hx hin]

end

/-- C17: with non-negative weights and grid, at least one in-grid sample of positive
weight: the sums divided by are positive, outputs are between 0 and the input weight, and lowering the robustness
parameter never raises an output weight. -/
theorem C17_bounds_monotone_partial (D : Dims) (maxUv : ℝ) {uvw freq win grid out : Arr ℝ}
    (hS : Sizes D uvw freq win grid out) (hN : NonNeg D maxUv uvw freq)
    (hw : ∀ x ∈ samples D, 0 ≤ win.get (pos D x)) (hg : ∀ j, 0 ≤ grid.get j)
    (hp : ∃ x ∈ samples D, InGrid D (cellOf D maxUv uvw freq x) ∧ 0 < win.get (pos D x))
    (r₁ r₂ : ℝ) (hr : r₁ ≤ r₂) :
    ∃ g₁ o₁ g₂ o₂,
      briggs D maxUv ((10 : ℝ) ^ r₁) uvw freq win grid out = some (g₁, o₁) ∧
      briggs D maxUv ((10 : ℝ) ^ r₂) uvw freq win grid out = some (g₂, o₂) ∧
      0 < gridTotal D (cellOf D maxUv uvw freq) (cellW D maxUv uvw freq win grid) ∧
      0 < gridTotal D (cellOf D maxUv uvw freq)
        (fun x => cellW D maxUv uvw freq win grid x ^ 2) ∧
      ∀ x ∈ samples D, InGrid D (cellOf D maxUv uvw freq x) →
        0 ≤ o₁.get (pos D x) ∧ o₁.get (pos D x) ≤ o₂.get (pos D x) ∧
        o₂.get (pos D x) ≤ win.get (pos D x) := by
  obtain ⟨g₁, o₁, h₁, -, hv₁, -⟩ := C17_formula_partial D maxUv ((10 : ℝ) ^ r₁) hS hN
  obtain ⟨g₂, o₂, h₂, -, hv₂, -⟩ := C17_formula_partial D maxUv ((10 : ℝ) ^ r₂) hS hN
  set cf := cellOf D maxUv uvw freq with hcf
  set W := cellW D maxUv uvw freq win grid with hWdef
  have hW : ∀ y, 0 ≤ W y := by
    intro y
    apply add_nonneg (hg _)
    apply List.sum_nonneg
    intro z hz
    obtain ⟨q, hq, rfl⟩ := List.mem_map.1 hz
    split
    · exact hw q hq
    · exact le_refl _
  have hT : ∀ f : Sample → ℝ, (∀ y, 0 ≤ f y) → 0 ≤ gridTotal D cf f := by
    intro f hf
    apply List.sum_nonneg
    intro z hz
    obtain ⟨q, hq, rfl⟩ := List.mem_map.1 hz
    split
    · exact hf q
    · exact le_refl _
  have hq : 0 ≤ gridTotal D cf (fun x => W x ^ 2) / gridTotal D cf W :=
    div_nonneg (hT _ fun y => sq_nonneg _) (hT _ hW)
  have hp1 : (0 : ℝ) < 10 ^ r₁ := Real.rpow_pos_of_pos (by norm_num) _
  have hp2 : (0 : ℝ) < 10 ^ r₂ := Real.rpow_pos_of_pos (by norm_num) _
  have hp12 : (10 : ℝ) ^ r₁ ≤ 10 ^ r₂ := Real.rpow_le_rpow_of_exponent_le (by norm_num) hr
  have hR2 : 0 ≤ briggsR D maxUv ((10 : ℝ) ^ r₂) uvw freq win grid :=
    div_nonneg (sq_nonneg _) hq
  have hR12 : briggsR D maxUv ((10 : ℝ) ^ r₂) uvw freq win grid ≤
      briggsR D maxUv ((10 : ℝ) ^ r₁) uvw freq win grid := by
    unfold briggsR
    apply div_le_div_of_nonneg_right _ hq
    apply pow_le_pow_left₀ (by positivity)
    exact div_le_div_of_nonneg_left (by norm_num) hp1 hp12
  have hpos : ∀ f : Sample → ℝ, (∀ y, 0 ≤ f y) → (∀ y, 0 < W y → 0 < f y) →
      0 < gridTotal D cf f := by
    intro f hf hf'
    obtain ⟨z, hz, hzin, hzw⟩ := hp
    have hWz : 0 < W z := by
      have h1 : win.get (pos D z) ≤ cellTotal D cf (cf z) z.2.2.2 (fun y => win.get (pos D y)) := by
        apply List.single_le_sum
        · intro q hq
          obtain ⟨y, hy, rfl⟩ := List.mem_map.1 hq
          split
          · exact hw y hy
          · exact le_refl _
        · exact List.mem_map.2 ⟨z, hz, by rw [if_pos ⟨rfl, rfl⟩]⟩
      have h2 := hg (cellPos D (cf z) z.2.2.2)
      show 0 < grid.get (cellPos D (cf z) z.2.2.2) +
        cellTotal D cf (cf z) z.2.2.2 (fun y => win.get (pos D y))
      linarith
    have : f z ≤ gridTotal D cf f := by
      apply List.single_le_sum
      · intro q hq
        obtain ⟨y, hy, rfl⟩ := List.mem_map.1 hq
        split
        · exact hf y
        · exact le_refl _
      · exact List.mem_map.2 ⟨z, hz, by rw [if_pos hzin]⟩
    exact lt_of_lt_of_le (hf' z hWz) this
  refine ⟨g₁, o₁, g₂, o₂, h₁, h₂, hpos W hW fun _ h => h,
    hpos _ (fun y => sq_nonneg _) (fun y h => pow_pos h 2), fun x hx hin => ?_⟩
  rw [hv₁ x hx hin, hv₂ x hx hin]
  have hWx := hW x
  have hwx := hw x hx
  have a1 : 0 ≤ briggsR D maxUv ((10 : ℝ) ^ r₂) uvw freq win grid * W x := mul_nonneg hR2 hWx
  have a2 := mul_le_mul_of_nonneg_right hR12 hWx
  refine ⟨div_nonneg hwx (by linarith), ?_, ?_⟩
  · apply div_le_div_of_nonneg_left hwx (by linarith) (by linarith)
  · exact div_le_self hwx (by linarith)

/-- Non-vacuity of C17: three visibilities on ℚ (robustness 0, so 10^r = 1). -/
example : (briggs exD 2 1 exUvw exFreq exWin exGrid exWin).map
    (fun r => (List.range 3).map r.2.get) = some [1 / 26, 2 / 26, 3 / 26] := by decide +kernel

end Sdp.Weighting
