import Mathlib.Algebra.BigOperators.Ring.Finset
import Mathlib.Algebra.BigOperators.Intervals
import Mathlib.Tactic.FieldSimp
import Mathlib.Tactic.Linarith
import Mathlib.Tactic.Positivity
import Mathlib.Tactic.Ring
import Mathlib.Data.List.Nodup
import Mathlib.Order.Interval.Finset.Defs
import Mathlib.Data.Int.Interval
import Verif.EsFft.Kernels
import Verif.WTower.Plane

/-!
# C72: the (de)gridding kernels of the ES gridder
-/

set_option linter.unusedSectionVars false

namespace Sdp.EsFft
open Finset
open Sdp.WTower (sum_single sum_flat loop_sum read_lt)

variable {K : Type} [Field K] [LinearOrder K] [IsStrictOrderedRing K] [FloorRing K]

/-! ## Specification -/

/-- The gridding kernel along one axis: `psi` of the distance in units of half the support, and 0
beyond. -/
def kernel1 (a : KArgs K) (d : K) : K :=
  if |d| ≤ (a.support : K) / 2 then a.psi (d / ((a.support : K) / 2)) else 0

/-- Weight between a visibility and the grid cell of signed coordinates `w, u, v`. -/
def weightAt (a : KArgs K) (p : Pos K) (w u v : Int) : K :=
  (if Even (u + v) then 1 else -1) *
    (kernel1 a (u - p.u) * kernel1 a (v - p.v) * kernel1 a (w - p.w))

/-- Grid coordinates within half the support of `x`. -/
def reach (a : KArgs K) (x : K) : Finset Int :=
  (Icc (-((a.gridSize / 2 : Nat) : Int)) (((a.gridSize - 1) / 2 : Nat) : Int)).filter
    fun g : Int => |(g : K) - x| ≤ (a.support : K) / 2

/-- A visibility that the kernel can handle: at most 16 grid points along u and along v. -/
structure Fits (a : KArgs K) (p : Pos K) : Prop where
  u : (reach a p.u).card ≤ 16
  v : (reach a p.v).card ≤ 16

/-- Signed coordinates of the cell `(k, x, y)` of the stack. -/
def signed (a : KArgs K) (k x y : Nat) : Int × Int × Int :=
  (a.startW + k, (x : Int) - (a.gridSize / 2 : Nat), (y : Int) - (a.gridSize / 2 : Nat))

/-! ## Lists of integers -/

theorem mem_intRange {lo hi x : Int} : x ∈ intRange lo hi ↔ lo ≤ x ∧ x ≤ hi := by
  unfold intRange
  rw [List.mem_map]
  constructor
  · rintro ⟨i, hi', rfl⟩
    rw [List.mem_range] at hi'
    omega
  · intro h
    exact ⟨(x - lo).toNat, List.mem_range.2 (by omega), by omega⟩

theorem nodup_intRange (lo hi : Int) : (intRange lo hi).Nodup := by
  unfold intRange
  refine List.Nodup.map ?_ List.nodup_range
  intro a b h
  simpa using h

theorem intRange_empty {lo hi : Int} (h : hi < lo) : intRange lo hi = [] := by
  unfold intRange
  rw [show (hi - lo + 1).toNat = 0 by omega]
  rfl

theorem mapM_some {α β : Type} (l : List α) (f : α → Option β) (g : α → β)
    (h : ∀ x ∈ l, f x = some (g x)) : l.mapM f = some (l.map g) := by
  induction l with
  | nil => rfl
  | cons x l ih =>
    rw [List.mapM_cons, h x (by simp), ih (fun y hy => h y (by simp [hy]))]
    rfl

/-! ## Kernel tables -/

theorem es_eq (a : KArgs K) (d : K) (hs : 0 < a.support) :
    es a.psi (d * (1 / half a)) = kernel1 a d := by
  unfold es kernel1 half
  have hp : (0 : K) < (a.support : K) / 2 := by positivity
  generalize (a.support : K) / 2 = h at *
  have e : d * (1 / h) = d / h := by ring
  rw [e]
  by_cases hd : |d| ≤ h
  · rw [if_pos hd, if_neg]
    rw [not_lt]
    have : |d / h| ≤ 1 := by
      rw [abs_div, abs_of_pos hp, div_le_one hp]; exact hd
    have h2 := mul_le_mul this this (abs_nonneg _) zero_le_one
    rwa [abs_mul_abs_self, one_mul] at h2
  · rw [if_neg hd, if_pos]
    have : 1 < |d / h| := by
      rw [abs_div, abs_of_pos hp, one_lt_div hp]; exact not_le.1 hd
    have h2 := mul_lt_mul'' this this zero_le_one zero_le_one
    rwa [abs_mul_abs_self, one_mul] at h2

theorem kernelTable_ok (a : KArgs K) (x : K) (lo hi : Int) (hs : 0 < a.support) (h : hi - lo + 1 ≤ 16) :
    ∃ t, kernelTable a x lo hi = some t ∧ t.size = 16 ∧
      ∀ g : Int, lo ≤ g → g ≤ hi → t.read (g - lo) = some (kernel1 a (g - x)) := by
  have hn : ((intRange lo hi).map (fun g : Int => g - lo)).Nodup := by
    refine List.Nodup.map ?_ (nodup_intRange lo hi)
    intro p q h
    simp only at h
    omega
  obtain ⟨t, t1, t2, t3, _⟩ := Arr.store_spec (intRange lo hi) (fun g : Int => g - lo)
    (fun g : Int => es a.psi (((g : K) - x) * (1 / half a))) hn ⟨16, fun _ => 0⟩ (by
      intro g hg
      rw [mem_intRange] at hg
      constructor
      · omega
      · show g - lo < ((16 : Nat) : Int)
        omega)
  refine ⟨t, t1, t2, fun g h1 h2 => ?_⟩
  have := t3 g (mem_intRange.2 ⟨h1, h2⟩)
  rw [es_eq a _ hs] at this
  unfold Arr.read
  simp only at t2
  rw [if_pos ⟨by omega, by rw [t2]; omega⟩, ← this]

theorem kernelTable_fail (a : KArgs K) (x : K) (lo hi : Int) (h : 16 < hi - lo + 1) :
    kernelTable a x lo hi = none := by
  unfold kernelTable
  refine loop_none (fun t : Arr K => t.size = 16) _ ?_ (lo + 16) ?_ _ _ rfl ?_
  · intro t g t' ht hw
    obtain ⟨_, _, rfl⟩ := Arr.write_some hw
    exact ht
  · intro t ht
    unfold Arr.write
    rw [if_neg]
    intro hc
    have := hc.2
    rw [ht] at this
    omega
  · rw [mem_intRange]; omega

/-! ## Cells -/

theorem tdiv_lo (n : Nat) : (-(n : Int)).tdiv 2 = -((n / 2 : Nat) : Int) := by
  rw [Int.neg_tdiv]
  have : (n : Int).tdiv 2 = ((n / 2 : Nat) : Int) := by
    rw [show (2 : Int) = ((2 : Nat) : Int) by rfl, Int.ofNat_tdiv]
  rw [this]

theorem tdiv_hi (n : Nat) (h : 0 < n) : ((n : Int) - 1).tdiv 2 = (((n - 1) / 2 : Nat) : Int) := by
  rw [show (n : Int) - 1 = ((n - 1 : Nat) : Int) by omega]
  rw [show (2 : Int) = ((2 : Nat) : Int) by rfl, Int.ofNat_tdiv]

theorem mem_cells {a : KArgs K} {p : Pos K} {x : Int × Int × Int} :
    x ∈ cells a p ↔ (wLo a p.w ≤ x.1 ∧ x.1 ≤ wHi a p.w) ∧ (uvLo a p.u ≤ x.2.1 ∧ x.2.1 ≤ uvHi a p.u) ∧
      (uvLo a p.v ≤ x.2.2 ∧ x.2.2 ≤ uvHi a p.v) := by
  obtain ⟨w, u, v⟩ := x
  unfold cells
  rw [List.pair_mem_product, List.pair_mem_product, mem_intRange, mem_intRange, mem_intRange]

theorem nodup_cells (a : KArgs K) (p : Pos K) : (cells a p).Nodup := by
  unfold cells
  exact (nodup_intRange _ _).product ((nodup_intRange _ _).product (nodup_intRange _ _))

theorem uv_range {a : KArgs K} {x : K} {g : Int} (hn : 0 < a.gridSize) (h1 : uvLo a x ≤ g)
    (h2 : g ≤ uvHi a x) : ∃ i : Nat, i < a.gridSize ∧ g = (i : Int) - (a.gridSize / 2 : Nat) := by
  unfold uvLo at h1
  unfold uvHi at h2
  rw [tdiv_lo] at h1
  rw [tdiv_hi _ hn] at h2
  have h3 := le_trans (le_max_right _ _) h1
  have h4 := le_trans h2 (min_le_right _ _)
  refine ⟨(g + (a.gridSize / 2 : Nat)).toNat, ?_, ?_⟩ <;> omega

theorem w_range {a : KArgs K} {x : K} {g : Int} (h1 : wLo a x ≤ g) (h2 : g ≤ wHi a x) :
    ∃ k : Nat, k < a.numW ∧ g = a.startW + k := by
  unfold wLo at h1
  unfold wHi at h2
  have h3 := le_trans (le_max_right _ _) h1
  have h4 : g ≤ a.startW + a.numW - 1 := by
    split at h2
    · exact h2
    · exact le_trans h2 (min_le_right _ _)
  exact ⟨(g - a.startW).toNat, by omega, by omega⟩

/-- A grid point beyond the range of the loops is beyond the kernel. -/
theorem kernel1_uv_out (a : KArgs K) (x : K) (i : Nat) (hi : i < a.gridSize)
    (h : ¬ (uvLo a x ≤ (i : Int) - (a.gridSize / 2 : Nat) ∧
      (i : Int) - (a.gridSize / 2 : Nat) ≤ uvHi a x)) :
    kernel1 a ((((i : Int) - (a.gridSize / 2 : Nat) : Int) : K) - x) = 0 := by
  unfold kernel1
  rw [if_neg]
  intro habs
  apply h
  rw [abs_le] at habs
  unfold uvLo uvHi half
  rw [tdiv_lo, tdiv_hi _ (by omega)]
  constructor
  · rw [max_le_iff]
    refine ⟨Int.ceil_le.2 (by linarith [habs.1]), by omega⟩
  · rw [le_min_iff]
    refine ⟨Int.le_floor.2 (by linarith [habs.2]), by omega⟩

theorem kernel1_w_out (a : KArgs K) (x : K) (k : Nat) (hk : k < a.numW)
    (h : ¬ (wLo a x ≤ a.startW + k ∧ a.startW + k ≤ wHi a x)) :
    kernel1 a (((a.startW + k : Int) : K) - x) = 0 := by
  unfold kernel1
  rw [if_neg]
  intro habs
  apply h
  rw [abs_le] at habs
  unfold wLo wHi half
  constructor
  · rw [max_le_iff]
    refine ⟨Int.ceil_le.2 (by linarith [habs.1]), by omega⟩
  · split
    · omega
    rw [le_min_iff]
    refine ⟨Int.le_floor.2 (by linarith [habs.2]), by omega⟩

/-- Flat index of a cell of the stack. -/
def flatCell (a : KArgs K) (k x y : Nat) : Nat := a.gridSize * (a.gridSize * k + x) + y

theorem index_signed (a : KArgs K) (k x y : Nat) :
    cellIndex a (signed a k x y) = (flatCell a k x y : Int) := by
  unfold cellIndex signed flatCell
  simp only
  have e : ((a.gridSize / 2 : Nat) : Int) = (a.gridSize : Int) / 2 := by norm_cast
  rw [e]
  push_cast
  ring

theorem cell_signed {a : KArgs K} {p : Pos K} (hn : 0 < a.gridSize) {x : Int × Int × Int}
    (hx : x ∈ cells a p) :
    ∃ k i j : Nat, k < a.numW ∧ i < a.gridSize ∧ j < a.gridSize ∧ x = signed a k i j := by
  obtain ⟨⟨w1, w2⟩, ⟨u1, u2⟩, v1, v2⟩ := mem_cells.1 hx
  obtain ⟨k, hk, ek⟩ := w_range w1 w2
  obtain ⟨i, hi, ei⟩ := uv_range hn u1 u2
  obtain ⟨j, hj, ej⟩ := uv_range hn v1 v2
  refine ⟨k, i, j, hk, hi, hj, ?_⟩
  obtain ⟨w, u, v⟩ := x
  simp only at ek ei ej
  rw [ek, ei, ej]
  rfl

theorem flatCell_lt {a : KArgs K} {k x y : Nat} (hk : k < a.numW) (hx : x < a.gridSize)
    (hy : y < a.gridSize) : flatCell a k x y < a.numW * a.gridSize * a.gridSize := by
  unfold flatCell
  exact flat_lt (flat_lt hk hx) hy

theorem flatCell_inj {a : KArgs K} {k x y k' x' y' : Nat} (hx : x < a.gridSize)
    (hy : y < a.gridSize) (hx' : x' < a.gridSize) (hy' : y' < a.gridSize)
    (h : flatCell a k x y = flatCell a k' x' y') : k = k' ∧ x = x' ∧ y = y' := by
  unfold flatCell at h
  obtain ⟨h1, h2⟩ := flat_inj hy hy' h
  obtain ⟨h3, h4⟩ := flat_inj hx hx' h1
  exact ⟨h3, h4, h2⟩

theorem reach_eq (a : KArgs K) (x : K) (hn : 0 < a.gridSize) :
    reach a x = Icc (uvLo a x) (uvHi a x) := by
  ext g
  unfold reach uvLo uvHi half
  rw [mem_filter, mem_Icc, mem_Icc, tdiv_lo, tdiv_hi _ hn, max_le_iff, le_min_iff, abs_le,
    Int.ceil_le, Int.le_floor]
  constructor
  · rintro ⟨⟨h1, h2⟩, h3, h4⟩
    exact ⟨⟨by linarith, h1⟩, by linarith, h2⟩
  · rintro ⟨⟨h1, h2⟩, h3, h4⟩
    exact ⟨⟨h2, h4⟩, by linarith, by linarith⟩

theorem reach_card (a : KArgs K) (x : K) (hn : 0 < a.gridSize) :
    (reach a x).card = (uvHi a x - uvLo a x + 1).toNat := by
  rw [reach_eq a x hn, Int.card_Icc]
  congr 1
  ring

theorem taps_ok (a : KArgs K) (p : Pos K) (hn : 0 < a.gridSize) (hs : 0 < a.support) (hf : Fits a p) :
    taps a p = some ((cells a p).map fun x => (cellIndex a x, weightAt a p x.1 x.2.1 x.2.2)) := by
  unfold taps
  have hc : ∀ x : K, (reach a x).card ≤ 16 → uvHi a x - uvLo a x + 1 ≤ 16 := by
    intro x hx
    rw [reach_card a x hn] at hx
    omega
  split
  · rename_i h
    have : cells a p = [] := by
      rw [List.eq_nil_iff_forall_not_mem]
      intro x hx
      have := mem_cells.1 hx
      omega
    rw [this]
    rfl
  · obtain ⟨ku, u1, _, u3⟩ := kernelTable_ok a p.u (uvLo a p.u) (uvHi a p.u) hs (hc _ hf.u)
    obtain ⟨kv, v1, _, v3⟩ := kernelTable_ok a p.v (uvLo a p.v) (uvHi a p.v) hs (hc _ hf.v)
    rw [u1, Option.bind_some, v1, Option.bind_some]
    apply mapM_some
    intro x hx
    obtain ⟨⟨w1, w2⟩, ⟨x1, x2⟩, y1, y2⟩ := mem_cells.1 hx
    rw [u3 _ x1 x2, Option.bind_some, v3 _ y1 y2]
    simp only [Option.map_some, Option.some.injEq, Prod.mk.injEq, true_and]
    rw [es_eq a _ hs]
    unfold weightAt
    by_cases he : Even (x.2.1 + x.2.2)
    · rw [if_pos he, if_neg (by rw [Int.even_iff] at he; omega), one_mul]
    · rw [if_neg he, if_pos (by rw [Int.even_iff] at he; omega)]
      ring

/-- A visibility outside the loops has weight 0. -/
theorem weightAt_out (a : KArgs K) (p : Pos K) (k x y : Nat) (hk : k < a.numW)
    (hx : x < a.gridSize) (hy : y < a.gridSize) (h : signed a k x y ∉ cells a p) :
    weightAt a p (signed a k x y).1 (signed a k x y).2.1 (signed a k x y).2.2 = 0 := by
  rw [mem_cells] at h
  unfold weightAt
  simp only [signed] at h ⊢
  by_cases h1 : wLo a p.w ≤ a.startW + k ∧ a.startW + k ≤ wHi a p.w
  · by_cases h2 : uvLo a p.u ≤ (x : Int) - (a.gridSize / 2 : Nat) ∧
        (x : Int) - (a.gridSize / 2 : Nat) ≤ uvHi a p.u
    · have h3 : ¬ (uvLo a p.v ≤ (y : Int) - (a.gridSize / 2 : Nat) ∧
        (y : Int) - (a.gridSize / 2 : Nat) ≤ uvHi a p.v) := fun h3 => h ⟨h1, h2, h3⟩
      rw [kernel1_uv_out a p.v y hy h3]
      ring
    · rw [kernel1_uv_out a p.u x hx h2]
      ring
  · rw [kernel1_w_out a p.w k hk h1]
    ring

/-- Sum over the visited cells of what falls on one cell. -/
theorem cell_sum {M : Type} [AddCommMonoid M] (a : KArgs K) (p : Pos K) (hn : 0 < a.gridSize)
    (k x y : Nat) (hk : k < a.numW) (hx : x < a.gridSize) (hy : y < a.gridSize)
    (g : Int × Int × Int → M) (hz : signed a k x y ∉ cells a p → g (signed a k x y) = 0) :
    ((cells a p).map fun c => if cellIndex a c = (flatCell a k x y : Int) then g c else 0).sum =
      g (signed a k x y) := by
  by_cases h : signed a k x y ∈ cells a p
  · rw [sum_single _ _ (signed a k x y) (nodup_cells a p) h]
    · rw [index_signed, if_pos rfl]
    · intro c hc hne
      obtain ⟨k', x', y', h1, h2, h3, rfl⟩ := cell_signed hn hc
      rw [index_signed, if_neg]
      intro e
      have e : flatCell a k' x' y' = flatCell a k x y := by exact_mod_cast e
      obtain ⟨rfl, rfl, rfl⟩ := flatCell_inj h2 h3 hx hy e
      exact hne rfl
  · rw [hz h]
    apply List.sum_eq_zero
    intro m hm
    obtain ⟨c, hc, rfl⟩ := List.mem_map.1 hm
    rw [if_neg]
    intro e
    obtain ⟨k', x', y', h1, h2, h3, rfl⟩ := cell_signed hn hc
    rw [index_signed] at e
    have e : flatCell a k' x' y' = flatCell a k x y := by exact_mod_cast e
    obtain ⟨rfl, rfl, rfl⟩ := flatCell_inj h2 h3 hx hy e
    exact h hc

/-! ## Theorems -/

/-- Position of visibility `(r, c)`. -/
def posOf (a : KArgs K) (uvw freq : Arr K) (r c : Nat) : Pos K :=
  let w := uvw.get (3 * r + 2)
  let inv : K := (if a.is3d = true ∧ w < 0 then -1 else 1) * freq.get c / a.c0
  ⟨decide (a.is3d = true ∧ w < 0), uvw.get (3 * r) * inv * a.uvScale, uvw.get (3 * r + 1) * inv * a.uvScale,
    if a.is3d then (w * inv - a.minPlane) * a.wScale else 0⟩

/-- Arguments and arrays of a launch that fit together. -/
structure Launch (a : KArgs K) (uvw freq : Arr K) (vis : Arr (K × K)) (grid : Arr (K × K)) : Prop where
  n : 0 < a.gridSize
  s : 0 < a.support
  uvwSize : uvw.size = 3 * a.rows
  freqSize : freq.size = a.chans
  visSize : vis.size = a.rows * a.chans
  gridSize : grid.size = a.numW * a.gridSize * a.gridSize
  fits : ∀ r c, r < a.rows → c < a.chans → Fits a (posOf a uvw freq r c)

theorem position_ok {a : KArgs K} {uvw freq : Arr K} (hu : uvw.size = 3 * a.rows)
    (hf : freq.size = a.chans) {r c : Nat} (hr : r < a.rows) (hc : c < a.chans) :
    position a uvw freq r c = some (posOf a uvw freq r c) := by
  unfold position posOf
  rw [read_lt _ _ (by omega), Option.bind_some, read_lt _ _ (by omega), Option.bind_some,
    read_lt _ _ (by omega), Option.bind_some, read_lt _ _ (by omega)]
  simp only [Option.map_some, Bool.and_eq_true, decide_eq_true_eq, Option.some.injEq]
  congr 1
  rw [Bool.decide_and]
  simp

/-- **C72, gridding.**  For launches whose visibilities fit, and for every order of the atomic
additions, every cell of the stack receives the sum over all visibilities of the weight between
visibility and cell, times the visibility, weighted and conjugated if w was negated. -/
theorem C72_grid_partial (a : KArgs K) (uvw freq weight : Arr K) (vis grid : Arr (K × K))
    (h : Launch a uvw freq vis grid) (hw : weight.size = a.rows * a.chans) :
    ∃ all, gridOps a uvw freq weight vis = some all ∧ ∀ ops, ops.Perm all →
      ∃ g, runOps grid ops = some g ∧ g.size = grid.size ∧
        ∀ k x y, k < a.numW → x < a.gridSize → y < a.gridSize →
          g.get (flatCell a k x y) = grid.get (flatCell a k x y) +
            ∑ r ∈ range a.rows, ∑ c ∈ range a.chans,
              weightAt a (posOf a uvw freq r c) (signed a k x y).1 (signed a k x y).2.1
                (signed a k x y).2.2 •
              flipped (posOf a uvw freq r c).flip
                (weight.get (a.chans * r + c) • vis.get (a.chans * r + c)) := by
  let val : Nat × Nat → K × K := fun rc => flipped (posOf a uvw freq rc.1 rc.2).flip
    (weight.get (a.chans * rc.1 + rc.2) • vis.get (a.chans * rc.1 + rc.2))
  let ops1 : Nat × Nat → List (Int × (K × K)) := fun rc =>
    (cells a (posOf a uvw freq rc.1 rc.2)).map fun x => (cellIndex a x,
      weightAt a (posOf a uvw freq rc.1 rc.2) x.1 x.2.1 x.2.2 • val rc)
  have hthread : ∀ rc ∈ nest2 a.rows a.chans, gridThread a uvw freq weight vis rc = some (ops1 rc) := by
    intro rc hrc
    obtain ⟨h1, h2⟩ := mem_nest2.1 hrc
    have hlt := flat_lt h1 h2
    unfold gridThread
    rw [position_ok h.uvwSize h.freqSize h1 h2, Option.bind_some, read_lt _ _ (by rw [h.visSize]; exact hlt),
      Option.bind_some, read_lt _ _ (by rw [hw]; exact hlt), Option.bind_some,
      taps_ok a _ h.n h.s (h.fits _ _ h1 h2)]
    simp only [Option.map_some, List.map_map, Function.comp_def]
    rfl
  refine ⟨((nest2 a.rows a.chans).map ops1).flatten, ?_, ?_⟩
  · unfold gridOps
    rw [mapM_some _ _ _ hthread]
    rfl
  intro ops hops
  have hmem : ∀ o ∈ ops, 0 ≤ o.1 ∧ o.1 < grid.size := by
    intro o ho
    have := hops.mem_iff.1 ho
    obtain ⟨l, hl, hol⟩ := List.mem_flatten.1 this
    obtain ⟨rc, hrc, rfl⟩ := List.mem_map.1 hl
    obtain ⟨c, hc, rfl⟩ := List.mem_map.1 hol
    obtain ⟨k, x, y, h1, h2, h3, rfl⟩ := cell_signed h.n hc
    simp only
    rw [index_signed, h.gridSize]
    have := flatCell_lt (a := a) h1 h2 h3
    omega
  obtain ⟨g, g1, g2, g3⟩ := Arr.accum_spec ops (fun o => o.1) (fun o => o.2) grid hmem
  refine ⟨g, g1, g2, fun k x y hk hx hy => ?_⟩
  rw [g3]
  congr 1
  rw [(hops.map _).sum_eq, List.map_flatten, List.map_map, List.sum_flatten, List.map_map]
  have : (nest2 a.rows a.chans).map (List.sum ∘ ((List.map fun o : Int × (K × K) =>
      if o.1 = (flatCell a k x y : Int) then o.2 else 0) ∘ ops1)) =
      (nest2 a.rows a.chans).map fun rc => weightAt a (posOf a uvw freq rc.1 rc.2) (signed a k x y).1
        (signed a k x y).2.1 (signed a k x y).2.2 • val rc := by
    apply List.map_congr_left
    intro rc hrc
    obtain ⟨h1, h2⟩ := mem_nest2.1 hrc
    simp only [Function.comp, ops1, List.map_map]
    refine (cell_sum a (posOf a uvw freq rc.1 rc.2) h.n k x y hk hx hy
      (fun c => weightAt a (posOf a uvw freq rc.1 rc.2) c.1 c.2.1 c.2.2 • val rc) ?_)
    intro hnot
    rw [weightAt_out a _ k x y hk hx hy hnot, zero_smul]
  rw [this]
  unfold nest2
  rw [List.map_flatMap, sum_flat, list_sum_range]
  apply sum_congr rfl
  intro r _
  rw [List.map_map, list_sum_range]
  rfl

theorem taps_degrid (a : KArgs K) (uvw freq : Arr K) (vis grid : Arr (K × K))
    (h : Launch a uvw freq vis grid) (p : Pos K) :
    ((cells a p).map fun c => weightAt a p c.1 c.2.1 c.2.2 • grid.get (cellIndex a c).toNat).sum =
      ∑ k ∈ range a.numW, ∑ x ∈ range a.gridSize, ∑ y ∈ range a.gridSize,
        weightAt a p (signed a k x y).1 (signed a k x y).2.1 (signed a k x y).2.2 •
          grid.get (flatCell a k x y) := by
  have e1 : ∀ k ∈ range a.numW, ∀ x ∈ range a.gridSize, ∀ y ∈ range a.gridSize,
      weightAt a p (signed a k x y).1 (signed a k x y).2.1 (signed a k x y).2.2 •
          grid.get (flatCell a k x y) =
      ((cells a p).map fun c => if cellIndex a c = (flatCell a k x y : Int) then
        weightAt a p c.1 c.2.1 c.2.2 • grid.get (cellIndex a c).toNat else 0).sum := by
    intro k hk x hx y hy
    rw [mem_range] at hk hx hy
    rw [cell_sum a p h.n k x y hk hx hy
      (fun c => weightAt a p c.1 c.2.1 c.2.2 • grid.get (cellIndex a c).toNat)]
    · rw [index_signed, Int.toNat_natCast]
    · intro hn
      rw [weightAt_out a p k x y hk hx hy hn, zero_smul]
  have e2 : (∑ k ∈ range a.numW, ∑ x ∈ range a.gridSize, ∑ y ∈ range a.gridSize,
        weightAt a p (signed a k x y).1 (signed a k x y).2.1 (signed a k x y).2.2 •
          grid.get (flatCell a k x y)) =
      ∑ k ∈ range a.numW, ∑ x ∈ range a.gridSize, ∑ y ∈ range a.gridSize,
        ((cells a p).map fun c => if cellIndex a c = (flatCell a k x y : Int) then
          weightAt a p c.1 c.2.1 c.2.2 • grid.get (cellIndex a c).toNat else 0).sum := by
    apply sum_congr rfl; intro k hk
    apply sum_congr rfl; intro x hx
    apply sum_congr rfl; intro y hy
    exact e1 k hk x hx y hy
  rw [e2]
  have swap : ∀ (l : List (Int × Int × Int)), (∀ c ∈ l, c ∈ cells a p) →
      (∑ k ∈ range a.numW, ∑ x ∈ range a.gridSize, ∑ y ∈ range a.gridSize,
        (l.map fun c => if cellIndex a c = (flatCell a k x y : Int) then
          weightAt a p c.1 c.2.1 c.2.2 • grid.get (cellIndex a c).toNat else 0).sum) =
      (l.map fun c => weightAt a p c.1 c.2.1 c.2.2 • grid.get (cellIndex a c).toNat).sum := by
    intro l
    induction l with
    | nil => intro _; simp
    | cons c l ih =>
      intro hl
      simp only [List.map_cons, List.sum_cons, sum_add_distrib]
      rw [ih (fun d hd => hl d (by simp [hd]))]
      congr 1
      obtain ⟨k0, x0, y0, h1, h2, h3, rfl⟩ := cell_signed h.n (hl c (by simp))
      rw [index_signed, Int.toNat_natCast]
      rw [sum_eq_single_of_mem k0 (mem_range.2 h1), sum_eq_single_of_mem x0 (mem_range.2 h2),
        sum_eq_single_of_mem y0 (mem_range.2 h3), if_pos rfl]
      · intro y hy hne
        rw [mem_range] at hy
        rw [if_neg]
        intro e
        have e : flatCell a k0 x0 y0 = flatCell a k0 x0 y := by exact_mod_cast e
        exact hne (flatCell_inj h2 h3 h2 hy e).2.2.symm
      · intro x hx hne
        rw [mem_range] at hx
        apply sum_eq_zero
        intro y hy
        rw [mem_range] at hy
        rw [if_neg]
        intro e
        have e : flatCell a k0 x0 y0 = flatCell a k0 x y := by exact_mod_cast e
        exact hne (flatCell_inj h2 h3 hx hy e).2.1.symm
      · intro k _ hne
        apply sum_eq_zero
        intro x hx
        apply sum_eq_zero
        intro y hy
        rw [mem_range] at hx hy
        rw [if_neg]
        intro e
        have e : flatCell a k0 x0 y0 = flatCell a k x y := by exact_mod_cast e
        exact hne (flatCell_inj h2 h3 hx hy e).1.symm
  exact (swap _ (fun c hc => hc)).symm

/-- What degridding adds to visibility `(r, c)`: the sum over the stack of weight times grid,
conjugated if w was negated. -/
def predicted (a : KArgs K) (uvw freq : Arr K) (grid : Arr (K × K)) (r c : Nat) : K × K :=
  flipped (posOf a uvw freq r c).flip (∑ k ∈ range a.numW, ∑ x ∈ range a.gridSize,
    ∑ y ∈ range a.gridSize, weightAt a (posOf a uvw freq r c) (signed a k x y).1
      (signed a k x y).2.1 (signed a k x y).2.2 • grid.get (flatCell a k x y))

theorem loop_sum' {α M : Type} [AddCommMonoid M] (l : List α) (f : M → α → Option M) (g : α → M)
    (h : ∀ x ∈ l, ∀ acc, f acc x = some (acc + g x)) (m : M) :
    loop f m l = some (m + (l.map g).sum) := by
  induction l generalizing m with
  | nil => simp [loop]
  | cons x l ih =>
    simp only [loop]
    rw [h x (by simp)]
    simp only [Option.bind_some]
    rw [ih (fun y hy => h y (by simp [hy]))]
    simp [add_assoc]

theorem degridThread_ok (a : KArgs K) (uvw freq : Arr K) (vis grid : Arr (K × K))
    (h : Launch a uvw freq vis grid) (v : Arr (K × K)) (hv : v.size = vis.size) (rc : Nat × Nat)
    (hr : rc.1 < a.rows) (hc : rc.2 < a.chans) :
    degridThread a uvw freq grid v rc = some (v.put (a.chans * rc.1 + rc.2)
      (v.get (a.chans * rc.1 + rc.2) + predicted a uvw freq grid rc.1 rc.2)) := by
  have hlt := flat_lt hr hc
  have hf := h.fits _ _ hr hc
  unfold degridThread
  rw [position_ok h.uvwSize h.freqSize hr hc, Option.bind_some, taps_ok a _ h.n h.s hf, Option.bind_some]
  have hs := taps_degrid a uvw freq vis grid h (posOf a uvw freq rc.1 rc.2)
  by_cases he : (cells a (posOf a uvw freq rc.1 rc.2)).map (fun x => (cellIndex a x,
      weightAt a (posOf a uvw freq rc.1 rc.2) x.1 x.2.1 x.2.2)) = []
  · rw [if_pos he]
    rw [List.map_eq_nil_iff] at he
    rw [he] at hs
    simp only [List.map_nil, List.sum_nil] at hs
    unfold predicted
    rw [← hs]
    have : flipped (posOf a uvw freq rc.1 rc.2).flip (0 : K × K) = 0 := by
      unfold flipped cj; split <;> simp
    rw [this, add_zero]
    congr 1
    obtain ⟨sz, g⟩ := v
    unfold Arr.put
    congr 1
    funext k
    split
    · rename_i h; rw [h]
    · rfl
  · rw [if_neg he, loop_map]
    rw [loop_sum' _ _ (fun x => weightAt a (posOf a uvw freq rc.1 rc.2) x.1 x.2.1 x.2.2 •
      grid.get (cellIndex a x).toNat)]
    · simp only [Option.bind_some]
      rw [Arr.addAt_nat _ _ _ (by rw [hv, h.visSize]; exact hlt), hs]
      unfold predicted
      rw [show ((0, 0) : K × K) = 0 by rfl, zero_add]
    · intro x hx acc
      obtain ⟨k, i, j, h1, h2, h3, rfl⟩ := cell_signed h.n hx
      simp only
      have := flatCell_lt (a := a) h1 h2 h3
      rw [index_signed, read_lt _ _ (by rw [h.gridSize]; exact this), Int.toNat_natCast]
      rfl

/-- **C72, degridding.**  Whatever the order of the threads, each visibility is increased by its
prediction, once. -/
theorem C72_degrid_partial (a : KArgs K) (uvw freq : Arr K) (vis grid : Arr (K × K))
    (h : Launch a uvw freq vis grid) (order : List (Nat × Nat))
    (ho : order.Perm (nest2 a.rows a.chans)) :
    ∃ v, loop (degridThread a uvw freq grid) vis order = some v ∧ v.size = vis.size ∧
      ∀ r c, r < a.rows → c < a.chans →
        v.get (a.chans * r + c) = vis.get (a.chans * r + c) + predicted a uvw freq grid r c := by
  have hmem : ∀ rc ∈ order, rc.1 < a.rows ∧ rc.2 < a.chans := fun rc hrc =>
    mem_nest2.1 (ho.mem_iff.1 hrc)
  obtain ⟨v, v1, v2, v3⟩ := loop_inv (degridThread a uvw freq grid)
    (fun done v => v.size = vis.size ∧ ∀ r c, r < a.rows → c < a.chans →
      v.get (a.chans * r + c) = vis.get (a.chans * r + c) +
        (done.map fun rc => if rc = (r, c) then predicted a uvw freq grid r c else 0).sum)
    order vis ⟨rfl, fun r c _ _ => by simp⟩ (by
      intro done rc rest v hsplit hP
      obtain ⟨h1, h2⟩ := hmem rc (by rw [hsplit]; simp)
      refine ⟨_, degridThread_ok a uvw freq vis grid h v hP.1 rc h1 h2, hP.1, ?_⟩
      intro r c hr hc
      rw [Arr.put_get, List.map_append, List.sum_append]
      by_cases e : rc = (r, c)
      · subst e
        rw [if_pos rfl, hP.2 r c hr hc]
        simp [add_assoc]
      · rw [if_neg, hP.2 r c hr hc]
        · simp [e]
        · intro e2
          obtain ⟨e3, e4⟩ := flat_inj hc h2 e2
          exact e (by rw [e3, e4]))
  refine ⟨v, v1, v2, fun r c hr hc => ?_⟩
  rw [v3 r c hr hc, (ho.map _).sum_eq,
    sum_single _ _ (r, c) (nest2_nodup _ _) (mem_nest2.2 ⟨hr, hc⟩)]
  · rw [if_pos rfl]
  · intro rc _ hne
    rw [if_neg hne]

/-- Real inner product of complex numbers. -/
def dot (x y : K × K) : K := x.1 * y.1 + x.2 * y.2

theorem dot_add_left (x y z : K × K) : dot (x + y) z = dot x z + dot y z := by
  unfold dot; simp; ring

theorem dot_smul_left (k : K) (x y : K × K) : dot (k • x) y = k * dot x y := by
  unfold dot; simp; ring

theorem dot_comm (x y : K × K) : dot x y = dot y x := by unfold dot; ring

theorem dot_flip (b : Bool) (x y : K × K) : dot (flipped b x) y = dot x (flipped b y) := by
  unfold flipped cj dot
  cases b <;> simp

theorem dot_sum_left {ι : Type} (s : Finset ι) (f : ι → K × K) (y : K × K) :
    dot (∑ i ∈ s, f i) y = ∑ i ∈ s, dot (f i) y := by
  classical
  induction s using Finset.induction_on with
  | empty => simp [dot]
  | insert i s hi ih => rw [sum_insert hi, sum_insert hi, dot_add_left, ih]

/-- What gridding adds to a cell. -/
def gridded (a : KArgs K) (uvw freq weight : Arr K) (vis : Arr (K × K)) (k x y : Nat) : K × K :=
  ∑ r ∈ range a.rows, ∑ c ∈ range a.chans,
    weightAt a (posOf a uvw freq r c) (signed a k x y).1 (signed a k x y).2.1 (signed a k x y).2.2 •
      flipped (posOf a uvw freq r c).flip
        (weight.get (a.chans * r + c) • vis.get (a.chans * r + c))

/-- **C72, adjointness.**  Gridding weighted visibilities is the adjoint of degridding and then
weighting, for the real inner products of stacks and of visibilities. -/
theorem C72_adjoint (a : KArgs K) (uvw freq weight : Arr K) (vis grid : Arr (K × K)) :
    (∑ k ∈ range a.numW, ∑ x ∈ range a.gridSize, ∑ y ∈ range a.gridSize,
      dot (gridded a uvw freq weight vis k x y) (grid.get (flatCell a k x y))) =
    ∑ r ∈ range a.rows, ∑ c ∈ range a.chans,
      dot (vis.get (a.chans * r + c))
        (weight.get (a.chans * r + c) • predicted a uvw freq grid r c) := by
  have lhs : ∀ k x y, dot (gridded a uvw freq weight vis k x y) (grid.get (flatCell a k x y)) =
      ∑ r ∈ range a.rows, ∑ c ∈ range a.chans,
        weight.get (a.chans * r + c) * (weightAt a (posOf a uvw freq r c) (signed a k x y).1
          (signed a k x y).2.1 (signed a k x y).2.2 *
          dot (vis.get (a.chans * r + c)) (flipped (posOf a uvw freq r c).flip
            (grid.get (flatCell a k x y)))) := by
    intro k x y
    unfold gridded
    rw [dot_sum_left]
    apply sum_congr rfl; intro r _
    rw [dot_sum_left]
    apply sum_congr rfl; intro c _
    rw [dot_smul_left, dot_flip, dot_smul_left]
    ring
  have rhs : ∀ r c, dot (vis.get (a.chans * r + c))
        (weight.get (a.chans * r + c) • predicted a uvw freq grid r c) =
      ∑ k ∈ range a.numW, ∑ x ∈ range a.gridSize, ∑ y ∈ range a.gridSize,
        weight.get (a.chans * r + c) * (weightAt a (posOf a uvw freq r c) (signed a k x y).1
          (signed a k x y).2.1 (signed a k x y).2.2 *
          dot (vis.get (a.chans * r + c)) (flipped (posOf a uvw freq r c).flip
            (grid.get (flatCell a k x y)))) := by
    intro r c
    rw [dot_comm, dot_smul_left]
    unfold predicted
    rw [dot_flip, dot_sum_left, mul_sum]
    apply sum_congr rfl; intro k _
    rw [dot_sum_left, mul_sum]
    apply sum_congr rfl; intro x _
    rw [dot_sum_left, mul_sum]
    apply sum_congr rfl; intro y _
    rw [dot_smul_left, ← dot_flip, dot_comm]
  simp only [lhs, rhs]
  rw [show (∑ k ∈ range a.numW, ∑ x ∈ range a.gridSize, ∑ y ∈ range a.gridSize,
      ∑ r ∈ range a.rows, ∑ c ∈ range a.chans,
        weight.get (a.chans * r + c) * (weightAt a (posOf a uvw freq r c) (signed a k x y).1
          (signed a k x y).2.1 (signed a k x y).2.2 *
          dot (vis.get (a.chans * r + c)) (flipped (posOf a uvw freq r c).flip
            (grid.get (flatCell a k x y))))) = _ from
    sum_congr rfl fun k _ => sum_congr rfl fun x _ => sum_comm]
  rw [show _ = _ from sum_congr rfl fun k _ => sum_comm, sum_comm]
  apply sum_congr rfl; intro r _
  rw [show _ = _ from sum_congr rfl fun k _ => sum_congr rfl fun x _ => sum_comm]
  rw [show _ = _ from sum_congr rfl fun k _ => sum_comm, sum_comm]

/-! ## Which visibilities fit -/

/-- **C72: kernels up to support 15 always fit; support 16 fits away from the grid points.** -/
theorem C72_fits (a : KArgs K) (p : Pos K) (hn : 0 < a.gridSize)
    (h : a.support ≤ 15 ∨ a.support = 16 ∧ (∀ g : Int, p.u ≠ g) ∧ ∀ g : Int, p.v ≠ g) : Fits a p := by
  have key : ∀ x : K, (a.support ≤ 15 ∨ a.support = 16 ∧ ∀ g : Int, x ≠ g) →
      (reach a x).card ≤ 16 := by
    intro x hx
    rw [reach_card a x hn]
    unfold uvHi uvLo half
    have h1 := min_le_left ⌊x + (a.support : K) / 2⌋ (((a.gridSize : Int) - 1).tdiv 2)
    have h2 := le_max_left ⌈x - (a.support : K) / 2⌉ ((-(a.gridSize : Int)).tdiv 2)
    have h3 := Int.floor_le (x + (a.support : K) / 2)
    have h4 := Int.le_ceil (x - (a.support : K) / 2)
    have h5 : ⌊x + (a.support : K) / 2⌋ - ⌈x - (a.support : K) / 2⌉ ≤ 15 := by
      rcases hx with hx | ⟨hx, hg⟩
      · have : ((⌊x + (a.support : K) / 2⌋ - ⌈x - (a.support : K) / 2⌉ : Int) : K) ≤ ((15 : Int) : K) := by
          push_cast
          have : (a.support : K) ≤ 15 := by exact_mod_cast hx
          linarith
        exact_mod_cast this
      · rw [hx] at h3 h4 ⊢
        push_cast at h3 h4 ⊢
        by_contra hcon
        have h6 : ((16 : Int) : K) ≤ ((⌊x + 16 / 2⌋ - ⌈x - 16 / 2⌉ : Int) : K) := by
          exact_mod_cast (by omega : (16 : Int) ≤ ⌊x + 16 / 2⌋ - ⌈x - 16 / 2⌉)
        push_cast at h6
        apply hg (⌊x + 16 / 2⌋ - 8)
        push_cast
        linarith
    omega
  rcases h with h | ⟨h, h1, h2⟩
  · exact ⟨key _ (Or.inl h), key _ (Or.inl h)⟩
  · exact ⟨key _ (Or.inr ⟨h, h1⟩), key _ (Or.inr ⟨h, h2⟩)⟩

/-- **C72 fails for support 16 on a grid point.**  A visibility whose u falls on a grid point at
least 8 points away from the edge of the grid, and that reaches the stack in v and w, makes the
kernel write past the end of its table.  Zero-length baselines do this. -/
theorem C72_overflow_false (a : KArgs K) (p : Pos K) (hs : a.support = 16) (g : Int) (hg : p.u = g)
    (h1 : -((a.gridSize / 2 : Nat) : Int) ≤ g - 8) (h2 : g + 8 ≤ (((a.gridSize - 1) / 2 : Nat) : Int))
    (hn : 0 < a.gridSize) (hv : uvLo a p.v ≤ uvHi a p.v) (hw : wLo a p.w ≤ wHi a p.w) :
    taps a p = none := by
  have e1 : uvHi a p.u - uvLo a p.u + 1 = 17 := by
    unfold uvHi uvLo half
    rw [tdiv_lo, tdiv_hi _ hn, hs, hg]
    have e3 : ⌊(g : K) + ((16 : Nat) : K) / 2⌋ = g + 8 := by
      rw [show (g : K) + ((16 : Nat) : K) / 2 = ((g + 8 : Int) : K) by push_cast; ring, Int.floor_intCast]
    have e4 : ⌈(g : K) - ((16 : Nat) : K) / 2⌉ = g - 8 := by
      rw [show (g : K) - ((16 : Nat) : K) / 2 = ((g - 8 : Int) : K) by push_cast; ring, Int.ceil_intCast]
    rw [e3, e4, max_eq_left h1, min_eq_left h2]
    ring
  unfold taps
  rw [if_neg (by omega), kernelTable_fail a p.u _ _ (by omega)]
  rfl

/-- An example launch over ℚ: kernel support `s`, 20 x 20 grid, one visibility at `u, v, w`. -/
def exArgs (s : Nat) : KArgs ℚ where
  rows := 1
  chans := 1
  gridSize := 20
  startW := 0
  numW := 1
  support := s
  uvScale := 1
  wScale := 1
  minPlane := 0
  c0 := 1
  psi := fun x => 1 - x * x / 2
  is3d := true

/-- Non-vacuity: a launch that fits, with w negated, reaching many cells. -/
example : Launch (exArgs 4) ⟨3, fun i => if i = 2 then -1 else 3 / 2⟩ ⟨1, fun _ => 1⟩ ⟨1, fun _ => (1, 2)⟩
    ⟨400, fun _ => (0, 0)⟩ ∧
    (taps (exArgs 4) (posOf (exArgs 4) ⟨3, fun i => if i = 2 then -1 else 3 / 2⟩ ⟨1, fun _ => 1⟩ 0 0)).map
      List.length = some 16 ∧
    taps (exArgs 16) (posOf (exArgs 16) ⟨3, fun _ => 0⟩ ⟨1, fun _ => 1⟩ 0 0) = none := by
  refine ⟨⟨by decide, by decide, by decide, by decide, by decide, by decide, ?_⟩, ?_, ?_⟩
  · intro r c _ _
    exact C72_fits _ _ (by decide) (Or.inl (by decide))
  · decide +kernel
  · exact C72_overflow_false _ _ rfl 0 (by decide +kernel) (by decide) (by decide) (by decide)
      (by decide +kernel) (by decide +kernel)

end Sdp.EsFft
