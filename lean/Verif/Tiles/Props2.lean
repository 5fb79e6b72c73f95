import Mathlib.Tactic.Linarith
import Mathlib.Tactic.Ring
import Verif.Tiles.Props

/-!
# C15 — tile lookup

Tile `pu` covers the grid columns `[topU + pu*tileU, topU + (pu+1)*tileU)`, and
likewise for rows; the footprint of a visibility at cell `g` is `[g-s, g+s]`.
-/

namespace Sdp.Tiles
namespace Tiling

/-- Specification: interval `[g-s, g+s]` meets tile `p` of size `n` starting at
`top + p*n`. -/
def Overlaps (top n s g p : Int) : Prop :=
  ∃ x, g - s ≤ x ∧ x ≤ g + s ∧ top + p * n ≤ x ∧ x < top + (p + 1) * n

theorem mem_intRange (a b x : Int) : x ∈ intRange a b ↔ a ≤ x ∧ x < b := by
  simp only [intRange, List.mem_map, List.mem_range]
  constructor
  · rintro ⟨k, hk, rfl⟩; omega
  · intro h; exact ⟨(x - a).toNat, by omega, by omega⟩

theorem nodup_intRange (a b : Int) : (intRange a b).Nodup := by
  unfold intRange
  refine List.Nodup.map (fun x y h => ?_) List.nodup_range
  simp at h; exact h

theorem floorDiv_le (x n p : Int) (hn : 0 < n) : floorDiv x n ≤ p ↔ x < (p + 1) * n := by
  unfold floorDiv
  rw [← Int.lt_add_one_iff, Int.ediv_lt_iff_lt_mul hn]

theorem lt_ceilDiv (x n p : Int) (hn : 0 < n) : p < ceilDiv x n ↔ p * n < x := by
  unfold ceilDiv
  have : p < -((-x) / n) ↔ (-x) / n < -p := by omega
  rw [this, Int.ediv_lt_iff_lt_mul hn, Int.neg_mul]; omega

/-- One axis: the range `[floor((g-top-s)/n), ceil((g-top+s+1)/n))` is exactly the
overlapped tiles. -/
theorem axis_exact (top n s g p : Int) (hn : 0 < n) (hs : 0 ≤ s) :
    (floorDiv (g - top - s) n ≤ p ∧ p < ceilDiv (g - top + s + 1) n) ↔
      Overlaps top n s g p := by
  rw [floorDiv_le _ _ _ hn, lt_ceilDiv _ _ _ hn]
  unfold Overlaps
  have e : (p + 1) * n = p * n + n := by ring
  constructor
  · rintro ⟨h1, h2⟩
    refine ⟨max (g - s) (top + p * n), ?_, ?_, ?_, ?_⟩ <;> omega
  · rintro ⟨x, h1, h2, h3, h4⟩
    constructor <;> omega

/-- One axis: with the tiles covering the grid, an in-grid footprint overlaps only
existing tiles. -/
theorem axis_bound (top n s g p num size : Int) (hn : 0 < n)
    (htop : top ≤ 0) (hcov : size - top ≤ num * n) (h1 : g + s < size) (h2 : g - s ≥ 0)
    (ho : Overlaps top n s g p) : 0 ≤ p ∧ p < num := by
  obtain ⟨x, hx1, hx2, hx3, hx4⟩ := ho
  constructor
  · by_contra h
    have : (p + 1) * n ≤ 0 := by nlinarith
    omega
  · by_contra h
    have : num * n ≤ p * n := by nlinarith
    omega

variable (T : Tiling)

/-- The tiling covers the grid: it starts at or before column 0 and ends at or
after the last column. -/
structure Covers : Prop where
  tu : 0 < T.tileU
  tv : 0 < T.tileV
  s : 0 ≤ T.support
  topU : T.topU ≤ 0
  topV : T.topV ≤ 0
  endU : T.gridSize - T.topU ≤ T.numU * T.tileU
  endV : T.gridSize - T.topV ≤ T.numV * T.tileV

theorem mem_tileList (r : Int × Int × Int × Int) (t : Int) :
    t ∈ T.tileList r ↔ ∃ pu pv, (r.1 ≤ pu ∧ pu < r.2.1) ∧ (r.2.2.1 ≤ pv ∧ pv < r.2.2.2) ∧
      t = pu + pv * T.numU := by
  simp only [tileList, List.mem_flatMap, List.mem_map, mem_intRange]
  constructor
  · rintro ⟨pv, hv, pu, hu, rfl⟩; exact ⟨pu, pv, hu, hv, rfl⟩
  · rintro ⟨pu, pv, hu, hv, rfl⟩; exact ⟨pv, hv, pu, hu, rfl⟩

/-- C15, GPU, exactness: the tiles visited for a visibility are exactly those
overlapped by its kernel footprint (no condition on the grid size). -/
theorem C15_gpu_exact (gu gv : Int) (hu : 0 < T.tileU) (hv : 0 < T.tileV) (hs : 0 ≤ T.support)
    (t : Int) :
    t ∈ T.tileList (T.rangesGpu gu gv) ↔
      ∃ pu pv, Overlaps T.topU T.tileU T.support gu pu ∧
        Overlaps T.topV T.tileV T.support gv pv ∧ t = pu + pv * T.numU := by
  rw [mem_tileList]
  simp only [rangesGpu, axis_exact _ _ _ _ _ hu hs, axis_exact _ _ _ _ _ hv hs]

theorem index_bound {pu pv nu nv : Int} (h1 : 0 ≤ pu) (h2 : pu < nu) (h3 : 0 ≤ pv)
    (h4 : pv < nv) : 0 ≤ pu + pv * nu ∧ pu + pv * nu < nu * nv := by
  constructor
  · have := Int.mul_nonneg h3 (by omega : 0 ≤ nu); omega
  · have : pv * nu ≤ (nv - 1) * nu := by nlinarith
    nlinarith

theorem inGrid_iff (gu gv : Int) : T.inGrid gu gv = true ↔
    (gu + T.support < T.gridSize ∧ gu - T.support ≥ 0 ∧
    gv + T.support < T.gridSize ∧ gv - T.support ≥ 0) := by
  simp [inGrid]

/-- C15, GPU, partial: if the tiling covers the grid, every tile index computed for
a visibility passing the in-grid test is inside the tile array, and no tile is
visited twice.  Missing: grid/tile sizes for which the tiling does not cover the
grid (`C15_tile_index_past_end_false`, `C15_tile_index_negative_false`). -/
theorem C15_gpu_in_range_partial (hC : T.Covers) (gu gv : Int) (hg : T.inGrid gu gv = true) :
    (∀ t ∈ T.tileList (T.rangesGpu gu gv), 0 ≤ t ∧ t < T.num) ∧
      (T.tileList (T.rangesGpu gu gv)).Nodup := by
  rw [inGrid_iff] at hg
  obtain ⟨g1, g2, g3, g4⟩ := hg
  refine ⟨fun t ht => ?_, ?_⟩
  · rw [C15_gpu_exact T gu gv hC.tu hC.tv hC.s] at ht
    obtain ⟨pu, pv, ou, ov, rfl⟩ := ht
    have hu := axis_bound _ _ _ _ _ _ _ hC.tu hC.topU hC.endU g1 g2 ou
    have hv := axis_bound _ _ _ _ _ _ _ hC.tv hC.topV hC.endV g3 g4 ov
    exact index_bound hu.1 hu.2 hv.1 hv.2
  · have key : ∀ pu, pu ∈ intRange (T.rangesGpu gu gv).1 (T.rangesGpu gu gv).2.1 →
        0 ≤ pu ∧ pu < T.numU := by
      intro pu h
      rw [mem_intRange] at h
      have : Overlaps T.topU T.tileU T.support gu pu :=
        (axis_exact _ _ _ _ _ hC.tu hC.s).1 h
      exact axis_bound _ _ _ _ _ _ _ hC.tu hC.topU hC.endU g1 g2 this
    unfold tileList
    rw [List.nodup_flatMap]
    refine ⟨fun pv _ => ?_, ?_⟩
    · exact (nodup_intRange _ _).map fun x y h => by simpa using h
    · refine (nodup_intRange _ _).imp_of_mem fun {a b} ha hb hab => ?_
      simp only [Function.onFun, List.disjoint_left, List.mem_map]
      rintro t ⟨x, hx, rfl⟩ ⟨y, hy, hxy⟩
      have h1 := key x hx
      have h2 := key y hy
      apply hab
      have hn : 0 < T.numU := by omega
      have e1 : (x + a * T.numU) / T.numU = a := by
        rw [Int.add_mul_ediv_right _ _ (by omega), Int.ediv_eq_zero_of_lt h1.1 h1.2]; omega
      have e2 : (y + b * T.numU) / T.numU = b := by
        rw [Int.add_mul_ediv_right _ _ (by omega), Int.ediv_eq_zero_of_lt h2.1 h2.2]; omega
      rw [← e1, ← e2, hxy]

/-- C15, CPU, partial: if the tiling covers the grid every tile index is inside the
tile array, and every overlapped tile is visited.  Missing: the converse (tiles to
the left of the footprint are visited too, `C15_cpu_extra_tiles_false`). -/
theorem C15_cpu_covers_partial (hC : T.Covers) (gu gv : Int) (hg : T.inGrid gu gv = true) :
    (∀ t ∈ T.tileList (T.rangesCpu gu gv), 0 ≤ t ∧ t < T.num) ∧
    (∀ pu pv, Overlaps T.topU T.tileU T.support gu pu → Overlaps T.topV T.tileV T.support gv pv →
      pu + pv * T.numU ∈ T.tileList (T.rangesCpu gu gv)) := by
  rw [inGrid_iff] at hg
  obtain ⟨g1, g2, g3, g4⟩ := hg
  refine ⟨fun t ht => ?_, fun pu pv ou ov => ?_⟩
  · rw [mem_tileList] at ht
    obtain ⟨pu, pv, hu, hv, rfl⟩ := ht
    simp only [rangesCpu] at hu hv
    have ov := (axis_exact T.topV T.tileV T.support gv pv hC.tv hC.s).1 hv
    have hv' := axis_bound _ _ _ _ _ _ _ hC.tv hC.topV hC.endV g3 g4 ov
    have hu' : pu < T.numU := by
      rw [lt_ceilDiv _ _ _ hC.tu] at hu
      by_contra h
      have : T.numU * T.tileU ≤ pu * T.tileU := by nlinarith [hC.tu]
      have := hC.endU
      omega
    exact index_bound hu.1 hu' hv'.1 hv'.2
  · rw [mem_tileList]
    have hu' := axis_bound _ _ _ _ _ _ _ hC.tu hC.topU hC.endU g1 g2 ou
    refine ⟨pu, pv, ⟨hu'.1, ?_⟩, ?_, rfl⟩
    · exact ((axis_exact _ _ _ _ _ hC.tu hC.s).2 ou).2
    · exact (axis_exact _ _ _ _ _ hC.tv hC.s).2 ov

/-- Non-vacuity: a 70-cell grid with 32-cell tiles is covered; a visibility near the
corner of four tiles visits four tiles. -/
def T70 : Tiling := ⟨70, 32, 32, 4⟩
theorem T70_covers : T70.Covers := by constructor <;> decide
example : T70.inGrid 20 20 = true ∧
    T70.tileList (T70.rangesGpu 20 20) = [0, 1, 3, 4] := by decide

/-- Violation: grid 64, tile 32 (a multiple). A visibility passing the in-grid test
in the right part of the grid gets a tile column equal to the number of tile
columns; in the lower right the index is past the end of the tile array. -/
theorem C15_tile_index_past_end_false :
    ∃ (T : Tiling) (gu gv t : Int), 0 < T.tileU ∧ 0 < T.tileV ∧ T.inGrid gu gv = true ∧
      t ∈ T.tileList (T.rangesCpu gu gv) ∧ t ∈ T.tileList (T.rangesGpu gu gv) ∧ T.num ≤ t :=
  ⟨⟨64, 32, 32, 4⟩, 58, 58, 6, by decide⟩

/-- Violation: grid 48, tile 32: the tiling starts at column 8, a visibility near
column 4 gets tile index −1 − 1·2. -/
theorem C15_tile_index_negative_false :
    ∃ (T : Tiling) (gu gv t : Int), 0 < T.tileU ∧ 0 < T.tileV ∧ T.inGrid gu gv = true ∧
      t ∈ T.tileList (T.rangesGpu gu gv) ∧ t < 0 :=
  ⟨⟨48, 32, 32, 2⟩, 3, 3, -3, by decide⟩

/-- Violation: the CPU code counts a visibility in tiles its footprint does not
touch, even when the tiling covers the grid. -/
theorem C15_cpu_extra_tiles_false :
    ∃ (T : Tiling) (gu gv t : Int), T.Covers ∧ T.inGrid gu gv = true ∧
      t ∈ T.tileList (T.rangesCpu gu gv) ∧
      ¬ t ∈ T.tileList (T.rangesGpu gu gv) ∧
      ¬ ∃ pu pv, Overlaps T.topU T.tileU T.support gu pu ∧
        Overlaps T.topV T.tileV T.support gv pv ∧ t = pu + pv * T.numU := by
  refine ⟨T70, 40, 40, 3, T70_covers, by decide, by decide, by decide, ?_⟩
  rw [← C15_gpu_exact T70 40 40 (by decide) (by decide) (by decide)]
  decide

/-- C13 with C15: for a covering tiling and any visibilities, the GPU items are all
in range, so counting, prefix sum and scatter of C13 apply to them; the skipped
visibilities are exactly those failing the in-grid test. -/
theorem C13_items_in_range (hC : T.Covers) (cells : Nat → Int × Int) (n : Nat) :
    (∀ x ∈ T.items T.rangesGpu cells n, 0 ≤ x.2 ∧ x.2 < T.num) ∧
    (∀ x ∈ T.items T.rangesCpu cells n, 0 ≤ x.2 ∧ x.2 < T.num) ∧
    (∀ v t, (v, t) ∈ T.items T.rangesGpu cells n ↔
      v < n ∧ T.inGrid (cells v).1 (cells v).2 = true ∧
      ∃ pu pv, Overlaps T.topU T.tileU T.support (cells v).1 pu ∧
        Overlaps T.topV T.tileV T.support (cells v).2 pv ∧ t = pu + pv * T.numU) := by
  have gen : ∀ r v t, (v, t) ∈ T.items r cells n ↔
      v < n ∧ T.inGrid (cells v).1 (cells v).2 = true ∧
        t ∈ T.tileList (r (cells v).1 (cells v).2) := by
    intro r v t
    simp only [items, List.mem_flatMap, List.mem_range]
    constructor
    · rintro ⟨w, hw, hm⟩
      by_cases hg : T.inGrid (cells w).1 (cells w).2
      · rw [if_pos hg] at hm
        simp only [List.mem_map, Prod.mk.injEq] at hm
        obtain ⟨t', ht', rfl, rfl⟩ := hm
        exact ⟨hw, hg, ht'⟩
      · rw [if_neg hg] at hm; simp at hm
    · rintro ⟨hv, hg, ht⟩
      refine ⟨v, hv, ?_⟩
      rw [if_pos hg]
      simp [ht]
  refine ⟨?_, ?_, ?_⟩
  · rintro ⟨v, t⟩ h
    rw [gen] at h
    exact (C15_gpu_in_range_partial T hC _ _ h.2.1).1 t h.2.2
  · rintro ⟨v, t⟩ h
    rw [gen] at h
    exact (C15_cpu_covers_partial T hC _ _ h.2.1).1 t h.2.2
  · intro v t
    rw [gen, C15_gpu_exact T _ _ hC.tu hC.tv hC.s]

end Tiling
end Sdp.Tiles
