import Verif.Width.IntFacts

/-
C117 for the tiling functions and the de-gridder with custom kernels.
-/
namespace Sdp.Width

theorem atTiles_lit (s : Ty) (t b c : Nat) (hits : Nat → Nat → Nat → Nat) (body : Trace)
    (f : List Acc) (h : body = some f) :
    atTiles (lit s t) (lit s b) (lit s c) hits body = some (each (hits t b c) fun _ => f) := by
  unfold each
  have : atTiles (lit s t) (lit s b) (lit s c) hits body = iters (fun _ => body) (hits t b c) := by
    simp only [atTiles, lit, Option.bind_some, Int.toNat_natCast]
  rw [this]
  exact iters_some _ _ _ fun _ _ => h

theorem add_zero32 (v : Nat) (h : v ≤ 2147483647) : lit .i32 (v : Int) + num 0 = lit .i32 (v : Int) := by
  rw [num_lit, add32 _ _ ⟨by omega, by omega⟩ ⟨by omega, by omega⟩ ⟨by omega, by omega⟩, add_zero]

theorem add_one32 (v : Nat) (h : v < 2147483647) : lit .i32 (v : Int) + num 1 = lit .i32 ((v + 1 : Nat) : Int) := by
  rw [num_lit, add32 _ _ ⟨by omega, by omega⟩ ⟨by omega, by omega⟩ ⟨by omega, by omega⟩]
  rfl

/-- C117: sorting visibilities into tiles on the CPU, while coordinates and
visibilities have at most 2^31-1 elements.  Missing: more,
`C117_bucket_sort_large_false`. -/
theorem C117_bucket_sort_partial (T B C : Nat) (hits : Nat → Nat → Nat → Nat) (hT : FitsInt T)
    (hB : FitsInt B) (hC : FitsInt C) (huvw : FitsInt (T * B * 3)) (hvis : FitsInt (T * B * C)) :
    bucketCpu T B C hits = some (bucketSpec T B C hits) := by
  unfold FitsInt at *
  unfold bucketCpu bucketSpec each longDim
  refine loop_lit .i32 .i64 T _ _ (by simp only [Ty.hi]; omega) fun t ht => ?_
  refine loop_lit .i32 .i64 B _ _ (by simp only [Ty.hi]; omega) fun b hb => ?_
  refine loop_lit .i32 .i64 C _ _ (by simp only [Ty.hi]; omega) fun c hc => ?_
  have hu := rowMajor3_lt (l := 3) ht hb (show 1 < 3 by omega)
  have hv := rowMajor3_lt (l := C) ht hb hc
  simp only [rowMajor3] at hu hv
  have e1 : as .i32 (INDEX_3D (lit .i64 T) (lit .i64 B) (num 3) (lit .i32 t) (lit .i32 b) (num 0)) =
      lit .i32 (((t * B + b) * 3 : Nat) : Int) := by
    have := index3_lit (lit .i64 T) .i64 .i32 .i32 .i32 .i32 .i64 T B 3 t b 0 ht hb (by omega)
      9223372036854775807 (by omega) (by decide)
    rw [show num 3 = lit .i32 ((3 : Nat) : Int) from rfl, show num 0 = lit .i32 ((0 : Nat) : Int) from rfl,
      this, rowMajor3, add_zero, as32 _ _ ⟨by omega, by omega⟩]
  have e2 : as .i32 (INDEX_4D (lit .i64 T) (lit .i64 B) (lit .i64 C) (num 1) (lit .i32 t) (lit .i32 b) (lit .i32 c)
      (num 0)) = lit .i32 (((t * B + b) * C + c : Nat) : Int) := by
    have := index4_lit (lit .i64 T) .i64 .i64 .i32 .i32 .i32 .i32 .i32 .i64 T B C 1 t b c 0 ht hb hc (by omega)
      9223372036854775807 (by omega) (by decide)
    rw [show num 1 = lit .i32 ((1 : Nat) : Int) from rfl, show num 0 = lit .i32 ((0 : Nat) : Int) from rfl,
      this, rowMajor4, add_zero, mul_one, as32 _ _ ⟨by omega, by omega⟩]
  dsimp only
  rw [e1, e2, add_zero32 _ (by omega), add_one32 _ (by omega), atTiles_lit .i32 t b c hits _
    [el "vis" [(T, t), (B, b), (C, c)], el "weight" [(T, t), (B, b), (C, c)]] (by
      rw [show num 1 = lit .i32 ((1 : Nat) : Int) from rfl, loop_lit .i32 .i32 1 _
        (fun _ => [el "vis" [(T, t), (B, b), (C, c)], el "weight" [(T, t), (B, b), (C, c)]]) (by decide) (fun i hi => by
          obtain rfl : i = 0 := by omega
          rw [show lit .i32 ((0 : Nat) : Int) = num 0 from rfl, add_zero32 _ (by omega)]
          simp only [touch_lit, seq_some, el, rowMajor3]
          rfl)]
      rfl)]
  unfold bucketAt
  simp only [touch_lit, seq_some, el, rowMajor1, rowMajor3, add_zero]
  rfl

theorem thread_u64 (g : Nat) (h : g < 4294967296) : as .u64 (threadIndex g) = lit .u64 g := by
  rw [thread_u32 g h]
  exact as_lit .u64 .u32 g (by simp only [Ty.hi]; omega)

/-- C117: the same on the GPU; refused with an error, or exactly the documented
elements.  Missing: more, `C117_bucket_sort_gpu_large_false`. -/
theorem C117_bucket_sort_gpu_partial (T B C : Nat) (hits : Nat → Nat → Nat → Nat) (hT : FitsInt T)
    (hB : FitsInt B) (hC : FitsInt C) (huvw : FitsInt (T * B * 3)) (hvis : FitsInt (T * B * C)) :
    bucketGpu T B C hits = .refused ∨ bucketGpu T B C hits = .ran (some (bucketGpuSpec T B C hits)) := by
  unfold bucketGpu bucketGpuSpec
  simp only [intDim_fits _ hT, intDim_fits _ hB, intDim_fits _ hC]
  unfold FitsInt at *
  refine launch3_lit B C T 128 2 2 (by omega) (by omega) (by omega) (by omega) (by omega) (by omega) _
    (fun t c b => bucketAt T B C t b c (hits t b c)) fun b c t hb' hc' ht' => ?_
  rw [thread_u64 b (by omega), thread_u64 c (by omega), thread_u64 t (by omega),
    whenLt_lit .u64 .i32 b B _ (by simp only [Ty.join, Ty.hi]; omega) (by simp only [Ty.join, Ty.hi]; omega),
    whenLt_lit .u64 .i32 c C _ (by simp only [Ty.join, Ty.hi]; omega) (by simp only [Ty.join, Ty.hi]; omega),
    whenLt_lit .u64 .i32 t T _ (by simp only [Ty.join, Ty.hi]; omega) (by simp only [Ty.join, Ty.hi]; omega)]
  by_cases hb : b < B
  swap
  · rw [if_neg hb, if_neg hb]; rfl
  by_cases hc : c < C
  swap
  · rw [if_pos hb, if_pos hb, if_neg hc, if_neg hc]; rfl
  by_cases ht : t < T
  swap
  · rw [if_pos hb, if_pos hb, if_pos hc, if_pos hc, if_neg ht, if_neg ht]; rfl
  rw [if_pos hb, if_pos hb, if_pos hc, if_pos hc, if_pos ht, if_pos ht]
  have hu := rowMajor3_lt (l := 3) ht hb (show 1 < 3 by omega)
  have hv := rowMajor3_lt (l := C) ht hb hc
  simp only [rowMajor3] at hu hv
  have e1 : as .i32 (INDEX_3D (lit .i32 T) (lit .i32 B) (num 3) (lit .u64 t) (lit .u64 b) (num 0)) =
      lit .i32 (((t * B + b) * 3 : Nat) : Int) := by
    have := index3_lit (lit .i32 T) .i32 .i32 .u64 .u64 .i32 .u64 T B 3 t b 0 ht hb (by omega)
      9223372036854775807 (by omega) (by decide)
    rw [show num 3 = lit .i32 ((3 : Nat) : Int) from rfl, show num 0 = lit .i32 ((0 : Nat) : Int) from rfl,
      this, rowMajor3, add_zero, as32 _ _ ⟨by omega, by omega⟩]
  have e2 : as .i32 (INDEX_3D (lit .i32 T) (lit .i32 B) (lit .i32 C) (lit .u64 t) (lit .u64 b) (lit .u64 c)) =
      lit .i32 (((t * B + b) * C + c : Nat) : Int) := by
    rw [index3_lit (lit .i32 T) .i32 .i32 .u64 .u64 .u64 .u64 T B C t b c ht hb hc
      9223372036854775807 (by omega) (by decide), rowMajor3, as32 _ _ ⟨by omega, by omega⟩]
  rw [e1, e2, add_zero32 _ (by omega), add_one32 _ (by omega), atTiles_lit .u64 t b c hits _
    [el "vis" [(T, t), (B, b), (C, c)], el "weight" [(T, t), (B, b), (C, c)]] (by
      simp only [touch_lit, seq_some, el, rowMajor3]
      rfl)]
  unfold bucketAt
  simp only [touch_lit, seq_some, el, rowMajor1, rowMajor3, add_zero]
  rfl

theorem offsets_step (S c : Nat) (h : S + c ≤ 2147483647) (l : List Num) :
    ((lit .i32 (S : Int) + lit .i32 (c : Int)).bind fun s => some (l ++ [lit .i32 (S : Int)], some s)) =
      some (l ++ [lit .i32 (S : Int)], lit .i32 ((S + c : Nat) : Int)) := by
  have e := add_lit .i32 .i32 S c (by simp only [Ty.join, Ty.hi]; omega)
  rw [e]
  rfl

theorem prefixOffsets_lit (count : Nat → Nat) (n : Nat) (h : ((List.range n).map count).sum ≤ 2147483647) :
    prefixOffsets count n = some ((List.range n).map fun i => lit .i32 (((List.range i).map count).sum : Nat),
      lit .i32 (((List.range n).map count).sum : Nat)) := by
  induction n with
  | zero => rfl
  | succ n ih =>
    have e : ((List.range (n + 1)).map count).sum = ((List.range n).map count).sum + count n := by
      rw [List.range_succ, List.map_append, List.sum_append, List.map_singleton, List.sum_singleton]
    rw [e] at h ⊢
    have hn := ih (by omega)
    unfold prefixOffsets
    rw [hn, Option.bind_some, offsets_step _ _ h, List.range_succ, List.map_append, List.map_singleton]

/-- C117: offsets of tiles are the numbers of points in the tiles before, and the
last is the number of all, if that is at most 2^31-1.  Missing: more,
`C117_prefix_sum_large_false`. -/
theorem C117_prefix_sum_partial (count : Nat → Nat) (n : Nat) (h : FitsInt ((List.range n).map count).sum) :
    prefixSum count n =
      some ((List.range (n + 1)).map fun i => some ⟨.i32, (((List.range i).map count).sum : Nat)⟩) := by
  unfold prefixSum
  rw [prefixOffsets_lit count n h, List.range_succ, List.map_append]
  rfl

theorem index5_lit (X : Num) (N5 N4 N3 N2 N1 i5 i4 i3 i2 i1 : Nat) (s3 s2 : Ty)
    (b5 : i5 < N5) (b4 : i4 < N4) (b3 : i3 < N3)
    (b2 : i2 < N2) (b1 : i1 < N1) (h : N5 * N4 * N3 * N2 * N1 ≤ 9223372036854775807)
    (hs : s3 = .i64 ∧ s2 = .i64) :
    INDEX_5D X (lit .i64 N4) (lit .i64 N3) (lit .i64 N2) (lit .i64 N1) (lit .i32 i5) (lit .i32 i4) (lit s3 i3)
      (lit s2 i2) (lit .i32 i1) =
      lit .i64 (rowMajor [(N5, i5), (N4, i4), (N3, i3), (N2, i2), (N1, i1)] : Int) := by
  obtain ⟨rfl, rfl⟩ := hs
  have h4 : N5 * N4 * N3 * N2 ≤ N5 * N4 * N3 * N2 * N1 := Nat.le_mul_of_pos_right _ (by omega)
  have h3 : N5 * N4 * N3 ≤ N5 * N4 * N3 * N2 := Nat.le_mul_of_pos_right _ (by omega)
  have h2 : N5 * N4 ≤ N5 * N4 * N3 := Nat.le_mul_of_pos_right _ (by omega)
  have l4 := step_lt N5 N4 i5 i4 b5 b4
  have l3 := step_lt _ N3 _ i3 l4 b3
  have l2 := step_lt _ N2 _ i2 l3 b2
  have l1 := step_lt _ N1 _ i1 l2 b1
  unfold INDEX_5D
  rw [step_lit .i64 .i32 .i32 N5 N4 i5 i4 b5 b4 (by simp only [Ty.join, Ty.hi]; omega) (by simp only [Ty.join, Ty.hi]; omega)]
  simp only [Ty.join]
  rw [step_lit .i64 .i64 .i64 (N5 * N4) N3 _ i3 l4 b3 (by simp only [Ty.join, Ty.hi]; omega) (by simp only [Ty.join, Ty.hi]; omega)]
  simp only [Ty.join]
  rw [step_lit .i64 .i64 .i64 (N5 * N4 * N3) N2 _ i2 l3 b2 (by simp only [Ty.join, Ty.hi]; omega)
    (by simp only [Ty.join, Ty.hi]; omega)]
  simp only [Ty.join]
  rw [step_lit .i64 .i64 .i32 (N5 * N4 * N3 * N2) N1 _ i1 l2 b1 (by simp only [Ty.join, Ty.hi]; omega)
    (by simp only [Ty.join, Ty.hi]; omega), rowMajor5]
  simp only [Ty.join]

/-- Where the kernel of a visibility lies: within the grid, as the code checks
(src/ska-sdp-func/grid_data/sdp_degrid_uvw_custom.cpp:130-134), and offsets of
kernels that are elements of them. -/
def PointOk (S X Y : Nat) (L : Nat) (q : Nat × Nat × Nat × Nat × Nat) : Prop :=
  S / 2 ≤ q.1 ∧ q.1 + S - S / 2 ≤ X ∧ S / 2 ≤ q.2.1 ∧ q.2.1 + S - S / 2 ≤ Y ∧
  q.2.2.1 + S ≤ L ∧ q.2.2.2.1 + S ≤ L ∧ q.2.2.2.2 ≤ L

theorem customPoint_lit (S W X Y Z T B C P t b c L : Nat) (q : Nat × Nat × Nat × Nat × Nat)
    (hS : FitsInt S) (hX : FitsInt (X + S)) (hY : FitsInt (Y + S)) (hL : FitsInt (L + W)) (hP : FitsInt P) (hW : W ≤ Z)
    (ht : t < T) (hb : b < B) (hc : c < C) (hq : PointOk S X Y L q)
    (hgrid : FitsLong (C * Z * Y * X * P)) (hvis : FitsLong (T * B * C * P)) :
    customPoint (longDim S) (longDim W) (longDim X) (longDim Y) (longDim Z) (longDim T) (longDim B) (longDim C)
      (longDim P) (lit .i32 t) (lit .i32 b) (lit .i32 c) q = some (customAt S W X Y Z T B C P t b c q) := by
  obtain ⟨q1, q2, q3, q4, q5, q6, q7⟩ := hq
  unfold FitsInt FitsLong at *
  unfold customPoint customAt each longDim
  have eh : (lit .i64 ((S : Nat) : Int) / num 2) = lit .i64 ((S / 2 : Nat) : Int) :=
    div_lit .i64 .i32 S 2 (by omega) (by simp only [Ty.join, Ty.hi]; omega) (by decide)
  simp only [eh]
  refine loop_lit .i32 .i64 P _ _ (by simp only [Ty.hi]; omega) fun p hp => ?_
  have coord : ∀ g x N : Nat, S / 2 ≤ g → g + S - S / 2 ≤ N → N + S ≤ 2147483647 → x < S →
      lit .i32 (g : Int) + lit .i32 (x : Int) - lit .i64 ((S / 2 : Nat) : Int) =
        lit .i64 ((g + x - S / 2 : Nat) : Int) ∧ g + x - S / 2 < N := by
    intro g x N h1 h2 h3 h4
    refine ⟨?_, by omega⟩
    rw [add_lit .i32 .i32 g x (by simp only [Ty.join, Ty.hi]; omega)]
    simp only [Ty.join]
    rw [sub_lit .i32 .i64 (g + x) (S / 2) (by simp only [Ty.join, Ty.hi]; omega) (by omega)]
    simp only [Ty.join]
  rw [loop_lit .i32 .i64 W _ (fun z => ((List.range S).flatMap fun y => ((List.range S).flatMap fun x =>
          [el "grid" [(C, c), (Z, z), (Y, q.2.1 + y - S / 2), (X, q.1 + x - S / 2), (P, p)],
            ("uv_kernel", ((q.2.2.1 + x : Nat) : Int))]) ++ [("uv_kernel", ((q.2.2.2.1 + y : Nat) : Int))]) ++
        [("w_kernel", ((q.2.2.2.2 + z : Nat) : Int))]) (by simp only [Ty.hi]; omega) (fun z hz => ?_),
    index4_lit (lit .i64 T) .i64 .i64 .i64 .i32 .i32 .i32 .i32 .i64 T B C P t b c p ht hb hc hp
      9223372036854775807 hvis (by decide), touch_lit, seq_some]
  · rfl
  rw [loop_lit .i32 .i64 S _ (fun y => ((List.range S).flatMap fun x =>
          [el "grid" [(C, c), (Z, z), (Y, q.2.1 + y - S / 2), (X, q.1 + x - S / 2), (P, p)],
            ("uv_kernel", ((q.2.2.1 + x : Nat) : Int))]) ++ [("uv_kernel", ((q.2.2.2.1 + y : Nat) : Int))])
      (by simp only [Ty.hi]; omega) (fun y hy => ?_),
    add_lit .i32 .i32 q.2.2.2.2 z (by simp only [Ty.join, Ty.hi]; omega), touch_lit, seq_some]
  obtain ⟨ey, ly⟩ := coord q.2.1 y Y q3 q4 hY hy
  rw [loop_lit .i32 .i64 S _ (fun x => [el "grid" [(C, c), (Z, z), (Y, q.2.1 + y - S / 2), (X, q.1 + x - S / 2), (P, p)],
            ("uv_kernel", ((q.2.2.1 + x : Nat) : Int))]) (by simp only [Ty.hi]; omega) (fun x hx => ?_),
    add_lit .i32 .i32 q.2.2.2.1 y (by simp only [Ty.join, Ty.hi]; omega), touch_lit, seq_some]
  obtain ⟨exx, lx⟩ := coord q.1 x X q1 q2 hX hx
  rw [ey, exx, index5_lit (lit .i64 C) C Z Y X P c z _ _ p .i64 .i64 hc (by omega) ly lx hp hgrid ⟨rfl, rfl⟩,
    add_lit .i32 .i32 q.2.2.1 x (by simp only [Ty.join, Ty.hi]; omega), touch_lit, touch_lit, seq_some]
  rfl

/-- C117: de-gridding with custom kernels on the CPU, for arrays of any size an
`int64_t` can count, while each dimension fits an `int`.  `L` bounds the offsets
in the kernels.  Missing: dimensions that do not fit. -/
theorem C117_custom_partial (S W X Y Z T B C P L : Nat)
    (pt : Nat → Nat → Nat → Option (Nat × Nat × Nat × Nat × Nat)) (hpt : ∀ t b c q, pt t b c = some q → PointOk S X Y L q)
    (hT : FitsInt T) (hB : FitsInt B) (hC : FitsInt C) (hP : FitsInt P) (hS : FitsInt S) (hX : FitsInt (X + S))
    (hY : FitsInt (Y + S)) (hL : FitsInt (L + W)) (hW : W ≤ Z) (huvw : FitsLong (T * B * 3))
    (hgrid : FitsLong (C * Z * Y * X * P)) (hvis : FitsLong (T * B * C * P)) :
    customCpu S W X Y Z T B C P pt = some (customSpec S W X Y Z T B C P pt) := by
  unfold customCpu customSpec each
  unfold longDim
  refine loop_lit .i32 .i64 T _ _ (by unfold FitsInt at hT; simp only [Ty.hi]; omega) fun t ht => ?_
  refine loop_lit .i32 .i64 B _ _ (by unfold FitsInt at hB; simp only [Ty.hi]; omega) fun b hb => ?_
  have hu := rowMajor3_lt (l := 3) ht hb (show 2 < 3 by omega)
  simp only [rowMajor3] at hu
  have e1 : INDEX_3D (lit .i64 T) (lit .i64 B) (num 3) (lit .i32 t) (lit .i32 b) (num 0) =
      lit .i64 (((t * B + b) * 3 : Nat) : Int) := by
    have := index3_lit (lit .i64 T) .i64 .i32 .i32 .i32 .i32 .i64 T B 3 t b 0 ht hb (by omega)
      9223372036854775807 huvw (by decide)
    rw [show num 3 = lit .i32 ((3 : Nat) : Int) from rfl, show num 0 = lit .i32 ((0 : Nat) : Int) from rfl,
      this, rowMajor3, add_zero]
  unfold FitsLong at huvw
  dsimp only
  rw [e1, show num 1 = lit .i32 ((1 : Nat) : Int) from rfl, show num 2 = lit .i32 ((2 : Nat) : Int) from rfl,
    add_lit .i64 .i32 _ 1 (by simp only [Ty.join, Ty.hi]; omega), add_lit .i64 .i32 _ 2 (by simp only [Ty.join, Ty.hi]; omega),
    loop_lit .i32 .i64 C _ (fun c => customMaybe S W X Y Z T B C P t b c (pt t b c))
      (by unfold FitsInt at hC; simp only [Ty.hi]; omega) (fun c hc => ?_)]
  · simp only [touch_lit, seq_some, el, rowMajor3, add_zero]
    rfl
  · simp only [show ∀ (x : Int) (f : V → Trace), (lit .i32 x).bind f = f ⟨.i32, x⟩ from fun _ _ => rfl,
      Int.toNat_natCast]
    unfold customMaybe
    rcases hq : pt t b c with _ | q
    · rfl
    · exact customPoint_lit S W X Y Z T B C P t b c L q hS hX hY hL hP hW ht hb hc (hpt t b c q hq) hgrid hvis

/-- C117: the same on the GPU; refused with an error, or exactly the documented
elements. -/
theorem C117_custom_gpu_partial (S W X Y Z T B C P L : Nat)
    (pt : Nat → Nat → Nat → Option (Nat × Nat × Nat × Nat × Nat)) (hpt : ∀ t b c q, pt t b c = some q → PointOk S X Y L q)
    (hT : FitsInt T) (hB : FitsInt B) (hC : FitsInt C) (hP : FitsInt P) (hS : FitsInt S) (hX : FitsInt (X + S))
    (hY : FitsInt (Y + S)) (hL : FitsInt (L + W)) (hW : W ≤ Z) (huvw : FitsLong (T * B))
    (hgrid : FitsLong (C * Z * Y * X * P)) (hvis : FitsLong (T * B * C * P)) :
    customGpu S W X Y Z T B C P pt = .refused ∨
      customGpu S W X Y Z T B C P pt = .ran (some (customGpuSpec S W X Y Z T B C P pt)) := by
  unfold customGpu customGpuSpec
  have hT' := hT
  have hB' := hB
  have hC' := hC
  unfold FitsInt at hT' hB' hC'
  refine launch3_lit B C T 128 2 2 (by omega) (by omega) (by omega) (by omega) (by omega) (by omega) _
    (fun t c b => [el "uvw" [(T, t), (B, b)]] ++ customMaybe S W X Y Z T B C P t b c (pt t b c)) fun b c t hb' hc' ht' => ?_
  rw [thread_i32 b (by omega), thread_i32 c (by omega), thread_i32 t (by omega)]
  unfold longDim
  rw [whenLt_lit .i32 .i64 b B _ (by simp only [Ty.join, Ty.hi]; omega) (by simp only [Ty.join, Ty.hi]; omega),
    whenLt_lit .i32 .i64 c C _ (by simp only [Ty.join, Ty.hi]; omega) (by simp only [Ty.join, Ty.hi]; omega),
    whenLt_lit .i32 .i64 t T _ (by simp only [Ty.join, Ty.hi]; omega) (by simp only [Ty.join, Ty.hi]; omega)]
  by_cases hb : b < B
  swap
  · rw [if_neg hb, if_neg hb]; rfl
  by_cases hc : c < C
  swap
  · rw [if_pos hb, if_pos hb, if_neg hc, if_neg hc]; rfl
  by_cases ht : t < T
  swap
  · rw [if_pos hb, if_pos hb, if_pos hc, if_pos hc, if_neg ht, if_neg ht]; rfl
  rw [if_pos hb, if_pos hb, if_pos hc, if_pos hc, if_pos ht, if_pos ht,
    index2_lit (lit .i64 T) .i64 .i32 .i32 .i64 T B t b ht hb 9223372036854775807 huvw (by decide)]
  simp only [show ∀ (x : Int) (f : V → Trace), (lit .i32 x).bind f = f ⟨.i32, x⟩ from fun _ _ => rfl,
      Int.toNat_natCast]
  unfold customMaybe
  rcases hq : pt t b c with _ | q
  · rfl
  · have := customPoint_lit S W X Y Z T B C P t b c L q hS hX hY hL hP hW ht hb hc (hpt t b c q hq) hgrid hvis
    unfold longDim at this
    dsimp only
    rw [this, touch_lit, seq_some]
    rfl

end Sdp.Width
