import Verif.Width.GpuProps

/-
C115 for the image functions.
-/
namespace Sdp.Width

theorem div_lit (s t : Ty) (a b : Nat) (hb : 0 < b)
    (ha : (a : Int) ≤ (s.join t).hi) (hb' : (b : Int) ≤ (s.join t).hi) :
    lit s a / lit t b = lit (s.join t) ((a / b : Nat) : Int) := by
  show Option.bind (lit t b) _ = _
  unfold lit
  simp only [Option.bind_some]
  rw [if_neg (by omega)]
  unfold arith
  simp only [Option.bind_some, wrap_of_fits _ _ ha, wrap_of_fits _ _ hb']
  rw [Int.tdiv_eq_ediv_of_nonneg (by omega), ← Int.natCast_ediv, fit_of_fits]
  · rfl
  · have := Nat.div_le_self a b
    omega

theorem mod_lit (s t : Ty) (a b : Nat) (hb : 0 < b)
    (ha : (a : Int) ≤ (s.join t).hi) (hb' : (b : Int) ≤ (s.join t).hi) :
    lit s a % lit t b = lit (s.join t) ((a % b : Nat) : Int) := by
  show Option.bind (lit t b) _ = _
  unfold lit
  simp only [Option.bind_some]
  rw [if_neg (by omega)]
  unfold arith
  simp only [Option.bind_some, wrap_of_fits _ _ ha, wrap_of_fits _ _ hb']
  rw [Int.tmod_eq_emod_of_nonneg (by omega), ← Int.natCast_emod, fit_of_fits]
  · rfl
  · have := Nat.mod_le a b
    omega

theorem long_square (n : Nat) (h : FitsLong (n * n)) :
    longDim n * longDim n = lit .i64 ((n * n : Nat) : Int) := by
  unfold FitsLong at h
  have hn : n ≤ n * n := Nat.le_mul_self n
  exact mul_lit .i64 .i64 n n (by simp only [Ty.join, Ty.hi]; omega)
    (by simp only [Ty.join, Ty.hi]; omega) (by simp only [Ty.join, Ty.hi]; omega)

/-- C115: the product of the transforms and its normalisation in
sdp_fft_convolution on the CPU, for padded arrays of at most 2^31-1 elements
(46340 by 46340; padded sizes are powers of two, so 32768 by 32768).  Missing:
larger ones, `C115_convolution_large_false`. -/
theorem C115_convolution_product_partial (pad : Nat) (h : FitsInt (pad * pad)) :
    productCpu pad = some (productSpec pad) := by
  have hl : FitsLong (pad * pad) := by unfold FitsInt FitsLong at *; omega
  unfold productCpu productSpec each
  rw [long_square pad hl]
  unfold FitsInt at h
  dsimp only
  rw [loop_lit .i32 .i64 (pad * pad) _ (fun i => [el "a" [(pad * pad, i)],
      el "b" [(pad * pad, i)], el "product" [(pad * pad, i)]])
      (by simp only [Ty.hi]; omega) (fun i hi => by
        simp only [touch_lit, seq_some, el, rowMajor1]; rfl),
    loop_lit .i32 .i64 (pad * pad) _ (fun i => [el "product" [(pad * pad, i)]])
      (by simp only [Ty.hi]; omega) (fun i hi => by
        simp only [touch_lit, el, rowMajor1]), seq_some]

/-- C115: padding in sdp_fft_convolution on the CPU, for all sizes. -/
theorem C115_convolution_pad (n pad : Nat)
    (h : FitsLong ((n + 2 * pad) * (n + 2 * pad))) :
    padCpu n pad = some (padSpec n pad) := by
  unfold FitsLong at h
  have hle : n + 2 * pad ≤ (n + 2 * pad) * (n + 2 * pad) := Nat.le_mul_self _
  have hnn : n * n ≤ (n + 2 * pad) * (n + 2 * pad) :=
    Nat.mul_le_mul (by omega) (by omega)
  have e2 : num 2 * longDim pad = lit .i64 ((2 * pad : Nat) : Int) := by
    rw [num2]
    exact mul_lit .i32 .i64 2 pad (by decide)
      (by simp only [Ty.join, Ty.hi]; omega)
      (by simp only [Ty.join, Ty.hi]; omega)
  have e3 : longDim n + num 2 * longDim pad =
      lit .i64 ((n + 2 * pad : Nat) : Int) := by
    rw [e2]
    exact add_lit .i64 .i64 n (2 * pad) (by simp only [Ty.join, Ty.hi]; omega)
  unfold padCpu padSpec each
  simp only [e3]
  refine loop_lit .i64 .i64 n _ _ (by simp only [Ty.hi]; omega) fun i hi => ?_
  refine loop_lit .i64 .i64 n _ _ (by simp only [Ty.hi]; omega) fun j hj => ?_
  have ei : ∀ k, k < n → lit .i64 (k : Int) + longDim pad =
      lit .i64 ((k + pad : Nat) : Int) := fun k hk =>
    add_lit .i64 .i64 k pad (by simp only [Ty.join, Ty.hi]; omega)
  have h1 := step_lt (n + 2 * pad) (n + 2 * pad) (i + pad) (j + pad)
    (by omega) (by omega)
  have h2 := step_lt n n i j hi hj
  have hin : i ≤ i * n := Nat.le_mul_of_pos_right _ (by omega)
  rw [ei i hi, ei j hj, mul_lit .i64 .i64 (i + pad) (n + 2 * pad)
    (by simp only [Ty.join, Ty.hi]; omega)
    (by simp only [Ty.join, Ty.hi]; omega)
    (by simp only [Ty.join, Ty.hi]; omega)]
  simp only [Ty.join]
  rw [add_lit .i64 .i64 ((i + pad) * (n + 2 * pad)) (j + pad)
    (by simp only [Ty.join, Ty.hi]; omega), show longDim n = lit .i64 n from rfl,
    mul_lit .i64 .i64 i n (by simp only [Ty.join, Ty.hi]; omega)
      (by simp only [Ty.join, Ty.hi]; omega)
      (by simp only [Ty.join, Ty.hi]; omega)]
  simp only [Ty.join]
  rw [add_lit .i64 .i64 (i * n) j (by simp only [Ty.join, Ty.hi]; omega)]
  simp only [touch_lit, seq_some, el, rowMajor2]
  rfl

/-- C115: the search for the peak in Hogbom CLEAN, for images of at most 2^31-1
pixels.  Missing: larger ones, `C115_hogbom_large_false`. -/
theorem C115_hogbom_scan_partial (D : Nat) (h : FitsInt (D * D)) :
    hogbomScan D = some (hogbomScanSpec D) := by
  have hl : FitsLong (D * D) := by unfold FitsInt FitsLong at *; omega
  unfold hogbomScan hogbomScanSpec each
  rw [long_square D hl]
  unfold FitsInt at h
  exact loop_lit .i32 .i64 (D * D) _ _ (by simp only [Ty.hi]; omega)
    (fun i hi => by simp only [touch_lit, el, rowMajor1])

/-- C115: subtracting the point spread function in Hogbom CLEAN, while the image
has at most 2^31-1 pixels and the point spread function, which is at least twice
as wide, at most 2^32.  Missing: larger ones, `C115_hogbom_psf_false`. -/
theorem C115_hogbom_subtract_partial (D M peak : Nat) (hD : FitsInt (D * D))
    (hpeak : peak < D * D) (hM : 2 * D ≤ M) (hM' : M * M ≤ 4294967296) :
    hogbomSubtract D M peak =
      some (hogbomSubtractSpec D M (peak / D) (peak % D)) := by
  unfold FitsInt at hD
  have hD0 : 0 < D := by
    rcases Nat.eq_zero_or_pos D with h | h
    · subst h; omega
    · exact h
  have hDD : D ≤ D * D := Nat.le_mul_self D
  have hMM : M ≤ 65536 := by
    by_contra hc
    have : 65537 * 65537 ≤ M * M := Nat.mul_le_mul (by omega) (by omega)
    omega
  have hx : peak / D < D := by rwa [Nat.div_lt_iff_lt_mul hD0]
  have hy : peak % D < D := Nat.mod_lt _ hD0
  have ex : as .i32 (num peak / longDim D) =
      lit .i32 ((peak / D : Nat) : Int) := by
    rw [show num (peak : Int) = lit .i32 (peak : Int) from rfl,
      show longDim D = lit .i64 D from rfl,
      div_lit .i32 .i64 peak D hD0 (by simp only [Ty.join, Ty.hi]; omega)
        (by simp only [Ty.join, Ty.hi]; omega)]
    exact as_lit _ _ _ (by simp only [Ty.hi]; omega)
  have ey : as .i32 (num peak % longDim D) =
      lit .i32 ((peak % D : Nat) : Int) := by
    rw [show num (peak : Int) = lit .i32 (peak : Int) from rfl,
      show longDim D = lit .i64 D from rfl,
      mod_lit .i32 .i64 peak D hD0 (by simp only [Ty.join, Ty.hi]; omega)
        (by simp only [Ty.join, Ty.hi]; omega)]
    exact as_lit _ _ _ (by simp only [Ty.hi]; omega)
  have es : ∀ q, q < D → longDim D - lit .i32 (q : Int) =
      lit .i64 ((D - q : Nat) : Int) := fun q hq =>
    sub_lit .i64 .i32 D q (by simp only [Ty.join, Ty.hi]; omega) (by omega)
  have ee : ∀ q, q < D → lit .i64 ((D - q : Nat) : Int) + longDim D =
      lit .i64 ((D - q + D : Nat) : Int) := fun q hq =>
    add_lit .i64 .i64 (D - q) D (by simp only [Ty.join, Ty.hi]; omega)
  unfold hogbomSubtract hogbomSubtractSpec each
  generalize peak / D = px at *
  generalize peak % D = py at *
  simp only [ex, ey, es _ hx, es _ hy, ee _ hx, ee _ hy]
  refine loopFrom_lit .i32 .i64 .i64 (D - px) D _ _
    (by simp only [Ty.hi]; omega) fun i hi => ?_
  refine loopFrom_lit .i32 .i64 .i64 (D - py) D _ _
    (by simp only [Ty.hi]; omega) fun j hj => ?_
  rw [show longDim M = lit .i64 M from rfl, show longDim D = lit .i64 D from rfl,
    index2_lit _ .i64 .i32 .i32 .i64 M M (D - px + i) (D - py + j)
      (by omega) (by omega) 9223372036854775807 (by omega) (by decide),
    index2_lit _ .i64 .i32 .i32 .i64 D D i j hi hj 9223372036854775807
      (by omega) (by decide),
    as_u32 _ _ _ (rowMajor2_lt (n := M) (m := M) (by omega) (by omega)) hM',
    as_u32 _ _ _ (rowMajor2_lt (n := D) (m := D) hi hj) (by omega)]
  rfl

/-- C115: the scaled point spread functions of multi-scale CLEAN, while they
have together at most 2^32 elements.  Missing: larger ones,
`C115_ms_clean_scales_false`. -/
theorem C115_ms_clean_scales_partial (S M : Nat) (hS : FitsInt S)
    (hM : FitsInt M) (h : S * S * M * M ≤ 4294967296) :
    scaledPsfs S M = some (scaledPsfsSpec S M) := by
  unfold FitsInt at *
  unfold scaledPsfs scaledPsfsSpec each longDim
  refine loop_lit .i32 .i64 S _ _ (by simp only [Ty.hi]; omega) fun s hs => ?_
  refine loop_lit .i32 .i64 S _ _ (by simp only [Ty.hi]; omega) fun p hp => ?_
  refine loop_lit .i32 .i64 M _ _ (by simp only [Ty.hi]; omega) fun x hx => ?_
  refine loop_lit .i32 .i64 M _ _ (by simp only [Ty.hi]; omega) fun y hy => ?_
  have hMM : M * M ≤ S * S * M * M := by
    calc M * M ≤ S * S * (M * M) :=
          Nat.le_mul_of_pos_left _ (Nat.mul_pos (by omega) (by omega))
      _ = S * S * M * M := by ring
  rw [index2_lit _ .i64 .i32 .i32 .i64 M M x y hx hy 9223372036854775807
      (by omega) (by decide),
    index4_lit _ .i64 .i64 .i64 .i32 .i32 .i32 .i32 .i64 S S M M s p x y
      hs hp hx hy 9223372036854775807 (by omega) (by decide),
    as_u32 _ _ _ (rowMajor2_lt (n := M) (m := M) hx hy) (by omega),
    as_u32 _ _ _ (rowMajor4_lt hs hp hx hy) h]
  rfl

/-- C115: sdp_gridder_rms_diff reads every element, for sizes whose dimensions
an `int` can hold. -/
theorem C115_rms_reads_partial (X Y : Nat) (hX : FitsInt X) (hY : FitsInt Y)
    : rmsReads X Y = some (rmsSpec X Y) := by
  unfold rmsReads rmsSpec each
  rw [intDim_fits _ hX, intDim_fits _ hY]
  unfold FitsInt at *
  refine loop_lit .i32 .i32 X _ _ (by simp only [Ty.hi]; omega) fun i hi => ?_
  refine loop_lit .i32 .i32 Y _ _ (by simp only [Ty.hi]; omega) fun j hj => ?_
  have h1 := step_lt X Y i j hi hj
  have h2 : X * Y ≤ 2147483647 * 2147483647 := Nat.mul_le_mul hX hY
  rw [as_lit .i64 .i32 i (by simp only [Ty.hi]; omega),
    as_lit .i64 .i32 j (by simp only [Ty.hi]; omega),
    show longDim Y = lit .i64 Y from rfl, num1,
    mul_lit .i64 .i64 i Y (by simp only [Ty.join, Ty.hi]; omega)
      (by simp only [Ty.join, Ty.hi]; omega)
      (by simp only [Ty.join, Ty.hi]; omega),
    mul_lit .i64 .i32 j 1 (by simp only [Ty.join, Ty.hi]; omega)
      (by simp only [Ty.join, Ty.hi]; omega)
      (by simp only [Ty.join, Ty.hi]; omega)]
  simp only [Ty.join]
  rw [add_lit .i64 .i64 (i * Y) (j * 1)
    (by simp only [Ty.join, Ty.hi]; omega)]
  simp only [touch_lit, seq_some, el, rowMajor2, Nat.mul_one]
  rfl

/-- C115: it divides by the number of elements, if that is at most 2^31-1.
Missing: larger ones, `C115_rms_large_false`. -/
theorem C115_rms_size_partial (X Y : Nat) (hX : FitsInt X) (hY : FitsInt Y)
    (h : FitsInt (X * Y)) : rmsSize X Y = lit .i32 ((X * Y : Nat) : Int) := by
  unfold rmsSize
  rw [intDim_fits _ hX, intDim_fits _ hY]
  unfold FitsInt at *
  exact mul_lit .i32 .i32 X Y (by simp only [Ty.join, Ty.hi]; omega)
    (by simp only [Ty.join, Ty.hi]; omega) (by simp only [Ty.join, Ty.hi]; omega)

/-- Non-vacuity: the largest common cases. -/
example : productCpu 32768 = some (productSpec 32768) :=
  C115_convolution_product_partial _ (by unfold FitsInt; omega)

example : hogbomSubtract 32768 65536 (32768 * 5 + 7) =
    some (hogbomSubtractSpec 32768 65536 5 7) :=
  C115_hogbom_subtract_partial 32768 65536 (32768 * 5 + 7)
    (by unfold FitsInt; omega) (by omega) (by omega) (by omega)

example : scaledPsfs 4 16384 = some (scaledPsfsSpec 4 16384) :=
  C115_ms_clean_scales_partial _ _ (by unfold FitsInt; omega)
    (by unfold FitsInt; omega) (by omega)

example : rmsSize 30000 40000 = lit .i32 1200000000 :=
  C115_rms_size_partial 30000 40000 (by unfold FitsInt; omega)
    (by unfold FitsInt; omega) (by unfold FitsInt; omega)

example : hogbomSubtract 1 2 0 = some [("psf", 3), ("residual", 0)] := by
  decide +kernel

end Sdp.Width
