import Verif.Width.ImageProps

/-
C115 is false of large arrays: witnesses with sizes that occur in radio
astronomy (512 stations have 130816 baselines).
-/
namespace Sdp.Width

/-- C115 is false of sdp_dft_point_v00 on the CPU with 100 times, 130816
baselines, 64 channels and 4 polarisations: an index overflows `int`. -/
theorem C115_dft_v00_large_false : dftV00Cpu 100 130816 64 4 1 = none := by
  unfold dftV00Cpu
  refine loop_none .i32 .i32 100 99 _ (by omega) ?_
  refine loop_none .i32 .i32 64 63 _ (by omega) ?_
  refine loop_none .i32 .i32 130816 130815 _ (by omega) ?_
  have h : as .u32 (INDEX_4D (intDim 100) (intDim 130816) (intDim 64) (num 3)
      (lit .i32 ((99 : Nat) : Int)) (lit .i32 ((130815 : Nat) : Int))
      (lit .i32 ((63 : Nat) : Int)) (num 0)) = none := by decide +kernel
  simp only [h]
  rfl

/-- The same on the GPU, where the launch is accepted. -/
theorem C115_dft_v00_gpu_large_false :
    dftV00Gpu 100 130816 64 4 1 = .ran none := by
  unfold dftV00Gpu launch3
  rw [if_neg (by decide +kernel)]
  refine congrArg Launched.ran ?_
  refine iters_none _ _ 99 (by decide +kernel) ?_
  refine iters_none _ _ 63 (by decide +kernel) ?_
  refine iters_none _ _ 130815 (by decide +kernel) ?_
  have hw : dftWrite (intDim 100) (intDim 130816) (intDim 64) (intDim 4)
      (as .i32 (threadIndex 99)) (as .i32 (threadIndex 130815))
      (as .i32 (threadIndex 63)) = none := by decide +kernel
  simp only [hw, seq_none_right]
  decide +kernel

/-- C115 is false of the flagger with as many visibilities. -/
theorem C115_flagger_large_false : flaggerReads 100 130816 64 4 8 8 = none := by
  unfold flaggerReads
  refine loop_none .i32 .i32 130816 130815 _ (by omega) ?_
  refine loop_none .i32 .i32 4 0 _ (by omega) ?_
  refine loop_none .i32 .i32 100 99 _ (by omega) ?_
  decide +kernel

/-- C115 is false of sdp_fft_convolution on the CPU for a padded size of 65536
(an image of 32768 by 32768 and any kernel larger than one pixel): the counter
overflows before the loop ends. -/
theorem C115_convolution_large_false : productCpu 65536 = none := by
  unfold productCpu
  dsimp only
  rw [long_square 65536 (by unfold FitsLong; omega)]
  rw [loop_overflow .i32 .i64 (65536 * 65536) _ (by decide)]
  rfl

/-- C115 is false of Hogbom CLEAN for an image of 50000 by 50000. -/
theorem C115_hogbom_large_false : hogbomScan 50000 = none := by
  unfold hogbomScan
  rw [long_square 50000 (by unfold FitsLong; omega)]
  exact loop_overflow .i32 .i64 (50000 * 50000) _ (by decide)

/-- All accesses of a trace satisfy a predicate. -/
def All (p : Acc → Prop) (t : Trace) : Prop := ∀ l, t = some l → ∀ a ∈ l, p a

theorem all_seq {p : Acc → Prop} {a b : Trace} (ha : All p a) (hb : All p b) :
    All p (a ;; b) := by
  intro l hl x hx
  cases a with
  | none => cases hl
  | some a =>
    cases b with
    | none => cases hl
    | some b =>
      obtain rfl := Option.some.inj hl
      rcases List.mem_append.1 hx with h | h
      · exact ha a rfl x h
      · exact hb b rfl x h

theorem all_iters {p : Acc → Prop} {body : Nat → Trace} {n : Nat}
    (h : ∀ i, All p (body i)) : All p (iters body n) := by
  induction n with
  | zero =>
    intro l hl x hx
    obtain rfl := Option.some.inj hl
    cases hx
  | succ n ih => exact all_seq ih (h n)

theorem all_bind {α : Type} {p : Acc → Prop} {a : Option α} {f : α → Trace}
    (h : ∀ x, All p (f x)) : All p (a.bind f) := by
  cases a with
  | none => intro l hl; cases hl
  | some x => exact h x

theorem all_none {p : Acc → Prop} : All p none := by intro l hl; cases hl

theorem all_loop {p : Acc → Prop} {t : Ty} {n : Num} {body : Num → Trace}
    (h : ∀ i, All p (body i)) : All p (loop t n body) := by
  refine all_bind fun x => ?_
  split
  · exact all_iters fun i => h _
  · exact all_none

theorem all_loopFrom {p : Acc → Prop} {t : Ty} {a n : Num}
    {body : Num → Num → Trace} (h : ∀ x i, All p (body x i)) :
    All p (loopFrom t a n body) := by
  refine all_bind fun x => all_bind fun y => ?_
  split
  · exact all_iters fun i => h _ _
  · exact all_none

/-- What an `unsigned int` holds is below 2^32. -/
theorem all_u32 (a : String) (n : Num) :
    All (fun x => x.2 < 4294967296) (touch a (as .u32 n)) := by
  intro l hl x hx
  cases n with
  | none => cases hl
  | some v =>
    obtain rfl := Option.some.inj hl
    simp only [List.mem_cons, List.not_mem_nil, or_false] at hx
    subst hx
    simp only [Ty.wrap, Ty.lo, Ty.hi]
    omega

theorem mem_each {n : Nat} {f : Nat → List Acc} {i : Nat} {a : Acc}
    (hi : i < n) (h : a ∈ f i) : a ∈ each n f :=
  List.mem_flatMap.2 ⟨i, List.mem_range.2 hi, h⟩

/-- C115 is false of Hogbom CLEAN for an image of 40000 by 40000 (whose pixels
an `int` can count) with its point spread function of 80000 by 80000: what is
subtracted from some pixels belongs to other pixels. -/
theorem C115_hogbom_psf_false :
    hogbomSubtract 40000 80000 0 ≠ some (hogbomSubtractSpec 40000 80000 0 0) := by
  intro h
  have hall : All (fun x => x.2 < 4294967296) (hogbomSubtract 40000 80000 0) := by
    unfold hogbomSubtract
    exact all_loopFrom fun _ _ => all_loopFrom fun _ _ =>
      all_seq (all_u32 _ _) (all_u32 _ _)
  have hm : el "psf" [(80000, 40000 - 0 + 20000), (80000, 40000 - 0 + 5)] ∈
      hogbomSubtractSpec 40000 80000 0 0 :=
    mem_each (show 20000 < 40000 by omega)
      (mem_each (show 5 < 40000 by omega) (List.mem_cons_self ..))
  have := hall _ h _ hm
  revert this
  decide +kernel

/-- The element that is used instead: (60000, 40005) becomes another one. -/
theorem C115_hogbom_psf_other_false :
    as .u32 (INDEX_2D (longDim 80000) (longDim 80000) (num 60000) (num 40005)) =
      lit .u32 ((rowMajor [(80000, 6313), (80000, 32709)] : Nat) : Int) := by
  decide +kernel

/-- C115 is false of multi-scale CLEAN with five scales and a point spread
function of 16384 by 16384. -/
theorem C115_ms_clean_scales_false :
    scaledPsfs 5 16384 ≠ some (scaledPsfsSpec 5 16384) := by
  intro h
  have hall : All (fun x => x.2 < 4294967296) (scaledPsfs 5 16384) := by
    unfold scaledPsfs
    exact all_loop fun _ => all_loop fun _ => all_loop fun _ => all_loop fun _ =>
      all_seq (all_u32 _ _) (all_u32 _ _)
  have hm : el "scaled_psf" [(5, 3), (5, 1), (16384, 0), (16384, 0)] ∈
      scaledPsfsSpec 5 16384 :=
    mem_each (show 3 < 5 by omega) (mem_each (show 1 < 5 by omega)
      (mem_each (show 0 < 16384 by omega) (mem_each (show 0 < 16384 by omega)
        (List.mem_cons_of_mem _ (List.mem_cons_self ..)))))
  have := hall _ h _ hm
  revert this
  decide +kernel

/-- The pair of scales (3, 1) is stored on top of the pair (0, 0). -/
theorem C115_ms_clean_overwrites_false :
    as .u32 (INDEX_4D (longDim 5) (longDim 5) (longDim 16384) (longDim 16384)
      (num 3) (num 1) (num 0) (num 0)) =
    as .u32 (INDEX_4D (longDim 5) (longDim 5) (longDim 16384) (longDim 16384)
      (num 0) (num 0) (num 0) (num 0)) := by decide +kernel

/-- C115 is false of sdp_gridder_rms_diff for arrays of 50000 by 50000: the
number of elements overflows. -/
theorem C115_rms_large_false : rmsSize 50000 50000 = none := by decide +kernel

/-- A thread's index is below 2^32 also after it has been stored in an
`int64_t`. -/
theorem all_thread (a : String) (g : Nat) :
    All (fun x => x.2 < 4294967296) (touch a (as .i64 (threadIndex g))) := by
  intro l hl x hx
  have hb : (0 : Int) ≤ Ty.u32.wrap (g : Int) ∧
      Ty.u32.wrap (g : Int) < 4294967296 := by
    simp only [Ty.wrap, Ty.lo, Ty.hi]
    omega
  simp only [threadIndex, as, lit, touch, Option.bind_some] at hl
  obtain rfl := Option.some.inj hl
  simp only [List.mem_cons, List.not_mem_nil, or_false] at hx
  subst hx
  have := wrap_of_fits .i64 (Ty.u32.wrap (g : Int)).toNat
    (by simp only [Ty.hi]; omega)
  rw [Int.toNat_of_nonneg hb.1] at this
  rw [this]
  exact hb.2

/-- C115 is false of sdp_phase_rotate_uvw on the GPU with more than 2^32
coordinates: the launch is accepted, but the index of a thread is calculated in
`unsigned int`, and the last coordinates are never rotated. -/
theorem C115_rotate_uvw_gpu_large_false :
    rotateUvwGpu 1 4294967552 ≠ .refused ∧
    rotateUvwGpu 1 4294967552 ≠
      .ran (some (rotateUvwGpuSpec (1 * 4294967552))) := by
  unfold rotateUvwGpu launch1
  rw [if_neg (by decide +kernel)]
  refine ⟨(fun h => by cases h), (fun h => ?_)⟩
  injection h with h
  have hall : All (fun x => x.2 < 4294967296)
      (iters (fun g => whenLt (as .i64 (threadIndex g))
        (longDim (1 * 4294967552))
        (touch "in" (as .i64 (threadIndex g)) ;;
          touch "out" (as .i64 (threadIndex g))))
        (gridDim (1 * 4294967552) 256 * 256)) := by
    refine all_iters fun g => all_bind fun _ => all_bind fun _ => ?_
    split
    · exact all_seq (all_thread _ _) (all_thread _ _)
    · intro l hl x hx
      obtain rfl := Option.some.inj hl
      cases hx
  have hm : el "out" [(1 * 4294967552, 4294967300)] ∈
      rotateUvwGpuSpec (1 * 4294967552) :=
    mem_each (show 4294967300 < 1 * 4294967552 by omega)
      (List.mem_cons_of_mem _ (List.mem_cons_self ..))
  have := hall _ h _ hm
  revert this
  decide +kernel

/-- C115 is false of sdp_phase_rotate_vis on the GPU with more than 2^32
baselines, for the same reason. -/
theorem C115_rotate_vis_gpu_large_false :
    rotateVisGpu 1 4294967552 1 1 ≠ .refused ∧
    rotateVisGpu 1 4294967552 1 1 ≠
      .ran (some (rotateVisGpuSpec 1 4294967552 1 1)) := by
  unfold rotateVisGpu launch3
  rw [if_neg (by decide +kernel)]
  refine ⟨(fun h => by cases h), (fun h => ?_)⟩
  injection h with h
  have hm : el "uvw" [(1, 0), (4294967552, 4294967300)] ∈
      rotateVisGpuSpec 1 4294967552 1 1 :=
    mem_each (show 0 < 1 by omega) (mem_each (show 0 < 1 by omega)
      (mem_each (show 4294967300 < 4294967552 by omega)
        (List.mem_append_left _ (List.mem_cons_self ..))))
  have hall : All (fun x => x.1 = "uvw" → x.2 < 4294967296)
      (some (rotateVisGpuSpec 1 4294967552 1 1)) := by
    rw [← h]
    refine all_iters fun z => all_iters fun y => all_iters fun x => ?_
    have hz : ∀ t : Num, All (fun x => x.1 = "uvw" → x.2 < 4294967296)
        (loop .i64 (longDim 1) fun p =>
          let i_vis := INDEX_4D (longDim 1) (longDim 4294967552) (longDim 1)
            (longDim 1) t (as .i64 (threadIndex x)) (as .i64 (threadIndex y)) p
          touch "in" i_vis ;; touch "out" i_vis) := by
      intro t
      have hne : ∀ (a : String) (n : Num), a ≠ "uvw" →
          All (fun x => x.1 = "uvw" → x.2 < 4294967296) (touch a n) := by
        intro a n ha l hl q hq
        cases n with
        | none => cases hl
        | some v =>
          obtain rfl := Option.some.inj hl
          simp only [List.mem_cons, List.not_mem_nil, or_false] at hq
          subst hq
          exact fun e => absurd e ha
      exact all_loop fun p => all_seq (hne _ _ (by decide)) (hne _ _ (by decide))
    have hs : All (fun x => x.1 = "uvw" → x.2 < 4294967296) skip := by
      intro l hl q hq
      obtain rfl := Option.some.inj hl
      cases hq
    refine all_bind fun v1 => all_bind fun v2 => ?_
    split
    · refine all_bind fun v3 => all_bind fun v4 => ?_
      split
      · cases hzt : as .i64 (threadIndex z) with
        | none => exact all_none
        | some w =>
          show All _ (if (w.ty.join .i64).wrap w.val <
            (w.ty.join .i64).wrap ((1 : Nat) : Int) then _ else skip)
          split
          · next hlt =>
            refine all_seq ?_ (hz _)
            have hw : w = ⟨.i64, 0⟩ := by
              have hb : (0 : Int) ≤ Ty.u32.wrap (z : Int) ∧
                  Ty.u32.wrap (z : Int) < 4294967296 := by
                simp only [Ty.wrap, Ty.lo, Ty.hi]
                omega
              have e1 : w = ⟨.i64, Ty.u32.wrap (z : Int)⟩ := by
                have e := wrap_of_fits .i64 (Ty.u32.wrap (z : Int)).toNat
                  (by simp only [Ty.hi]; omega)
                rw [Int.toNat_of_nonneg hb.1] at e
                have e2 : as .i64 (threadIndex z) =
                    some ⟨.i64, Ty.u32.wrap (z : Int)⟩ := by
                  simp only [threadIndex, as, lit, Option.bind_some, e]
                rw [e2] at hzt
                exact (Option.some.inj hzt).symm
              subst e1
              have e := wrap_of_fits .i64 (Ty.u32.wrap (z : Int)).toNat
                (by simp only [Ty.hi]; omega)
              rw [Int.toNat_of_nonneg hb.1] at e
              simp only [Ty.join] at hlt
              rw [e] at hlt
              have h1 : Ty.i64.wrap ((1 : Nat) : Int) = 1 := by decide
              rw [h1] at hlt
              have : Ty.u32.wrap (z : Int) = 0 := by omega
              rw [this]
            subst hw
            have hi : longDim 4294967552 * (some ⟨.i64, 0⟩ : Num) +
                as .i64 (threadIndex x) = as .i64 (threadIndex x) := by
              have hb : (0 : Int) ≤ Ty.u32.wrap (x : Int) ∧
                  Ty.u32.wrap (x : Int) < 4294967296 := by
                simp only [Ty.wrap, Ty.lo, Ty.hi]
                omega
              have e := wrap_of_fits .i64 (Ty.u32.wrap (x : Int)).toNat
                (by simp only [Ty.hi]; omega)
              rw [Int.toNat_of_nonneg hb.1] at e
              have e2 : as .i64 (threadIndex x) =
                  lit .i64 (((Ty.u32.wrap (x : Int)).toNat : Nat) : Int) := by
                rw [Int.toNat_of_nonneg hb.1]
                simp only [threadIndex, as, lit, Option.bind_some, e]
              have e3 : longDim 4294967552 * (some ⟨.i64, 0⟩ : Num) =
                  lit .i64 ((0 : Nat) : Int) := by decide +kernel
              rw [e2, e3, add_lit .i64 .i64 0 _
                (by simp only [Ty.join, Ty.hi]; omega), Nat.zero_add]
              rfl
            rw [hi]
            exact fun l hl q hq _ => all_thread "uvw" x l hl q hq
          · exact hs
      · exact hs
    · exact hs
  have := hall _ rfl _ hm rfl
  revert this
  decide +kernel

/-- C115 is false of the gridding of weights on the GPU for a grid of 32768 by
32768 and four polarisations: the position of cell (20000, 5) overflows
`int`. -/
theorem C115_weights_gpu_large_false :
    weightsGpu 1 1 1 4 32768 (fun _ _ _ => some (20000, 5)) = .ran none := by
  unfold weightsGpu launch3
  rw [if_neg (by decide +kernel)]
  refine congrArg Launched.ran ?_
  refine iters_none _ _ 0 (by decide +kernel) ?_
  refine iters_none _ _ 0 (by decide +kernel) ?_
  refine iters_none _ _ 0 (by decide +kernel) ?_
  decide +kernel

end Sdp.Width
