import Verif.Width.False
import Verif.Width.TileProps
import Verif.Width.EsProps
import Verif.Width.BeamProps

/-
C117 is false of large arrays: witnesses, and cases that meet the hypotheses of
the theorems.
-/
namespace Sdp.Width

theorem seq_none_of_right (a b : Trace) (h : b = none) : (a ;; b) = none := by
  rw [h]; exact seq_none_right a

theorem seq_none_of_left (a b : Trace) (h : a = none) : (a ;; b) = none := by
  rw [h]; rfl

/-- C117 is false of sdp_station_beam_dft on the CPU with 512 element patterns,
2^20 + 1 points and 4 polarisations: the position of the last element pattern
overflows `int`. -/
theorem C117_station_large_false :
    stationCpu 4 512 1048577 0 0 none true true true = none := by
  unfold stationCpu
  refine loop_none .i32 .i32 1048577 1048576 _ (by omega) ?_
  refine seq_none_of_right _ _ (seq_none_of_right _ _ (seq_none_of_right _ _ (seq_none_of_left _ _ ?_)))
  refine loop_none .i32 .i32 512 511 _ (by omega) ?_
  decide +kernel

/-- The same on the GPU, where the launch is accepted. -/
theorem C117_station_gpu_large_false :
    stationGpu 4 512 1048577 0 0 none true true true = .ran none := by
  unfold stationGpu launch1
  rw [if_neg (by decide +kernel)]
  refine congrArg Launched.ran (iters_none _ _ 1048576 (by decide +kernel) ?_)
  refine seq_none_of_right _ _ (seq_none_of_left _ _ ?_)
  have h : loop .i32 (intDim 512) (fun i =>
      if true = true then
        let i_in := lit .i32 ((4 : Nat) : Int) * (beamOf none i * lit .i32 ((1048577 : Nat) : Int) + as .i32 (threadIndex 1048576))
        polTouch 4 true true "data" i_in
      else skip) = none := by
    refine loop_none .i32 .i32 512 511 _ (by omega) ?_
    decide +kernel
  dsimp only at h ⊢
  rw [h]
  decide +kernel

/-- C117 is false of sdp_dipole_pattern with 2^29 points in a beam of four
polarisations. -/
theorem C117_dipole_large_false : dipoleCpu 536870913 4 0 = none := by
  unfold dipoleCpu
  refine loop_none .i32 .i32 536870913 536870912 _ (by omega) ?_
  decide +kernel

/-- C117 is false of sdp_spherical_wave_pattern_harp with as many points. -/
theorem C117_harp_large_false : harpCpu 536870913 1 0 = none := by
  unfold harpCpu
  refine loop_none .i32 .i32 536870913 536870912 _ (by omega) ?_
  refine seq_none_of_right _ _ (seq_none_of_right _ _ (seq_none_of_right _ _ (seq_none_of_right _ _ ?_)))
  decide +kernel

/-- What an `int` holds is below 2^31. -/
theorem all_i32 (a : String) (n : Num) :
    All (fun x => x.1 = "vis" → x.2 < 2147483648) (touch a (as .i32 n)) := by
  intro l hl x hx _
  cases n with
  | none => cases hl
  | some v =>
    obtain rfl := Option.some.inj hl
    simp only [List.mem_cons, List.not_mem_nil, or_false] at hx
    subst hx
    simp only [Ty.wrap, Ty.lo, Ty.hi]
    have : (2147483647 - -2147483648 + 1 : Int) = 4294967296 := by decide
    rw [this]
    omega

theorem all_other (a : String) (n : Num) (ha : a ≠ "vis") :
    All (fun x => x.1 = "vis" → x.2 < 2147483648) (touch a n) := by
  intro l hl x hx e
  cases n with
  | none => cases hl
  | some v =>
    obtain rfl := Option.some.inj hl
    simp only [List.mem_cons, List.not_mem_nil, or_false] at hx
    subst hx
    exact absurd e ha

/-- A sum of two `int`s is below 2^31, or undefined. -/
theorem all_sum32 (a : String) (n : Num) (i : Int) :
    All (fun x => x.1 = "vis" → x.2 < 2147483648) (touch a (as .i32 n + lit .i32 i)) := by
  intro l hl x hx _
  cases n with
  | none => cases hl
  | some v =>
    have e : (as .i32 (some v) + lit .i32 i : Num) =
        fit .i32 (Ty.i32.wrap (Ty.i32.wrap v.val) + Ty.i32.wrap i) := rfl
    rw [e] at hl
    unfold fit at hl
    simp only [Ty.signed, if_true] at hl
    split at hl
    · next hb =>
      obtain rfl := Option.some.inj hl
      simp only [List.mem_cons, List.not_mem_nil, or_false] at hx
      subst hx
      simp only [Ty.hi] at hb
      exact Int.lt_of_le_of_lt hb.2 (by decide)
    · cases hl

theorem all_loop32 {p : Acc → Prop} {n : Num} {body : Num → Trace}
    (h : ∀ i : Int, All p (body (lit .i32 i))) : All p (loop .i32 n body) := by
  refine all_bind fun x => ?_
  split
  · exact all_iters fun i => h _
  · exact all_none

theorem all_skip {p : Acc → Prop} : All p skip := by
  intro l hl x hx
  obtain rfl := Option.some.inj hl
  cases hx

theorem all_whenLt {p : Acc → Prop} {a b : Num} {body : Trace} (h : All p body) : All p (whenLt a b body) := by
  refine all_bind fun x => all_bind fun y => ?_
  split
  · exact h
  · exact all_skip

theorem all_atTiles {p : Acc → Prop} {t b c : Num} {hits : Nat → Nat → Nat → Nat} {body : Trace}
    (h : All p body) : All p (atTiles t b c hits body) :=
  all_bind fun _ => all_bind fun _ => all_bind fun _ => all_iters fun _ => h

/-- C117 is false of sdp_bucket_sort_simple on the CPU with 100 times, 130816
baselines and 256 channels, each visibility in one tile: the last visibilities
are not sorted. -/
theorem C117_bucket_sort_large_false :
    bucketCpu 100 130816 256 (fun _ _ _ => 1) ≠ some (bucketSpec 100 130816 256 (fun _ _ _ => 1)) := by
  intro h
  have hall : All (fun x => x.1 = "vis" → x.2 < 2147483648) (bucketCpu 100 130816 256 (fun _ _ _ => 1)) := by
    unfold bucketCpu
    refine all_loop32 fun t => all_loop32 fun b => all_loop32 fun c => ?_
    exact all_seq (all_other _ _ (by decide)) (all_seq (all_other _ _ (by decide)) (all_seq (all_other _ _ (by decide))
      (all_atTiles (all_loop32 fun i => all_seq (all_sum32 _ _ _) (all_other _ _ (by decide))))))
  have hm : el "vis" [(100, 99), (130816, 0), (256, 0)] ∈ bucketSpec 100 130816 256 (fun _ _ _ => 1) :=
    mem_each (show 99 < 100 by omega) (mem_each (show 0 < 130816 by omega) (mem_each (show 0 < 256 by omega)
      (List.mem_append_right _ (mem_each (show 0 < 1 by omega) (List.mem_cons_self ..)))))
  have := hall _ h _ hm rfl
  revert this
  decide +kernel

/-- The same on the GPU, where the launch is accepted. -/
theorem C117_bucket_sort_gpu_large_false :
    bucketGpu 100 130816 256 (fun _ _ _ => 1) ≠ .refused ∧
    bucketGpu 100 130816 256 (fun _ _ _ => 1) ≠ .ran (some (bucketGpuSpec 100 130816 256 (fun _ _ _ => 1))) := by
  unfold bucketGpu launch3
  rw [if_neg (by decide +kernel)]
  refine ⟨(fun h => by cases h), (fun h => ?_)⟩
  injection h with h
  have hall : All (fun x => x.1 = "vis" → x.2 < 2147483648)
      (some (bucketGpuSpec 100 130816 256 (fun _ _ _ => 1))) := by
    rw [← h]
    refine all_iters fun z => all_iters fun y => all_iters fun x => all_whenLt (all_whenLt (all_whenLt ?_))
    exact all_seq (all_other _ _ (by decide)) (all_seq (all_other _ _ (by decide)) (all_seq (all_other _ _ (by decide))
      (all_atTiles (all_seq (all_i32 _ _) (all_other _ _ (by decide))))))
  have hm : el "vis" [(100, 99), (130816, 0), (256, 0)] ∈ bucketGpuSpec 100 130816 256 (fun _ _ _ => 1) :=
    mem_each (show 99 < 100 by omega) (mem_each (show 0 < 256 by omega) (mem_each (show 0 < 130816 by omega)
      (List.mem_append_right _ (mem_each (show 0 < 1 by omega) (List.mem_cons_self ..)))))
  have := hall _ rfl _ hm rfl
  revert this
  decide +kernel

/-- C117 is false of sdp_prefix_sum for two tiles of 2^30 points each: the sum
overflows. -/
theorem C117_prefix_sum_large_false : prefixSum (fun _ => 1073741824) 2 = none := by decide +kernel

/-- C117 is false of the screens of the ES gridder for an image of 32768 by 32768
on grids of 65536 by 65536: the position of the centre overflows `int`. -/
theorem C117_es_screen_large_false : screenSum 32768 65536 1 0 = .ran none := by
  unfold screenSum launch3
  rw [if_neg (by decide +kernel)]
  refine congrArg Launched.ran ?_
  refine iters_none _ _ 0 (by decide +kernel) ?_
  refine iters_none _ _ 0 (by decide +kernel) ?_
  refine iters_none _ _ 0 (by decide +kernel) ?_
  decide +kernel

/-- The same when de-gridding. -/
theorem C117_es_reverse_large_false : screenReverse 32768 65536 1 0 = .ran none := by
  unfold screenReverse launch3
  rw [if_neg (by decide +kernel)]
  refine congrArg Launched.ran ?_
  refine iters_none _ _ 0 (by decide +kernel) ?_
  refine iters_none _ _ 0 (by decide +kernel) ?_
  refine iters_none _ _ 0 (by decide +kernel) ?_
  decide +kernel

/-- C117 is false of the correction of an image of 65536 by 65536. -/
theorem C117_es_correct_large_false : convCorr 65536 = .ran none := by
  unfold convCorr launch3
  rw [if_neg (by decide +kernel)]
  refine congrArg Launched.ran ?_
  refine iters_none _ _ 0 (by decide +kernel) ?_
  refine iters_none _ _ 0 (by decide +kernel) ?_
  refine iters_none _ _ 0 (by decide +kernel) ?_
  decide +kernel

/-- C117 is false of the gridding kernels for a grid of 46342 by 46342, even for
one visibility under one cell: `size_t(grid_size * grid_size)` multiplies as
`int`. -/
theorem C117_es_grid_large_false :
    esGrid 1 1 46342 0 (fun _ _ => some ⟨0, 0, 1, 1, 0, 1⟩) = .ran none := by
  unfold esGrid launch3
  rw [if_neg (by decide +kernel)]
  refine congrArg Launched.ran ?_
  refine iters_none _ _ 0 (by decide +kernel) ?_
  refine iters_none _ _ 0 (by decide +kernel) ?_
  refine iters_none _ _ 0 (by decide +kernel) ?_
  decide +kernel

/-- C117 is false of the gridding kernels for 13081600 rows of 256 channels: the
index of a visibility overflows. -/
theorem C117_es_vis_large_false :
    esGrid 13081600 256 1024 0 (fun _ _ => none) = .ran none := by
  unfold esGrid launch3
  rw [if_neg (by decide +kernel)]
  refine congrArg Launched.ran ?_
  refine iters_none _ _ 0 (by decide +kernel) ?_
  refine iters_none _ _ 13081599 (by decide +kernel) ?_
  refine iters_none _ _ 255 (by decide +kernel) ?_
  decide +kernel

/-- The hypotheses of the theorems hold for arrays of usual sizes. -/
example : stationCpu 4 256 100000 0 0 none true true true =
    some (stationSpec 4 256 100000 0 0 none true true true 256) :=
  C117_station_partial 4 256 100000 0 0 256 (Or.inr rfl) none true true true (by unfold FitsInt; omega)
    (by unfold FitsInt; omega) (by unfold FitsInt; omega)
    fun _ => ⟨fun i hi => hi, by unfold FitsInt; omega⟩

example : bucketCpu 10 130816 256 (fun _ _ _ => 1) = some (bucketSpec 10 130816 256 (fun _ _ _ => 1)) :=
  C117_bucket_sort_partial 10 130816 256 _ (by unfold FitsInt; omega) (by unfold FitsInt; omega)
    (by unfold FitsInt; omega) (by unfold FitsInt; omega) (by unfold FitsInt; omega)

example : bucketGpu 10 130816 256 (fun _ _ _ => 1) = .ran (some (bucketGpuSpec 10 130816 256 (fun _ _ _ => 1))) := by
  refine (C117_bucket_sort_gpu_partial 10 130816 256 _ (by unfold FitsInt; omega) (by unfold FitsInt; omega)
    (by unfold FitsInt; omega) (by unfold FitsInt; omega) (by unfold FitsInt; omega)).resolve_left ?_
  unfold bucketGpu
  exact launch3_runs _ _ _ _ _ _ _ (by omega) (by omega) (by omega) (by omega) (by omega) (by omega) (by omega)
    (by omega) (by omega) (by omega) (by omega)

/-- A de-gridding with custom kernels whose visibilities have more than 2^31
elements. -/
example : customCpu 8 1 1024 1024 1 100 130816 256 1 (fun _ _ _ => some (512, 500, 16, 24, 0)) =
    some (customSpec 8 1 1024 1024 1 100 130816 256 1 (fun _ _ _ => some (512, 500, 16, 24, 0))) :=
  C117_custom_partial 8 1 1024 1024 1 100 130816 256 1 64 _
    (fun t b c q h => by obtain rfl := Option.some.inj h; unfold PointOk; decide)
    (by unfold FitsInt; omega) (by unfold FitsInt; omega) (by unfold FitsInt; omega) (by unfold FitsInt; omega)
    (by unfold FitsInt; omega) (by unfold FitsInt; omega) (by unfold FitsInt; omega) (by unfold FitsInt; omega)
    (by omega) (by unfold FitsLong; omega) (by unfold FitsLong; omega) (by unfold FitsLong; omega)

example : customGpu 8 1 1024 1024 1 100 130816 256 1 (fun _ _ _ => some (512, 500, 16, 24, 0)) =
    .ran (some (customGpuSpec 8 1 1024 1024 1 100 130816 256 1 (fun _ _ _ => some (512, 500, 16, 24, 0)))) := by
  refine (C117_custom_gpu_partial 8 1 1024 1024 1 100 130816 256 1 64 _
    (fun t b c q h => by obtain rfl := Option.some.inj h; unfold PointOk; decide)
    (by unfold FitsInt; omega) (by unfold FitsInt; omega) (by unfold FitsInt; omega) (by unfold FitsInt; omega)
    (by unfold FitsInt; omega) (by unfold FitsInt; omega) (by unfold FitsInt; omega) (by unfold FitsInt; omega)
    (by omega) (by unfold FitsLong; omega) (by unfold FitsLong; omega) (by unfold FitsLong; omega)).resolve_left ?_
  unfold customGpu
  exact launch3_runs _ _ _ _ _ _ _ (by omega) (by omega) (by omega) (by omega) (by omega) (by omega) (by omega)
    (by omega) (by omega) (by omega) (by omega)

example : screenSum 8192 12288 1 7 = .ran (some (screenSumSpec 8192 12288 1)) := by
  refine (C117_es_screen_partial 8192 12288 1 7 (by omega) (by omega) (by omega) (by unfold FitsInt; omega) (by omega)
    (by omega)).resolve_left ?_
  unfold screenSum
  exact launch3_runs _ _ _ _ _ _ _ (by decide) (by decide) (by omega) (by omega) (by omega) (by omega) (by omega)
    (by decide) (by omega) (by omega) (by omega)

example : esGrid 100000 1000 12288 0 (fun _ _ => some ⟨-6144, 100, 8, 8, 0, 1⟩) =
    .ran (some (esGridSpec 100000 1000 12288 1 (fun _ _ => some ⟨-6144, 100, 8, 8, 0, 1⟩))) := by
  refine (C117_es_grid_partial 100000 1000 12288 1 0 _
    (fun r c b _ _ h => by obtain rfl := Option.some.inj h; unfold BoxOk; decide) (by unfold FitsInt; omega)
    (by unfold FitsInt; omega) (by unfold FitsInt; omega) (by unfold FitsLong; omega) (by omega) (by omega)
    (by unfold FitsInt; omega)).resolve_left ?_
  unfold esGrid
  exact launch3_runs _ _ _ _ _ _ _ (by omega) (by omega) (by omega) (by omega) (by omega) (by omega) (by omega)
    (by omega) (by omega) (by omega) (by omega)

end Sdp.Width
