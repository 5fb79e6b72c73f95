import Verif.Width.Base

/-
Which elements the visibility functions touch, calculated in the integer types
of the code (property C115).  The values that are read and written are modelled
elsewhere (Dft, PhaseRotate, Weighting, Flagger); here only loop limits, thread
indices and array indices.  Array names: "uvw", "dir", "flux", "vis", ... are
the parameters of the functions.  Sizes are the shapes of the arrays, which are
`int64_t` (parameters of type `Nat`: shapes are not negative).
-/
namespace Sdp.Width

/-- `const int n = (int) sdp_mem_shape_dim(...)`,
src/ska-sdp-func/visibility/sdp_dft.cpp:160-164. -/
def intDim (n : Nat) : Num := as .i32 (lit .i64 n)

/-- A shape kept as `int64_t`. -/
def longDim (n : Nat) : Num := lit .i64 n

/-- The loop over components of sdp_dft_point_v00 and v01,
src/ska-sdp-func/visibility/sdp_dft.cpp:59-83 and 297-321. -/
def dftComponents (K C P : Num) (c : Num) : Trace :=
  loop .i32 K fun k =>
    let i_dir := as .u32 (num 3 * k)
    touch "dir" i_dir ;; touch "dir" (i_dir + num 1) ;;
    touch "dir" (i_dir + num 2) ;;
    let i_pol_start := as .u32 (INDEX_3D K C P k c (num 0))
    loop .i32 P fun p => touch "flux" (i_pol_start + p)

/-- Writing the visibilities of one channel,
src/ska-sdp-func/visibility/sdp_dft.cpp:86-93 and 324-331. -/
def dftWrite (T B C P : Num) (t b c : Num) : Trace :=
  loop .i32 P fun p => touch "vis" (as .u32 (INDEX_4D T B C P t b c p))

/-- sdp_dft_point_v00 on the CPU: sizes
src/ska-sdp-func/visibility/sdp_dft.cpp:160-164, loops 38-97. -/
def dftV00Cpu (T B C P K : Nat) : Trace :=
  let num_times := intDim T
  let num_baselines := intDim B
  let num_channels := intDim C
  let num_pols := intDim P
  let num_components := intDim K
  loop .i32 num_times fun t =>
  loop .i32 num_channels fun c =>
  loop .i32 num_baselines fun b =>
    let i_uvw := as .u32
      (INDEX_4D num_times num_baselines num_channels (num 3) t b c (num 0))
    touch "uvw" i_uvw ;; touch "uvw" (i_uvw + num 1) ;;
    touch "uvw" (i_uvw + num 2) ;;
    dftComponents num_components num_channels num_pols c ;;
    dftWrite num_times num_baselines num_channels num_pols t b c

/-- sdp_dft_point_v01 on the CPU: sizes
src/ska-sdp-func/visibility/sdp_dft.cpp:412-416, loops 273-335. -/
def dftV01Cpu (T B C P K : Nat) : Trace :=
  let num_times := intDim T
  let num_baselines := intDim B
  let num_channels := intDim C
  let num_pols := intDim P
  let num_components := intDim K
  loop .i32 num_times fun t =>
  loop .i32 num_baselines fun b =>
    let i_uvw := as .u32
      (INDEX_3D num_times num_baselines (num 3) t b (num 0))
    touch "uvw" i_uvw ;; touch "uvw" (i_uvw + num 1) ;;
    touch "uvw" (i_uvw + num 2) ;;
    loop .i32 num_channels fun c =>
      dftComponents num_components num_channels num_pols c ;;
      dftWrite num_times num_baselines num_channels num_pols t b c

/-- The component loop of the GPU kernels,
src/ska-sdp-func/visibility/sdp_dft.cu:58-88.  The directions are `double3`
elements; `num_pols` is 1 or 4 there, other values read no flux: the model
covers those two (for them both branches read `num_pols` elements). -/
def dftComponentsGpu (K C P : Num) (c : Num) : Trace :=
  loop .i32 K fun k =>
    touch "dir" k ;;
    let i_pol_start := as .u32 (INDEX_3D K C P k c (num 0))
    loop .i32 P fun p => touch "flux" (i_pol_start + p)

/-- dft_point_v00 on the GPU: src/ska-sdp-func/visibility/sdp_dft.cu:20-99, launch
src/ska-sdp-func/visibility/sdp_dft.cpp:209-247. -/
def dftV00Gpu (T B C P K : Nat) : Launched :=
  let num_times := intDim T
  let num_baselines := intDim B
  let num_channels := intDim C
  let num_pols := intDim P
  let num_components := intDim K
  launch3 B C T 128 2 2 fun x y z =>
    let b := as .i32 x
    let c := as .i32 y
    let t := as .i32 z
    whenLt b num_baselines (whenLt c num_channels (whenLt t num_times (
      touch "uvw" (as .u32
        (INDEX_3D num_times num_baselines num_channels t b c)) ;;
      dftComponentsGpu num_components num_channels num_pols c ;;
      dftWrite num_times num_baselines num_channels num_pols t b c)))

/-- sdp_phase_rotate_uvw on the CPU: the number of coordinates
src/ska-sdp-func/visibility/sdp_phase_rotate.cpp:137-137, the loop 27-36. -/
def rotateUvwCpu (T B : Nat) : Trace :=
  loop .i64 (longDim T * longDim B) fun i =>
    let i3 := i * num 3
    touch "in" (i3 + num 0) ;; touch "in" (i3 + num 1) ;;
    touch "in" (i3 + num 2) ;;
    touch "out" (i3 + num 0) ;; touch "out" (i3 + num 1) ;;
    touch "out" (i3 + num 2)

/-- sdp_phase_rotate_uvw on the GPU (elements are `double3`):
src/ska-sdp-func/visibility/sdp_phase_rotate.cu:28-35, launch
src/ska-sdp-func/visibility/sdp_phase_rotate.cpp:164-199. -/
def rotateUvwGpu (T B : Nat) : Launched :=
  launch1 (T * B) 256 fun x =>
    let i := as .i64 x
    whenLt i (longDim (T * B)) (touch "in" i ;; touch "out" i)

/-- sdp_phase_rotate_vis on the CPU:
src/ska-sdp-func/visibility/sdp_phase_rotate.cpp:56-85. -/
def rotateVisCpu (T B C P : Nat) : Trace :=
  let num_times := longDim T
  let num_baselines := longDim B
  let num_channels := longDim C
  let num_pols := longDim P
  loop .i64 num_times fun t =>
  loop .i64 num_baselines fun b =>
    let i_uvw := INDEX_3D num_times num_baselines (num 3) t b (num 0)
    touch "uvw" (i_uvw + num 0) ;; touch "uvw" (i_uvw + num 1) ;;
    touch "uvw" (i_uvw + num 2) ;;
    loop .i64 num_channels fun c =>
    loop .i64 num_pols fun p =>
      let i_vis :=
        INDEX_4D num_times num_baselines num_channels num_pols t b c p
      touch "in" i_vis ;; touch "out" i_vis

/-- sdp_phase_rotate_vis on the GPU, for at most four polarisations (line 61):
src/ska-sdp-func/visibility/sdp_phase_rotate.cu:58-85, launch
src/ska-sdp-func/visibility/sdp_phase_rotate.cpp:325-364. -/
def rotateVisGpu (T B C P : Nat) : Launched :=
  let num_times := longDim T
  let num_baselines := longDim B
  let num_channels := longDim C
  let num_pols := longDim P
  launch3 B C T 128 2 2 fun x y z =>
    let b := as .i64 x
    let c := as .i64 y
    let t := as .i64 z
    whenLt b num_baselines (whenLt c num_channels (whenLt t num_times (
      touch "uvw" (num_baselines * t + b) ;;
      loop .i64 num_pols fun p =>
        let i_vis :=
          INDEX_4D num_times num_baselines num_channels num_pols t b c p
        touch "in" i_vis ;; touch "out" i_vis)))

/-- Adding the weights to the grid on the CPU:
src/ska-sdp-func/visibility/sdp_weighting.cpp:33-73.  The cell of a visibility
is data: `cell t b c`, `none` if it is not on the grid. -/
def weightsCpu (T B C P G : Nat) (cell : Nat → Nat → Nat → Option (Nat × Nat)) :
    Trace :=
  let num_times := longDim T
  let num_baselines := longDim B
  let num_channels := longDim C
  let num_pols := longDim P
  let grid_size := longDim G
  loop .i64 num_times fun t =>
  loop .i64 num_baselines fun b =>
    let i_uv := INDEX_3D num_times num_baselines (num 3) t b (num 0)
    loop .i64 num_channels fun c =>
      touch "freq" c ;; touch "uvw" (i_uv + num 0) ;;
      touch "uvw" (i_uv + num 1) ;;
      t.bind fun t' => b.bind fun b' => c.bind fun c' =>
      match cell t'.val.toNat b'.val.toNat c'.val.toNat with
      | none => skip
      | some (u, v) =>
        let i_pol_s := INDEX_3D grid_size grid_size num_pols
          (lit .i64 u) (lit .i64 v) (num 0)
        let i_pol_start :=
          INDEX_4D num_times num_baselines num_channels num_pols t b c (num 0)
        loop .i64 num_pols fun p =>
          touch "grid" (i_pol_s + p) ;; touch "weight" (i_pol_start + p)

/-- Adding the weights to the grid on the GPU, where everything is `int`:
src/ska-sdp-func/visibility/sdp_weighting.cu:33-83; the sizes are handed over as
the addresses of `int64_t` variables
(src/ska-sdp-func/visibility/sdp_weighting.cpp:438-442), of which the kernel
reads the low four bytes. -/
def weightsGpu (T B C P G : Nat) (cell : Nat → Nat → Nat → Option (Nat × Nat)) :
    Launched :=
  let num_times := intDim T
  let num_baselines := intDim B
  let num_channels := intDim C
  let num_pols := intDim P
  let grid_size := intDim G
  launch3 B C T 128 2 2 fun x y z =>
    let b := as .i32 x
    let c := as .i32 y
    let t := as .i32 z
    whenLt b num_baselines (whenLt c num_channels (whenLt t num_times (
      let i_uv := INDEX_3D num_times num_baselines (num 3) t b (num 0)
      touch "freq" c ;; touch "uvw" (i_uv + num 0) ;;
      touch "uvw" (i_uv + num 1) ;;
      t.bind fun t' => b.bind fun b' => c.bind fun c' =>
      match cell t'.val.toNat b'.val.toNat c'.val.toNat with
      | none => skip
      | some (u, v) =>
        let i_pol_s := INDEX_3D grid_size grid_size num_pols
          (lit .i32 u) (lit .i32 v) (num 0)
        let i_pol_start :=
          INDEX_4D num_times num_baselines num_channels num_pols t b c (num 0)
        loop .i32 num_pols fun p =>
          touch "grid" (i_pol_s + p) ;; touch "weight" (i_pol_start + p))))

/-- sdp_flagger_dynamic_threshold: the samples and the channels that the first
method reads for each baseline, polarisation and time, and the pairs of times
of the second (src/ska-sdp-func/visibility/sdp_flagger.cpp:157-178, 215-218 and
252-262; sizes 369-372).  The flags that are set have the positions of the
visibilities that are read, or those of other channels of the same baseline and
time (model: Flagger).  `S` is the number of samples and `step` the sampling
step. -/
def flaggerReads (T B C P S step : Nat) : Trace :=
  let num_timesamples := intDim T
  let num_baselines := intDim B
  let num_channels := intDim C
  let num_pols := intDim P
  loop .i32 num_baselines fun b =>
  loop .i32 num_pols fun p =>
  loop .i32 num_timesamples fun t =>
    let time_block := num_baselines * num_channels * num_pols
    let baseline_block := num_channels * num_pols
    let baseline_pos := t * time_block + b * baseline_block
    (loop .i32 (num S) fun s =>
      touch "vis" (baseline_pos + (s * num step) * num_pols + p)) ;;
    (loop .i32 num_channels fun c =>
      touch "vis" (baseline_pos + c * num_pols + p)) ;;
    whenLt (num 0) t
      (loop .i32 num_channels fun c =>
        touch "vis" (baseline_pos + c * num_pols + p) ;;
        touch "vis" ((t - num 1) * time_block + b * baseline_block +
          c * num_pols + p))

end Sdp.Width
