import Verif.Width.Vis

/-
Which elements the image functions touch, calculated in the integer types of
the code (property C115).  As in Vis.lean, values are modelled elsewhere
(Hogbom, MsClean, FftConv, GridUtil).
-/
namespace Sdp.Width

/-- The element-by-element product of the two transforms, and the
normalisation: `for (int i = 0; i < size; i++)` with an `int64_t` size,
src/ska-sdp-func/numeric_functions/sdp_fft_convolution.cpp:119-122, 142-148 and
214-217. -/
def productCpu (pad : Nat) : Trace :=
  let pad_size := longDim pad * longDim pad
  (loop .i32 pad_size fun i =>
    touch "a" i ;; touch "b" i ;; touch "product" i) ;;
  loop .i32 pad_size fun i => touch "product" i

/-- sdp_pad_2d, src/ska-sdp-func/numeric_functions/sdp_fft_convolution.cpp:67-78:
all `int64_t`. -/
def padCpu (n pad : Nat) : Trace :=
  let padded_cols := longDim n + num 2 * longDim pad
  loop .i64 (longDim n) fun i =>
  loop .i64 (longDim n) fun j =>
    touch "padded" ((i + longDim pad) * padded_cols + (j + longDim pad)) ;;
    touch "data" (i * longDim n + j)

/-- The search for the largest element of the residual in
sdp_hogbom_clean_cpu, src/ska-sdp-func/clean/sdp_hogbom_clean.cpp:185-196; the
same loop adds the residual to the sky model at the end (263-266) and copies
the results (106-109). -/
def hogbomScan (D : Nat) : Trace :=
  let dirty_img_size := longDim D * longDim D
  loop .i32 dirty_img_size fun i => touch "residual" i

/-- Subtracting the point spread function, with the peak at flat index `peak`:
src/ska-sdp-func/clean/sdp_hogbom_clean.cpp:204-238. -/
def hogbomSubtract (D M : Nat) (peak : Nat) : Trace :=
  let dirty_img_dim := longDim D
  let psf_dim := longDim M
  let max_idx_x := as .i32 (num peak / dirty_img_dim)
  let max_idx_y := as .i32 (num peak % dirty_img_dim)
  let psf_x_start := dirty_img_dim - max_idx_x
  let psf_x_end := psf_x_start + dirty_img_dim
  let psf_y_start := dirty_img_dim - max_idx_y
  let psf_y_end := psf_y_start + dirty_img_dim
  loopFrom .i32 psf_x_start psf_x_end fun x i =>
  loopFrom .i32 psf_y_start psf_y_end fun y j =>
    touch "psf" (as .u32 (INDEX_2D psf_dim psf_dim x y)) ;;
    touch "residual" (as .u32 (INDEX_2D dirty_img_dim dirty_img_dim i j))

/-- Storing the scaled point spread functions in sdp_ms_clean_cornwell:
src/ska-sdp-func/clean/sdp_ms_clean_cornwell.cpp:415-490, the loop 466-486: an
`unsigned int` holds an index that is calculated in `int64_t`. -/
def scaledPsfs (S M : Nat) : Trace :=
  let scale_dim := longDim S
  let psf_dim := longDim M
  loop .i32 scale_dim fun s =>
  loop .i32 scale_dim fun p =>
  loop .i32 psf_dim fun x =>
  loop .i32 psf_dim fun y =>
    touch "cur" (as .u32 (INDEX_2D psf_dim psf_dim x y)) ;;
    touch "scaled_psf" (as .u32
      (INDEX_4D scale_dim scale_dim psf_dim psf_dim s p x y))

/-- The number by which sdp_gridder_rms_diff divides:
src/ska-sdp-func/grid_data/sdp_gridder_utils.cpp:470-472. -/
def rmsSize (X Y : Nat) : Num := intDim X * intDim Y

/-- The elements it sums: `a_(i, j)`, whose index is calculated by the view with
`int64_t` strides (src/ska-sdp-func/grid_data/sdp_gridder_utils.cpp:473-481);
arrays without gaps. -/
def rmsReads (X Y : Nat) : Trace :=
  loop .i32 (intDim X) fun i =>
  loop .i32 (intDim Y) fun j =>
    touch "a" (as .i64 i * longDim Y + as .i64 j * num 1) ;;
    touch "b" (as .i64 i * longDim Y + as .i64 j * num 1)

end Sdp.Width
