import Mathlib.Algebra.Module.Prod
import Mathlib.Algebra.Field.Basic
import Verif.Common.Launch

/-!
# ES gridder (GPU part): model of the image kernels

`/repo/src/ska-sdp-func/grid_data/sdp_gridder_uvw_es_fft_kernels.cu` L430-775 and their launches
in `sdp_gridder_uvw_es_fft.cpp`.  A thread handles up to four pixels, one per quadrant.
Arithmetic is exact and `int` does not overflow; complex numbers are pairs.
-/

namespace Sdp.EsFft

variable {K : Type} [Field K]

/-- Pixels of thread `(i, j)` as offsets `(dy, dx)` from the centre, in the order of the code
(L519-547, L657-688, L752-773; `h` is half the image size). -/
def quads (h : Nat) (ij : Nat × Nat) : List (Int × Int) :=
  (if ij.1 < h ∧ ij.2 < h then [((ij.2 : Int), (ij.1 : Int))] else []) ++
  (if 0 < ij.1 ∧ ij.2 < h then [((ij.2 : Int), -(ij.1 : Int))] else []) ++
  (if 0 < ij.2 ∧ ij.1 < h then [(-(ij.2 : Int), (ij.1 : Int))] else []) ++
  (if 0 < ij.1 ∧ 0 < ij.2 then [(-(ij.2 : Int), -(ij.1 : Int))] else [])

/-- Index of the pixel at offset `d` from the centre of a `size x size` plane (L455-457, L487-488,
L514-516, ...). -/
def centred (size : Nat) (d : Int × Int) : Int :=
  ((size / 2 : Nat) : Int) * size + ((size / 2 : Nat) : Int) + d.1 * size + d.2

/-- Real part of a product (L490-492). -/
def reMul (x y : K × K) : K := x.1 * y.1 - x.2 * y.2

/-- One of `pixel_sum_...` (L459-503).  `shift p i j` is the phase shift of plane `p` for thread
`(i, j)`. -/
def pixelSum (grid numW : Nat) (stack : Arr (K × K)) (shift : Nat → Nat → Nat → K × K) (ij : Nat × Nat)
    (d : Int × Int) : Option K :=
  loop (fun (acc : K) (p : Nat) =>
    (stack.read ((p : Int) * (grid * grid) + centred grid d)).map fun z =>
      acc + reMul z (shift p ij.1 ij.2)) 0 (List.range numW)

/-- `apply_w_screen_and_sum` (L430-548), one thread, with `perform_shift_fft`.  All four sums are
computed, whether used or not. -/
def sumThread (image grid numW : Nat) (stack : Arr (K × K)) (shift : Nat → Nat → Nat → K × K)
    (img : Arr K) (ij : Nat × Nat) : Option (Arr K) :=
  if ij.1 ≤ image / 2 ∧ ij.2 ≤ image / 2 then
    (pixelSum grid numW stack shift ij (ij.2, ij.1)).bind fun _ =>
    (pixelSum grid numW stack shift ij (-ij.2, ij.1)).bind fun _ =>
    (pixelSum grid numW stack shift ij (ij.2, -ij.1)).bind fun _ =>
    (pixelSum grid numW stack shift ij (-ij.2, -ij.1)).bind fun _ =>
    loop (fun (g : Arr K) (d : Int × Int) =>
      (pixelSum grid numW stack shift ij d).bind fun s =>
        g.addAt (centred image d) (if (ij.1 + ij.2) % 2 ≠ 0 then -s else s)) img (quads (image / 2) ij)
  else some img

/-- `dirty_image_...` (L586-619) of one quadrant, read when in the image, with the sign. -/
def pixelOf (image : Nat) (img : Arr K) (ij : Nat × Nat) (d : Int × Int) : Option K :=
  (img.read (centred image d)).map fun v => if (ij.1 + ij.2) % 2 ≠ 0 then -v else v

/-- `reverse_w_screen_to_stack` (L555-690), one thread, with `perform_shift_fft`.  The pixels on
the negative side are read also when not used. -/
def reverseThread (image grid numW : Nat) (img : Arr K) (shift : Nat → Nat → Nat → K × K)
    (stack : Arr (K × K)) (ij : Nat × Nat) : Option (Arr (K × K)) :=
  if ij.1 ≤ image / 2 ∧ ij.2 ≤ image / 2 then
    (if ij.2 < image / 2 then pixelOf image img ij (ij.2, -ij.1) else some 0).bind fun _ =>
    (if ij.1 < image / 2 then pixelOf image img ij (-ij.2, ij.1) else some 0).bind fun _ =>
    (pixelOf image img ij (-ij.2, -ij.1)).bind fun _ =>
    loop (fun (s : Arr (K × K)) (p : Nat) =>
      loop (fun (s : Arr (K × K)) (d : Int × Int) =>
        (pixelOf image img ij d).bind fun v =>
          s.write ((p : Int) * (grid * grid) + centred grid d) (v • shift p ij.1 ij.2)) s
        (quads (image / 2) ij)) stack (List.range numW)
  else some stack

/-- `conv_corr_and_scaling` (L691-775), one thread.  `nConv i j` is the factor besides the two
table values: `n_conv` with its norm, or the norm alone without w stacking. -/
def scaleThread (image : Nat) (kern : Arr K) (nConv : Nat → Nat → K) (img : Arr K) (ij : Nat × Nat) :
    Option (Arr K) :=
  if ij.1 ≤ image / 2 ∧ ij.2 ≤ image / 2 then
    (kern.read (ij.1 : Int)).bind fun l =>
    (kern.read (ij.2 : Int)).bind fun m =>
    loop (fun (g : Arr K) (d : Int × Int) =>
      (g.read (centred image d)).bind fun v =>
        g.write (centred image d) (v * (1 / (l * m * nConv ij.1 ij.2)))) img (quads (image / 2) ij)
  else some img

/-- `num_threads` (sdp_gridder_uvw_es_fft.cpp L667-668, L709-710, L793-794, L848-849). -/
def imageThreads (image : Nat) : Nat := min 32 ((image + 1) / 2)

/-- Number of threads along one axis (L670-673, ...); `none` = division by zero. -/
def imageLaunch (image : Nat) : Option Nat :=
  if imageThreads image = 0 then none
  else some (blocks (image / 2 + 1) (imageThreads image) * imageThreads image)

end Sdp.EsFft
