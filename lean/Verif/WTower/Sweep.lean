import Verif.Fft.Model
import Verif.GridUtil.Subgrid
import Verif.GridUtil.Bounds
import Verif.WTower.Model

/-!
# W-towers: the sweep over w-planes, model

`/repo/src/ska-sdp-func/grid_data/sdp_gridder_wtower_uvw.cpp` L726-909
(`sdp_gridder_wtower_uvw_degrid`) and L935-1119 (`sdp_gridder_wtower_uvw_grid`), CPU, and the
two array utilities they use (`sdp_gridder_utils.cpp` L22-75 and L485-525), complex arrays in
exact arithmetic.  Memory locations, type dispatch, allocation failures, `int` overflow and the
GPU paths are not modelled; status is clear throughout.  `none` = undefined behaviour.
-/

namespace Sdp.WTower
open Sdp.Fft Sdp.GridUtil

noncomputable section

/-- Orders in which the parallel loops of one step run: two batch loops of the FFT, pixels,
rows. -/
structure Sched where
  o1 : List Nat
  o2 : List Nat
  px : List (Nat × Nat)
  rows : List Nat

/-- `scale_inv_array` (utils L485-525): `out = in1 / in2 ** exponent`; `in1 = none` means that
input and output are the same array. -/
def scaleInv (n : Nat) (px : List (Nat × Nat)) (out : Arr ℂ) (in1 : Option (Arr ℂ))
    (in2 : Arr ℂ) (e : Int) : Option (Arr ℂ) :=
  loop (fun out p =>
    ((in1.getD out).read (index2 n p.1 p.2)).bind fun x =>
    (in2.read (index2 n p.1 p.2)).bind fun q =>
    out.write (index2 n p.1 p.2) (if e = 1 then x / q else x / q ^ e)) out px

/-- `accum_scale_array` (utils L22-75): `out += in1 * in2 ** exponent`; `in2 = none` is a null
pointer. -/
def accumScale (n : Nat) (px : List (Nat × Nat)) (out in1 : Arr ℂ) (in2 : Option (Arr ℂ))
    (e : Int) : Option (Arr ℂ) :=
  match in2 with
  | none =>
    loop (fun out p => (in1.read (index2 n p.1 p.2)).bind fun x =>
      out.addAt (index2 n p.1 p.2) x) out px
  | some in2 =>
    if e = 0 then
      loop (fun out p => (in1.read (index2 n p.1 p.2)).bind fun x =>
        out.addAt (index2 n p.1 p.2) x) out px
    else
      loop (fun out p => (in1.read (index2 n p.1 p.2)).bind fun x =>
        (in2.read (index2 n p.1 p.2)).bind fun q =>
        out.addAt (index2 n p.1 p.2) (if e = 1 then x * q else x * q ^ e)) out px

variable {K : Type} [Field K] [LinearOrder K] [IsStrictOrderedRing K] [FloorRing K]

/-- First and last w-plane (L786-791, L995-1000).  Without any visibility the bounds are
infinite and their conversion to `int` is undefined. -/
def planeRange (wStep : K) (offW : Int) (b : MinMax K) : Option (Int × Int) :=
  match b.mn, b.mx with
  | (lo : K), (hi : K) =>
    some (⌊lo / wStep - 1 / 100000⌋ - offW, ⌈hi / wStep + 1 / 100000⌉ - offW + 1)
  | _, _ => none

/-- `start_row`, `end_row` (L755-759, L964-968). -/
def rowList (m : Nat) (startRow endRow : Int) : List Nat :=
  if startRow < 0 ∨ endRow < 0 then List.range m
  else (List.range (endRow - startRow).toNat).map fun k => startRow.toNat + k

/-- `if (dfreq_hz == 0.0) dfreq_hz = 10;` (L744, L953). -/
def fixFreq (ob : Obs K) : Obs K := if ob.df = 0 then { ob with df := 10 } else ob

/-- Buffers of the degridding sweep: sub-grid stack, `w_subgrid_image`, FFT work space. -/
structure DBufs where
  T : Arr ℂ
  img : Arr ℂ
  tmp : Arr ℂ

/-- Body of the filling loop (L831-852), also L867-880 with the last layer: layer `i` receives
the transform of `w_subgrid_image`, which is then divided by the pattern.  Simplification: the
code copies the image into the layer and transforms it there; here a copy is transformed and
then stored. -/
def fillLayer (pl : Plan K ℂ) (pat : Arr ℂ) (s : Sched) (st : DBufs) (i : Nat) : Option DBufs :=
  (execShift pl.n pl.n s.o1 s.o2 s.px 1 false st.img st.tmp).bind fun rt =>
  (copyBlock st.T (pl.n * pl.n * i) rt.1 0 (pl.n * pl.n)).bind fun T =>
  (scaleInv pl.n s.px st.img none pat 1).map fun img => ⟨T, img, rt.2⟩

/-- Moving to the next plane (L863-880). -/
def degridMove (pl : Plan K ℂ) (pat : Arr ℂ) (s : Sched) (st : DBufs) : Option DBufs :=
  (shiftSubgrids pl.wSupport pl.n pl.n s.px st.T).bind fun T =>
  fillLayer pl pat s ⟨T, st.img, st.tmp⟩ (pl.wSupport - 1)

/-- Body of the sweep (L856-900); `j` counts planes from the first one. -/
def degridStep (pl : Plan K ℂ) (ob : Obs K) (pat : Arr ℂ) (first : Int) (S : Nat → Sched)
    (st : DBufs × Arr ℂ) (j : Nat) : Option (DBufs × Arr ℂ) :=
  (if j = 0 then some st.1 else degridMove pl pat (S j) st.1).bind fun b =>
  (degridPlane pl ob (first + j) b.T (S j).rows st.2).map fun vis => (b, vis)

/-- `sdp_gridder_wtower_uvw_degrid` (L726-909), `m` rows.  `T0`, `W0`, `tmp` are the freshly
allocated buffers; `S0` are the schedules of the set-up, `S` those of the sweep.  Returns the
visibilities and the number of planes counted. -/
def degridCall (pl : Plan K ℂ) (ob : Obs K) (m : Nat) (pat img : Arr ℂ)
    (S0 S : Nat → Sched) (T0 W0 tmp : Arr ℂ) (vis : Arr ℂ) : Option (Arr ℂ × Int) :=
  let ob := fixFreq ob
  (uvwBounds ob.c0 ob.f0 ob.df ob.uvw m ob.startChs ob.endChs).bind fun b =>
  (planeRange pl.wStep ob.offW b.2.2).bind fun fl =>
  (scaleInv pl.n (S0 0).px W0 (some img) pat (fl.1 - ((pl.wSupport / 2 : Nat) : Int))).bind fun W =>
  (loop (fun st i => fillLayer pl pat (S0 i) st i) (⟨T0, W, tmp⟩ : DBufs)
    (List.range pl.wSupport)).bind fun st =>
  (loop (degridStep pl ob pat fl.1 S) (st, vis)
    (List.range (1 + fl.2 - fl.1).toNat)).map fun r => (r.2, 1 + fl.2 - fl.1)

/-- Accumulating layer `i` (L1033-1047 for `i = 0`, L1080-1099): the image is divided by the
pattern, the transform of the layer is added. -/
def gridAccum (pl : Plan K ℂ) (pat : Arr ℂ) (s : Sched) (st : DBufs × Arr ℂ) (i : Nat) :
    Option (DBufs × Arr ℂ) :=
  (scaleInv pl.n s.px st.1.img none pat 1).bind fun img =>
  (copyBlock st.2 0 st.1.T (pl.n * pl.n * i) (pl.n * pl.n)).bind fun buf =>
  (execShift pl.n pl.n s.o1 s.o2 s.px 0 false buf st.1.tmp).bind fun rt =>
  (accumScale pl.n s.px img rt.1 none 0).map fun img => (⟨st.1.T, img, rt.2⟩, rt.1)

/-- `sdp_mem_clear_portion` of layer `i` (L1052-1058). -/
def clearLayer (n : Nat) (T : Arr ℂ) (i : Nat) : Option (Arr ℂ) :=
  if n * n * i + n * n ≤ T.size then
    some ⟨T.size, fun j => if n * n * i ≤ j ∧ j < n * n * i + n * n then 0 else T.get j⟩
  else none

/-- Moving to the next plane (L1032-1059). -/
def gridMove (pl : Plan K ℂ) (pat : Arr ℂ) (s : Sched) (st : DBufs × Arr ℂ) :
    Option (DBufs × Arr ℂ) :=
  (gridAccum pl pat s st 0).bind fun st =>
  (shiftSubgrids pl.wSupport pl.n pl.n s.px st.1.T).bind fun T =>
  (clearLayer pl.n T (pl.wSupport - 1)).map fun T => (⟨T, st.1.img, st.1.tmp⟩, st.2)

/-- Body of the sweep (L1025-1075). -/
def gridStep (pl : Plan K ℂ) (ob : Obs K) (pat vis : Arr ℂ) (first : Int) (rows : List Nat)
    (S : Nat → Sched) (st : DBufs × Arr ℂ) (j : Nat) : Option (DBufs × Arr ℂ) :=
  (if j = 0 then some st else gridMove pl pat (S j) st).bind fun st =>
  (gridPlane pl ob (first + j) vis rows st.1.T).map fun T => (⟨T, st.1.img, st.1.tmp⟩, st.2)

/-- `sdp_gridder_wtower_uvw_grid` (L935-1123), rows `start_row .. end_row - 1` in order; the
stack and `w_subgrid_image` start at zero.  `F0` and `tmp` are the freshly allocated FFT
buffers.  Returns the sub-grid image and the number of planes counted. -/
def gridCall (pl : Plan K ℂ) (ob : Obs K) (m : Nat) (pat vis : Arr ℂ) (startRow endRow : Int)
    (S S1 : Nat → Sched) (F0 tmp : Arr ℂ) (img : Arr ℂ) : Option (Arr ℂ × Int) :=
  let ob := fixFreq ob
  (uvwBounds ob.c0 ob.f0 ob.df ob.uvw m ob.startChs ob.endChs).bind fun b =>
  (planeRange pl.wStep ob.offW b.2.2).bind fun fl =>
  (loop (gridStep pl ob pat vis fl.1 (rowList m startRow endRow) S)
    ((⟨⟨pl.wSupport * (pl.n * pl.n), fun _ => 0⟩, ⟨pl.n * pl.n, fun _ => 0⟩, tmp⟩ : DBufs), F0)
    (List.range (1 + fl.2 - fl.1).toNat)).bind fun st =>
  (loop (fun st i => gridAccum pl pat (S1 i) st i) st (List.range pl.wSupport)).bind fun st =>
  (accumScale pl.n (S1 pl.wSupport).px img st.1.img (some pat)
    (fl.2 + ((pl.wSupport / 2 : Nat) : Int) - 1)).map fun r => (r, 1 + fl.2 - fl.1)

end
end Sdp.WTower
