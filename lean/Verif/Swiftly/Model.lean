import Verif.Common.Loops
import Verif.Fft.Roots

/-!
# Model of fourier_transforms/sdp_swiftly.cpp

The one-dimensional functions broadcast over the first axis; the rows are independent, so
one row is modelled.  Each row is an `Arr ℂ` (bounds-checked).  The pocketfft transforms are
exact DFTs (`fftRow`).  Consecutive loops over one counter are written as one loop whose
index is chosen by the same comparisons; a loop whose start is after its end is empty.
Arithmetic is exact and integers do not overflow.  `/` on signed values truncates (`tdiv`)
and `%` takes the sign of the dividend (`tmod`), as in C.
-/

namespace Sdp.Swiftly
open Sdp.Fft
noncomputable section

/-- Sizes of a configuration, sdp_swiftly.cpp:9-20. -/
structure Cfg where
  image : Int
  yN : Int
  xM : Int

inductive Status | success | invalidArgument
deriving DecidableEq

/-- The checks of `sdp_swiftly_create`, sdp_swiftly.cpp:33-75. -/
def createCheck (c : Cfg) : Status :=
  if c.image ≤ 0 ∨ c.xM ≤ 0 ∨ c.yN ≤ 0 then .invalidArgument
  else if c.image.tmod c.xM ≠ 0 then .invalidArgument
  else if c.image.tmod c.yN ≠ 0 then .invalidArgument
  else if (c.xM * c.yN).tmod c.image ≠ 0 then .invalidArgument
  else if c.xM.tmod 2 ≠ 0 then .invalidArgument
  else if c.yN.tmod 2 ≠ 0 then .invalidArgument
  else .success

/-- `xM_yN_size`, the size of a contribution, sdp_swiftly.cpp:89. -/
def Cfg.m (c : Cfg) : Int := (c.xM * c.yN).tdiv c.image

/-- The window table `Fn`, sdp_swiftly.cpp:101-106, from the PSWF samples. -/
def makeFn (c : Cfg) (pswf Fn : Arr ℝ) : Option (Arr ℝ) :=
  let step := c.image.tdiv c.xM
  let off := (c.yN.tdiv 2).tmod step
  loop (fun Fn (i : Nat) => (pswf.read (off + i * step)).bind fun v => Fn.write i v) Fn
    (List.range c.m.toNat)

/-- The window table `Fb`, sdp_swiftly.cpp:109-113 (element 0 is not inverted). -/
def makeFb (c : Cfg) (Fb : Arr ℝ) : Option (Arr ℝ) :=
  loop (fun Fb (i : Nat) => (Fb.read (i + 1 : Nat)).bind fun v => Fb.write (i + 1 : Nat) (1 / v)) Fb
    (List.range (c.yN - 1).toNat)

/-- `mod_p`, sdp_swiftly.cpp:157-170. -/
def modP (a b : Int) : Int := if a.tmod b ≥ 0 then a.tmod b else a.tmod b + b

/-- `pocketfft::c2c` on one row of `n` elements, with the scale factor, e.g.
sdp_swiftly.cpp:262-264. -/
def fftRow (inverse : Bool) (n : Nat) (scale : ℂ) (a : Arr ℂ) : Option (Arr ℂ) :=
  if n ≤ a.size then
    some ⟨a.size, fun k => if k < n then scale * dft inverse n a.get k else a.get k⟩
  else none

/-- Zeroing of a range, sdp_swiftly.cpp:218-221, 226-229, 241-244. -/
def fill0 (out : Arr ℂ) (lo hi : Int) : Option (Arr ℂ) :=
  loop (fun out (k : Nat) => out.write (lo + k) 0) out (List.range (hi - lo).toNat)

/-- Copy of weighted facet data, `out(i) = fct(i + a) * Fb(i + b)` for `lo <= i < hi`,
sdp_swiftly.cpp:222-225, 235-240, 245-248. -/
def fillFacet (fct : Arr ℂ) (Fb : Arr ℝ) (a b : Int) (out : Arr ℂ) (lo hi : Int) :
    Option (Arr ℂ) :=
  loop (fun out (k : Nat) =>
    (fct.read (lo + k + a)).bind fun v => (Fb.read (lo + k + b)).bind fun w =>
      out.write (lo + k) (v * w)) out (List.range (hi - lo).toNat)

/-- Placement of one facet row of `F` elements, sdp_swiftly.cpp:205-249. -/
def placeFacet (c : Cfg) (F : Int) (facetOffset : Int) (fct : Arr ℂ) (Fb : Arr ℝ) (out : Arr ℂ) :
    Option (Arr ℂ) :=
  let start := modP (facetOffset - F.tdiv 2) c.yN
  let stop := (start + F).tmod c.yN
  let fbOff := (c.yN.tdiv 2 - F.tdiv 2) - start
  if start < stop then
    (fill0 out 0 start).bind fun out =>
    (fillFacet fct Fb (-start) fbOff out start stop).bind fun out =>
    fill0 out stop c.yN
  else
    (fillFacet fct Fb (c.yN - start) (c.yN + fbOff) out 0 stop).bind fun out =>
    (fill0 out stop start).bind fun out =>
    fillFacet fct Fb (-start) fbOff out start c.yN

/-- `sdp_swiftly_prepare_facet` on one row, sdp_swiftly.cpp:173-267. -/
def prepareFacet (c : Cfg) (F : Int) (facetOffset : Int) (fct : Arr ℂ) (Fb : Arr ℝ) (out : Arr ℂ) :
    Option (Arr ℂ) :=
  (placeFacet c F facetOffset fct Fb out).bind fun out =>
  fftRow true c.yN.toNat (1 / (c.yN : ℂ)) out

/-- Index into the prepared facet for contribution element `i`: the four loops at
sdp_swiftly.cpp:296-327 and 1043-1074. -/
def facetIdx (c : Cfg) (subgridOffset i : Int) : Int :=
  let sg := subgridOffset.tdiv (c.image.tdiv c.yN)
  let ali := modP (sg - c.m.tdiv 2) c.m
  let offs := sg - ali - c.m.tdiv 2
  let offs1 := modP (offs + c.m) c.yN
  let offs2 := modP offs c.yN
  let stop1 := if c.yN - offs1 > ali then ali else c.yN - offs1
  let stop2 := if c.yN - offs2 > c.m then c.m else c.yN - offs2
  if i < ali then
    if i < stop1 then i + offs1 else i + offs1 - c.yN
  else
    if i < stop2 then i + offs2 else i + offs2 - c.yN

/-- The gather of `sdp_swiftly_extract_from_facet` on one row, sdp_swiftly.cpp:296-327. -/
def windowFacet (c : Cfg) (subgridOffset : Int) (fct out : Arr ℂ) : Option (Arr ℂ) :=
  loop (fun out (i : Nat) => (fct.read (facetIdx c subgridOffset i)).bind fun v => out.write i v)
    out (List.range c.m.toNat)

/-- `sdp_swiftly_extract_from_facet` on one row, sdp_swiftly.cpp:270-343. -/
def extractFromFacet (c : Cfg) (subgridOffset : Int) (fct out : Arr ℂ) : Option (Arr ℂ) :=
  (windowFacet c subgridOffset fct out).bind fun out => fftRow false c.m.toNat 1 out

/-- `sdp_swiftly_add_to_facet` on one row, sdp_swiftly.cpp:1017-1076. -/
def addToFacet (c : Cfg) (subgridOffset : Int) (contrib fct : Arr ℂ) : Option (Arr ℂ) :=
  loop (fun fct (i : Nat) => (contrib.read i).bind fun v => fct.addAt (facetIdx c subgridOffset i) v)
    fct (List.range c.m.toNat)

/-- `offs` of the subgrid functions, sdp_swiftly.cpp:374-376. -/
def subgridOffs (c : Cfg) (fctOffs : Int) : Int :=
  modP ((-c.m).tdiv 2 + c.xM.tdiv 2 + fctOffs) c.xM

/-- Index into the subgrid image for window element `i`, sdp_swiftly.cpp:383-395. -/
def subgridIdx (c : Cfg) (fctOffs i : Int) : Int :=
  let offs := subgridOffs c fctOffs
  let stop := if c.xM - offs > c.m then c.m else c.xM - offs
  if i < stop then i + offs else i + offs - c.xM

/-- Index into the contribution for window element `i`, sdp_swiftly.cpp:388. -/
def contribIdx (c : Cfg) (fctOffs i : Int) : Int := (i + fctOffs + c.m.tdiv 2).tmod c.m

/-- Facet offset in subgrid resolution as computed by `sdp_swiftly_add_to_subgrid`,
sdp_swiftly.cpp:372-373. -/
def fctOffsMod (c : Cfg) (facetOffset : Int) : Int :=
  (modP facetOffset c.image).tdiv (c.image.tdiv c.xM)

/-- ... and as computed by the other subgrid functions, sdp_swiftly.cpp:425, 429, 878, 942, 946. -/
def fctOffsRaw (c : Cfg) (facetOffset : Int) : Int := facetOffset.tdiv (c.image.tdiv c.xM)

/-- `sdp_swiftly_add_to_subgrid` on one row, sdp_swiftly.cpp:346-396. -/
def addToSubgrid (c : Cfg) (facetOffset : Int) (Fn : Arr ℝ) (contrib out : Arr ℂ) :
    Option (Arr ℂ) :=
  let fo := fctOffsMod c facetOffset
  loop (fun out (i : Nat) =>
    (Fn.read i).bind fun w => (contrib.read (contribIdx c fo i)).bind fun v =>
      out.addAt (subgridIdx c fo i) (w * v)) out (List.range c.m.toNat)

/-- The scatter of `sdp_swiftly_extract_from_subgrid` on one row, sdp_swiftly.cpp:877-894. -/
def windowSubgrid (c : Cfg) (facetOffset : Int) (Fn : Arr ℝ) (sg contrib : Arr ℂ) :
    Option (Arr ℂ) :=
  let fo := fctOffsRaw c facetOffset
  loop (fun contrib (i : Nat) =>
    (sg.read (subgridIdx c fo i)).bind fun v => (Fn.read i).bind fun w =>
      contrib.write (contribIdx c fo i) (v * w)) contrib (List.range c.m.toNat)

/-- `sdp_swiftly_extract_from_subgrid` on one row, sdp_swiftly.cpp:848-910. -/
def extractFromSubgrid (c : Cfg) (facetOffset : Int) (Fn : Arr ℝ) (sg contrib : Arr ℂ) :
    Option (Arr ℂ) :=
  (windowSubgrid c facetOffset Fn sg contrib).bind fun contrib =>
  fftRow true c.m.toNat (1 / (c.m : ℂ)) contrib

/-- `sdp_swiftly_add_to_subgrid_2d`, sdp_swiftly.cpp:399-478: both axes at once; the
contribution has rows of `m` and the subgrid rows of `xM` elements. -/
def addToSubgrid2d (c : Cfg) (off0 off1 : Int) (Fn : Arr ℝ) (contrib out : Arr ℂ) :
    Option (Arr ℂ) :=
  let f0 := fctOffsRaw c off0
  let f1 := fctOffsRaw c off1
  loop (fun out (p : Nat × Nat) =>
    (Fn.read p.1).bind fun w0 => (Fn.read p.2).bind fun w1 =>
    (contrib.read (index2 c.m (contribIdx c f0 p.1) (contribIdx c f1 p.2))).bind fun v =>
      out.addAt (index2 c.xM (subgridIdx c f0 p.1) (subgridIdx c f1 p.2)) (w0 * w1 * v))
    out (nest2 c.m.toNat c.m.toNat)

/-- The scatter of `sdp_swiftly_extract_from_subgrid_2d`, sdp_swiftly.cpp:942-996. -/
def windowSubgrid2d (c : Cfg) (off0 off1 : Int) (Fn : Arr ℝ) (sg contrib : Arr ℂ) :
    Option (Arr ℂ) :=
  let f0 := fctOffsRaw c off0
  let f1 := fctOffsRaw c off1
  loop (fun contrib (p : Nat × Nat) =>
    (Fn.read p.1).bind fun w0 => (Fn.read p.2).bind fun w1 =>
    (sg.read (index2 c.xM (subgridIdx c f0 p.1) (subgridIdx c f1 p.2))).bind fun v =>
      contrib.write (index2 c.m (contribIdx c f0 p.1) (contribIdx c f1 p.2)) (w0 * w1 * v))
    contrib (nest2 c.m.toNat c.m.toNat)

/-- The half-turn swap of a row, sdp_swiftly.cpp:502-507. -/
def swapHalves (M : Nat) (a : Arr ℂ) : Option (Arr ℂ) :=
  loop (fun a (i : Nat) => (a.read i).bind fun t => (a.read (i + M / 2 : Nat)).bind fun v =>
    (a.write i v).bind fun a => a.write (i + M / 2 : Nat) t) a (List.range (M / 2))

/-- The shifted copy back, sdp_swiftly.cpp:537-541. -/
def copyShifted (M : Nat) (offset : Int) (tmp sg : Arr ℂ) : Option (Arr ℂ) :=
  loop (fun sg (i : Nat) =>
    (tmp.read (modP (i + offset + (M / 2 : Nat)) M)).bind fun v => sg.write i v)
    sg (List.range M)

/-- `sdp_swiftly_finish_subgrid_inplace` on one row, sdp_swiftly.cpp:481-545. -/
def finishSubgrid (M : Nat) (offset : Int) (sg : Arr ℂ) : Option (Arr ℂ) :=
  (swapHalves M sg).bind fun sg =>
  (fftRow true M (1 / (M : ℂ)) sg).bind fun tmp =>
  copyShifted M offset tmp sg

/-- The phase ramp, sdp_swiftly.cpp:763-775: state is the phasor and the row. -/
def rampSwap (M : Nat) (step step2 : ℂ) (a : Arr ℂ) : Option (Arr ℂ) :=
  (loop (fun (s : ℂ × Arr ℂ) (i : Nat) =>
    (s.2.read i).bind fun t => (s.2.read (i + M / 2 : Nat)).bind fun v =>
    (s.2.write i (s.1 * v)).bind fun a =>
    (a.write (i + M / 2 : Nat) (s.1 * step2 * t)).bind fun a => some (s.1 * step, a))
    (1, a) (List.range (M / 2))).map Prod.snd

/-- `sdp_swiftly_prepare_subgrid_inplace` on one row, sdp_swiftly.cpp:727-776. -/
def prepareSubgrid (M : Nat) (offset : Int) (sg : Arr ℂ) : Option (Arr ℂ) :=
  let ps : ℝ := -2 * Real.pi * ((offset + (M / 2 : Nat) : Int) : ℝ) / M
  let ps2 : ℝ := -Real.pi * ((offset + (M / 2 : Nat) : Int) : ℝ)
  (fftRow false M 1 sg).bind fun sg =>
  rampSwap M ⟨Real.cos ps, Real.sin ps⟩ ⟨Real.cos ps2, Real.sin ps2⟩ sg

/-- `sdp_swiftly_finish_subgrid` on one row (out of place, `xA` output elements),
sdp_swiftly.cpp:548-624. -/
def finishSubgridOut (M : Nat) (xA : Nat) (offset : Int) (img sg : Arr ℂ) : Option (Arr ℂ) :=
  (loop (fun (buf : Arr ℂ) (i : Nat) =>
    (img.read (i + M / 2 : Nat)).bind fun v => (buf.write i v).bind fun buf =>
    (img.read i).bind fun v => buf.write (i + M / 2 : Nat) v)
    ⟨M, fun _ => 0⟩ (List.range (M / 2))).bind fun buf =>
  (fftRow true M (1 / (M : ℂ)) buf).bind fun buf =>
  loop (fun sg (i : Nat) =>
    (buf.read (modP (i - (xA / 2 : Nat) + offset + M) M)).bind fun v => sg.write i v)
    sg (List.range xA)

/-- Element `(i, j)` of a view with strides `s`, sdp_mem_view.h:133-146 (`operator()`). -/
def ix (s : Int × Int) (i j : Nat) : Int := i * s.1 + j * s.2

/-- `pocketfft::c2c` on both axes of an `M` by `M` block, from a view with strides `sIn` to one
with strides `sOut`, e.g. sdp_swiftly.cpp:702-704. -/
def fft2 (inverse : Bool) (M : Nat) (scale : ℂ) (sIn sOut : Int × Int) (src dst : Arr ℂ) :
    Option (Arr ℂ) :=
  if ∀ i < M, ∀ j < M, 0 ≤ ix sIn i j ∧ ix sIn i j < src.size then
    loop (fun dst (p : Nat × Nat) => dst.write (ix sOut p.1 p.2)
      (scale * dft2 inverse M M (fun i j => src.get (ix sIn i j).toNat) p.1 p.2)) dst (nest2 M M)
  else none

/-- The quadrant swap, sdp_swiftly.cpp:645-680 (both branches do the same). -/
def swapQuads (M : Nat) (s : Int × Int) (a : Arr ℂ) : Option (Arr ℂ) :=
  loop (fun a (p : Nat × Nat) =>
    (a.read (ix s p.1 p.2)).bind fun t => (a.read (ix s (p.1 + M / 2) (p.2 + M / 2))).bind fun v =>
    (a.write (ix s p.1 p.2) v).bind fun a =>
    (a.write (ix s (p.1 + M / 2) (p.2 + M / 2)) t).bind fun a =>
    (a.read (ix s (p.1 + M / 2) p.2)).bind fun t2 =>
    (a.read (ix s p.1 (p.2 + M / 2))).bind fun v2 =>
    (a.write (ix s (p.1 + M / 2) p.2) v2).bind fun a =>
    a.write (ix s p.1 (p.2 + M / 2)) t2) a (nest2 (M / 2) (M / 2))

/-- The shifted copy back, sdp_swiftly.cpp:706-720; `tmp` has contiguous rows. -/
def copyShifted2d (M : Nat) (s : Int × Int) (o0 o1 : Int) (tmp sg : Arr ℂ) : Option (Arr ℂ) :=
  let off := modP (o1 + (M / 2 : Nat)) M
  loop (fun sg (p : Nat × Nat) =>
    let r := modP (p.1 + o0 + (M / 2 : Nat)) M
    let q := if (p.2 : Int) < M - off then p.2 + off else p.2 + off - M
    (tmp.read (r * M + q)).bind fun v => sg.write (ix s p.1 p.2) v) sg (nest2 M M)

/-- `sdp_swiftly_finish_subgrid_inplace_2d`, sdp_swiftly.cpp:627-723, on a view with strides
`s`.  The transform is told that the contiguous temporary has the strides of the subgrid
(`stride_tmp` at lines 699-701 is never used). -/
def finishSubgrid2d (M : Nat) (s : Int × Int) (o0 o1 : Int) (sg : Arr ℂ) : Option (Arr ℂ) :=
  (swapQuads M s sg).bind fun sg =>
  (fft2 true M (1 / (M : ℂ) / M) s s sg ⟨M * M, fun _ => 0⟩).bind fun tmp =>
  copyShifted2d M s o0 o1 tmp sg

/-- One row of the 2-D phase ramp, sdp_swiftly.cpp:824-840: state is the phasor and the array. -/
def rampRow (M : Nat) (s : Int × Int) (step1 step02 step12 : ℂ) (i0 : Nat) (phasor0 : ℂ)
    (a : Arr ℂ) : Option (Arr ℂ) :=
  (loop (fun (st : ℂ × Arr ℂ) (i1 : Nat) =>
    ((st.2.read (ix s i0 i1)).bind fun t =>
    (st.2.read (ix s (i0 + M / 2) (i1 + M / 2))).bind fun v =>
    (st.2.write (ix s i0 i1) (st.1 * v)).bind fun a =>
    (a.write (ix s (i0 + M / 2) (i1 + M / 2)) (st.1 * step02 * step12 * t)).bind fun a =>
    (a.read (ix s (i0 + M / 2) i1)).bind fun t2 => (a.read (ix s i0 (i1 + M / 2))).bind fun v2 =>
    (a.write (ix s (i0 + M / 2) i1) (st.1 * step02 * v2)).bind fun a =>
    a.write (ix s i0 (i1 + M / 2)) (st.1 * step12 * t2)).map fun a => (st.1 * step1, a))
    (phasor0, a) (List.range (M / 2))).map Prod.snd

/-- The 2-D phase ramp, sdp_swiftly.cpp:819-841. -/
def ramp2d (M : Nat) (s : Int × Int) (step0 step02 step1 step12 : ℂ) (a : Arr ℂ) :
    Option (Arr ℂ) :=
  (loop (fun (st : ℂ × Arr ℂ) (i0 : Nat) =>
    (rampRow M s step1 step02 step12 i0 st.1 st.2).map fun a => (st.1 * step0, a))
    (1, a) (List.range (M / 2))).map Prod.snd

/-- `sdp_swiftly_prepare_subgrid_inplace_2d`, sdp_swiftly.cpp:780-842. -/
def prepareSubgrid2d (M : Nat) (s : Int × Int) (o0 o1 : Int) (sg : Arr ℂ) : Option (Arr ℂ) :=
  let ps (o : Int) : ℝ := -2 * Real.pi * ((o + (M / 2 : Nat) : Int) : ℝ) / M
  let ps2 (o : Int) : ℝ := -Real.pi * ((o + (M / 2 : Nat) : Int) : ℝ)
  let e (x : ℝ) : ℂ := ⟨Real.cos x, Real.sin x⟩
  (fft2 false M 1 s s sg sg).bind fun sg =>
  ramp2d M s (e (ps o0)) (e (ps2 o0)) (e (ps o1)) (e (ps2 o1)) sg

/-- `sdp_swiftly_finish_facet` on one row after its transform, sdp_swiftly.cpp:1127-1156. -/
def takeFacet (c : Cfg) (F : Int) (facetOffset : Int) (pfct : Arr ℂ) (Fb : Arr ℝ) (fct : Arr ℂ) :
    Option (Arr ℂ) :=
  let start := modP (facetOffset - F.tdiv 2) c.yN
  let stop := (start + F).tmod c.yN
  let fbOff := (c.yN.tdiv 2 - F.tdiv 2) - start
  let take := fun (fct : Arr ℂ) (a b lo hi : Int) =>
    loop (fun fct (k : Nat) =>
      (pfct.read (lo + k)).bind fun v => (Fb.read (lo + k + b)).bind fun w =>
        fct.write (lo + k + a) (v * w)) fct (List.range (hi - lo).toNat)
  if start < stop then take fct (-start) fbOff start stop
  else
    (take fct (c.yN - start) (c.yN + fbOff) 0 stop).bind fun fct =>
    take fct (-start) fbOff start c.yN

/-- `sdp_swiftly_finish_facet` on one row, sdp_swiftly.cpp:1079-1157. -/
def finishFacet (c : Cfg) (F : Int) (facetOffset : Int) (pfct : Arr ℂ) (Fb : Arr ℝ) (fct : Arr ℂ) :
    Option (Arr ℂ) :=
  (fftRow false c.yN.toNat 1 pfct).bind fun pfct => takeFacet c F facetOffset pfct Fb fct

end
end Sdp.Swiftly
