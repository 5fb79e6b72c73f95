import Verif.Direct.Model
import Verif.GridUtil.Scale

/-!
# C111: model of whole calls of the direct gridder

`sdp_gridder_count_nonzero_pixels`, `sdp_gridder_image_to_flmn`, `sdp_gridder_dft`, `sdp_gridder_idft`
(grid_data/sdp_gridder_utils.{cpp,cu}), `sdp_gridder_direct_degrid` and `sdp_gridder_direct_grid`
(grid_data/sdp_gridder_direct.cpp), with their argument checks, on arrays with any strides.  Exact arithmetic in both
precisions; real pixels are complex numbers with zero imaginary part; array extents fit in `int`; the output shares no memory
with the inputs; pointers other than the optional ones are not NULL.  `none`, or a fault of a thread, is an access outside an
array.  An OpenMP loop is the set of its innermost independent iterations, each a thread, in any interleaving.
-/

namespace Sdp.Direct
open Sdp.Race Sdp.GridUtil
noncomputable section

/-- Element index of `view(i)`, sdp_mem_view.h:119-129. -/
def addr1 (v : View) (i : Nat) : Int := Sdp.dot [(i : Int)] v.stride

/-- An argument: the descriptor, and the values it points to. -/
structure Data (α : Type) where
  mem : Mem
  buf : Arr α

/-- `view(i, j)` on the CPU, sdp_mem_view.h:131-147; the pointer is that of the argument even if its check failed
(sdp_mem_view.h:362-369), so it may be a device pointer. -/
def Data.host {α : Type} (d : Data α) (i : Int) : Option α := if d.mem.location = .cpu then d.buf.read i else none

/-- `view(i, j) = x` on the CPU. -/
def Data.store {α : Type} (d : Data α) (a : Arr α) (i : Int) (x : α) : Option (Arr α) :=
  if d.mem.location = .cpu then a.write i x else none

/-! ## Counting, sdp_gridder_utils.cpp:105-121 and 987-1014 -/

/-- Types of images. -/
def isImage (t : MemType) : Prop := t = .complexDouble ∨ t = .complexFloat ∨ t = .double ∨ t = .float

instance (t : MemType) : Decidable (isImage t) := by unfold isImage; infer_instance

open Classical in
/-- `sdp_gridder_count_nonzero_pixels`, sdp_gridder_utils.cpp:987-1014 with `count_nonzero_pixels` (105-121). -/
def countCall (im : Data ℂ) (st : Sdp.Status) : Option (Nat × Sdp.Status) :=
  if st ≠ .success then some (0, st)
  else if isImage im.mem.type then
    let v := checkAndViewConst im.mem im.mem.type 2 .cpu st
    if v.2 ≠ .success then some (0, v.2)
    else
      let n := (im.mem.shapeDim 0).toNat
      (loop (fun acc (p : Nat × Nat) => (im.host (addr v.1 p)).bind fun x => some (if x ≠ 0 then acc + 1 else acc)) 0
        (nest2 n n)).map fun k => (k, .success)
  else some (0, .dataType)

/-! ## Image to coordinates, sdp_gridder_utils.cpp:322-383 and 1238-1302 -/

/-- Type combinations, sdp_gridder_utils.cpp:1250-1296. -/
def flmnTypes (i f d : MemType) : Prop :=
  f = .double ∧ (i = .double ∧ d = .double ∨ i = .float ∧ d = .float ∨ i = .complexDouble ∧ d = .double ∨
    i = .complexFloat ∧ d = .float ∨ i = .complexFloat ∧ d = .double)

instance (i f d : MemType) : Decidable (flmnTypes i f d) := by unfold flmnTypes; infer_instance

/-- `lmn_(k, 0..2) = ...`, sdp_gridder_utils.cpp:363-365, 376-378. -/
def putLmn (g : Geo) (n0 n1 : Nat) (v : View) (lmn : Arr ℝ) (k : Nat) (p : Nat × Nat) : Option (Arr ℝ) :=
  let l := pixCoord g.theta n0 p.1
  let m := pixCoord g.theta n1 p.2
  (lmn.write (addr v (k, 0)) l).bind fun lmn =>
  (lmn.write (addr v (k, 1)) m).bind fun lmn =>
  lmn.write (addr v (k, 2)) (lmToN g.hu g.hv l m)

/-- `image_taper_1d ? taper_(il) * taper_(im) : 1.0`, sdp_gridder_utils.cpp:358-360, 314. -/
def taperAt (taper : Option (View × Arr ℝ)) (p : Nat × Nat) : Option ℝ :=
  match taper with
  | none => some 1
  | some t => (t.2.read (addr1 t.1 p.1)).bind fun a => (t.2.read (addr1 t.1 p.2)).bind fun b => some (a * b)

open Classical in
/-- Pixel body with fluxes, sdp_gridder_utils.cpp:354-368. -/
def flmnAt (g : Geo) (n0 n1 : Nat) (vi vf vl : View) (im : Data ℂ) (fx : Data ℝ) (taper : Option (View × Arr ℝ))
    (st : Nat × Arr ℝ × Arr ℝ) (p : Nat × Nat) : Option (Nat × Arr ℝ × Arr ℝ) :=
  (im.host (addr vi p)).bind fun x =>
  if x ≠ 0 then
    (taperAt taper p).bind fun t =>
    (fx.store st.2.1 (addr1 vf st.1) (x.re * t)).bind fun flux =>
    (putLmn g n0 n1 vl st.2.2 st.1 p).bind fun lmn =>
    some (st.1 + 1, flux, lmn)
  else some st

/-- View of the optional taper, sdp_gridder_utils.cpp:337, 258. -/
def taperView (loc : MemLocation) (taper : Option (Data ℝ)) (st : Sdp.Status) : Option (View × Arr ℝ) × Sdp.Status :=
  match taper with
  | none => (none, st)
  | some t => let v := checkAndViewConst t.mem .double 1 loc st; (some (v.1, t.buf), v.2)

/-- `sdp_gridder_image_to_flmn`, sdp_gridder_utils.cpp:1238-1302 with `image_to_flmn` (322-383): the status, the fluxes and
the coordinates.  After a failed check of the image or the fluxes the loops still run. -/
def flmnCall (g : Geo) (im : Data ℂ) (taper : Option (Data ℝ)) (fx : Option (Data ℝ)) (lmn : Data ℝ) (st : Sdp.Status) :
    Option (Sdp.Status × Arr ℝ × Arr ℝ) :=
  let old := (fx.elim ⟨0, fun _ => 0⟩ Data.buf : Arr ℝ)
  if st ≠ .success then some (st, old, lmn.buf)
  else if flmnTypes im.mem.type (fx.elim .double fun f => f.mem.type) lmn.mem.type then
    let vl := checkAndView lmn.mem lmn.mem.type 2 .cpu st
    let vt := taperView .cpu taper vl.2
    if vt.2 ≠ .success then some (vt.2, old, lmn.buf)
    else
      let n0 := (im.mem.shapeDim 0).toNat
      let n1 := (im.mem.shapeDim 1).toNat
      match fx with
      | some f =>
        let vi := checkAndViewConst im.mem im.mem.type 2 .cpu vt.2
        let vf := checkAndView f.mem .double 1 .cpu vi.2
        (loop (flmnAt g n0 n1 vi.1 vf.1 vl.1 im f vt.1) (0, f.buf, lmn.buf) (nest2 n0 n1)).map fun r =>
          (vf.2, r.2.1, r.2.2)
      | none =>
        (loop (fun a (p : Nat × Nat) => putLmn g n0 n1 vl.1 a (n1 * p.1 + p.2) p) lmn.buf (nest2 n0 n1)).map fun a =>
          (.success, old, a)
  else some (.dataType, old, lmn.buf)

/-! ## Visibilities from sources and back -/

/-- The visibility coordinates of a call. -/
structure Coords where
  uvw : Data ℝ
  startChs : Option (Data Int)
  endChs : Option (Data Int)
  offU : Int
  offV : Int
  offW : Int
  theta : ℝ
  wStep : ℝ
  f0 : ℝ
  df : ℝ

/-- Views of the channel ranges if both are given, sdp_gridder_utils.cpp:153-157, 248-252, 1193-1198. -/
def chsView (q : Coords) (loc : MemLocation) (st : Sdp.Status) : Option ((View × Arr Int) × (View × Arr Int)) × Sdp.Status :=
  match q.startChs, q.endChs with
  | some s, some e =>
    let v := checkAndViewConst s.mem .int 1 loc st
    let w := checkAndViewConst e.mem .int 1 loc v.2
    (some ((v.1, s.buf), (w.1, e.buf)), w.2)
  | _, _ => (none, st)

/-- Negation of the skip test, sdp_gridder_utils.cpp:178, 284 and sdp_gridder_utils.cu:102. -/
def activeAt (chs : Option ((View × Arr Int) × (View × Arr Int))) (i : Nat) : Option Bool :=
  match chs with
  | none => some true
  | some c => (c.1.2.read (addr1 c.1.1 i)).bind fun a => (c.2.2.read (addr1 c.2.1 i)).bind fun b => some (decide (a < b))

/-- "Scale subgrid offset values", sdp_gridder_utils.cpp:165-171, 262-268 and sdp_gridder_utils.cu:87-93. -/
def Coords.shift (q : Coords) : ℝ × ℝ × ℝ :=
  if 0 < q.theta then (q.offU / q.theta, q.offV / q.theta, q.offW * q.wStep) else (0, 0, 0)

/-- "Scale and shift uvws", sdp_gridder_utils.cpp:183-188, 294-299 and sdp_gridder_utils.cu:110-115. -/
def coordsAt (q : Coords) (v : View) (i c : Nat) : Option (ℝ × ℝ × ℝ) :=
  let k := (q.f0 + q.df * c) / 299792458
  (q.uvw.buf.read (addr v (i, 0))).bind fun u =>
  (q.uvw.buf.read (addr v (i, 1))).bind fun y =>
  (q.uvw.buf.read (addr v (i, 2))).bind fun w =>
  some (u * k - q.shift.1, y * k - q.shift.2.1, w * k - q.shift.2.2)

/-- Phasor, sdp_gridder_utils.cpp:194-196, 301-303 and sdp_gridder_utils.cu:117-119. -/
def phasorAt (sign : ℝ) (lmn : Arr ℝ) (v : View) (s : Nat) (q : ℝ × ℝ × ℝ) : Option ℂ :=
  (lmn.read (addr v (s, 0))).bind fun l =>
  (lmn.read (addr v (s, 1))).bind fun m =>
  (lmn.read (addr v (s, 2))).bind fun n =>
  let phase := sign * 2 * Real.pi * (l * q.1 + m * q.2.1 + n * q.2.2)
  some ⟨Real.cos phase, Real.sin phase⟩

/-- Source loop, sdp_gridder_utils.cpp:191-198. -/
def sourceSumAt (num : Nat) (flux lmn : Arr ℝ) (vf vl : View) (q : ℝ × ℝ × ℝ) : Option ℂ :=
  loop (fun acc (s : Nat) => (phasorAt (-1) lmn vl s q).bind fun ph =>
    (flux.read (addr1 vf s)).bind fun f => some (acc + (f : ℂ) * ph)) 0 (List.range num)

/-- Row `i`, channel `c` of `dft`, sdp_gridder_utils.cpp:176-203.  The row test is repeated for every channel. -/
def dftThread (q : Coords) (chs : Option ((View × Arr Int) × (View × Arr Int))) (num : Nat) (flux lmn : Arr ℝ)
    (vu vf vl vv : View) (p : Nat × Nat) : Prog ℂ :=
  .need (activeAt chs p.1) fun a =>
    if a then
      .need ((coordsAt q vu p.1 p.2).bind (sourceSumAt num flux lmn vf vl)) fun x =>
      .read (addr vv p) fun y => .write (addr vv p) (y + x) .done
    else .done

/-- `dft`, sdp_gridder_utils.cpp:124-206, for elements of the given types. -/
def dftKernel (td tu tv : MemType) (q : Coords) (flux lmn : Data ℝ) (vis : Mem) (st : Sdp.Status) : Run ℂ :=
  if st ≠ .success then Run.none st
  else
    let c := chsView q .cpu st
    let vu := checkAndViewConst q.uvw.mem tu 2 .cpu c.2
    let vf := checkAndViewConst flux.mem .double 1 .cpu vu.2
    let vl := checkAndViewConst lmn.mem td 2 .cpu vf.2
    let vv := checkAndView vis tv 2 .cpu vl.2
    if vv.2 ≠ .success then Run.none vv.2
    else ⟨.success, nest2 (q.uvw.mem.shapeDim 0).toNat (vis.shapeDim 1).toNat,
      dftThread q c.1 (flux.mem.shapeDim 0).toNat flux.buf lmn.buf vu.1 vf.1 vl.1 vv.1⟩

/-- `sdp_gridder_dft`, sdp_gridder_utils.cpp:1042-1100.  The "type of the fluxes" is that of the coordinates (1061). -/
def dftCall (q : Coords) (flux lmn : Data ℝ) (vis : Mem) (st : Sdp.Status) : Run ℂ :=
  if st ≠ .success then Run.none st
  else
    let fluxType := lmn.mem.type
    if vis.location = .cpu then
      if lmn.mem.type = .double ∧ fluxType = .double ∧ q.uvw.mem.type = .double ∧ vis.type = .complexDouble then
        dftKernel .double .double .complexDouble q flux lmn vis st
      else if lmn.mem.type = .float ∧ fluxType = .double ∧ q.uvw.mem.type = .float ∧ vis.type = .complexFloat then
        dftKernel .float .float .complexFloat q flux lmn vis st
      else Run.none .dataType
    else Run.none .memLocation

/-- Visibility loops, sdp_gridder_utils.cpp:281-307 and sdp_gridder_utils.cu:99-122. -/
def visSumAt (q : Coords) (chs : Option ((View × Arr Int) × (View × Arr Int))) (nu nc : Nat) (vis : Arr ℂ) (lmn : Arr ℝ)
    (vu vv vl : View) (s : Nat) : Option ℂ :=
  loop (fun acc (x : Nat × Nat) => (activeAt chs x.1).bind fun a =>
    if a then
      (coordsAt q vu x.1 x.2).bind fun z =>
      (phasorAt 1 lmn vl s z).bind fun ph =>
      (vis.read (addr vv x)).bind fun v => some (acc + v * ph)
    else some acc) 0 (nest2 nu nc)

/-- Pixel of `idft`, sdp_gridder_utils.cpp:276-316, and of the kernel, sdp_gridder_utils.cu:95-127. -/
def idftThread (q : Coords) (chs : Option ((View × Arr Int) × (View × Arr Int))) (nu nc n : Nat) (vis : Arr ℂ) (lmn : Arr ℝ)
    (taper : Option (View × Arr ℝ)) (vu vv vl vi : View) (p : Nat × Nat) : Prog ℂ :=
  .need (visSumAt q chs nu nc vis lmn vu vv vl (p.1 * n + p.2)) fun x =>
  .need (taperAt taper p) fun t =>
  .read (addr vi p) fun y => .write (addr vi p) (y + x * (t : ℂ)) .done

/-- `idft` on the CPU, sdp_gridder_utils.cpp:211-318. -/
def idftCpu (td tu tv ti : MemType) (q : Coords) (vis : Data ℂ) (lmn : Data ℝ) (taper : Option (Data ℝ)) (im : Mem)
    (st : Sdp.Status) : Run ℂ :=
  if st ≠ .success then Run.none st
  else
    let c := chsView q .cpu st
    let vu := checkAndViewConst q.uvw.mem tu 2 .cpu c.2
    let vv := checkAndViewConst vis.mem tv 2 .cpu vu.2
    let vl := checkAndViewConst lmn.mem td 2 .cpu vv.2
    let vi := checkAndView im ti 2 .cpu vl.2
    let vt := taperView .cpu taper vi.2
    if vt.2 ≠ .success then Run.none vt.2
    else
      let n := (im.shapeDim 0).toNat
      ⟨.success, nest2 n n, idftThread q c.1 (q.uvw.mem.shapeDim 0).toNat (vis.mem.shapeDim 1).toNat n vis.buf lmn.buf vt.1
        vu.1 vv.1 vl.1 vi.1⟩

/-- The launch of `sdp_gridder_idft`, sdp_gridder_utils.cpp:1158-1234, and the kernel, sdp_gridder_utils.cu:60-128, which
takes its extents from the views. -/
def idftGpu (cuda : Bool) (td tu tv ti : MemType) (q : Coords) (vis : Data ℂ) (lmn : Data ℝ) (taper : Option (Data ℝ)) (im : Mem)
    (st : Sdp.Status) : Run ℂ :=
  let vi := checkAndView im ti 2 .gpu st
  let vl := checkAndViewConst lmn.mem td 2 .gpu vi.2
  let vu := checkAndViewConst q.uvw.mem tu 2 .gpu vl.2
  let vv := checkAndViewConst vis.mem tv 2 .gpu vu.2
  let c := chsView q .gpu vv.2
  let vt := taperView .gpu taper c.2
  if vt.2 ≠ .success then Run.none vt.2
  else if cuda = false then Run.none .runtime
  else
    let n := rows vi.1
    ⟨.success, nest2 (blocks (im.shapeDim 0).toNat 16 * 16) (blocks (im.shapeDim 1).toNat 16 * 16), fun p =>
      if p.1 ≥ n ∨ p.2 ≥ n then .done
      else idftThread q c.1 (rows vu.1) (cols vv.1) n vis.buf lmn.buf vt.1 vu.1 vv.1 vl.1 vi.1 p⟩

/-- `sdp_gridder_idft`, sdp_gridder_utils.cpp:1103-1235. -/
def idftCall (cuda : Bool) (q : Coords) (vis : Data ℂ) (lmn : Data ℝ) (taper : Option (Data ℝ)) (im : Mem) (st : Sdp.Status) :
    Run ℂ :=
  if st ≠ .success then Run.none st
  else
    let dbl := lmn.mem.type = .double ∧ im.type = .complexDouble ∧ q.uvw.mem.type = .double ∧ vis.mem.type = .complexDouble
    let flt := lmn.mem.type = .float ∧ im.type = .complexFloat ∧ q.uvw.mem.type = .float ∧ vis.mem.type = .complexFloat
    if vis.mem.location = .cpu then
      if dbl then idftCpu .double .double .complexDouble .complexDouble q vis lmn taper im st
      else if flt then idftCpu .float .float .complexFloat .complexFloat q vis lmn taper im st
      else Run.none .dataType
    else
      if dbl then idftGpu cuda .double .double .complexDouble .complexDouble q vis lmn taper im st
      else if flt then idftGpu cuda .float .float .complexFloat .complexFloat q vis lmn taper im st
      else Run.none .dataType

/-! ## The plan's functions -/

/-- `sdp_mem_create`, sdp_mem.cpp:164-177 with `sdp_mem_alloc` (40-87): allocations do not fail.  New memory is zero on the
CPU; on the GPU nothing reads it before an error. -/
def newArray (cuda : Bool) (t : MemType) (loc : MemLocation) (shape : List Int) (st : Sdp.Status) : Data ℝ × Sdp.Status :=
  let w := createWrapper none t loc shape none st
  let size := w.1.numElements.toNat
  if w.2 ≠ .success ∨ w.1.numElements * t.size = 0 then (⟨w.1, ⟨0, fun _ => 0⟩⟩, w.2)
  else if loc = .cpu ∨ loc = .gpu ∧ cuda = true then (⟨{ w.1 with data := some ⟨0, 0⟩ }, ⟨size, fun _ => 0⟩⟩, w.2)
  else (⟨w.1, ⟨0, fun _ => 0⟩⟩, .memLocation)

/-- A plan, sdp_gridder_direct.cpp:18-28; `pswf` is the window at the pixels of a subgrid. -/
structure Plan where
  geo : Geo
  wStep : ℝ
  pswf : Data ℝ

/-- The plan's field size and w step are those of the coordinates, sdp_gridder_direct.cpp:89-92, 150-155. -/
def Plan.coords (pl : Plan) (q : Coords) : Coords := { q with theta := pl.geo.theta, wStep := pl.wStep }

/-- `sdp_gridder_direct_degrid`, sdp_gridder_direct.cpp:60-97. -/
def degridCall (cuda : Bool) (pl : Plan) (im : Data ℂ) (q : Coords) (vis : Mem) (st : Sdp.Status) : Option (Run ℂ) :=
  if st ≠ .success then some (Run.none st)
  else
    (countCall im st).bind fun num =>
    let fx := newArray cuda .double vis.location [(num.1 : Int)] num.2
    let lmn := newArray cuda q.uvw.mem.type vis.location [(num.1 : Int), 3] fx.2
    (flmnCall pl.geo im (some pl.pswf) (some fx.1) lmn.1 lmn.2).map fun r =>
    dftCall (pl.coords q) ⟨fx.1.mem, r.2.1⟩ ⟨lmn.1.mem, r.2.2⟩ vis r.1

/-- `sdp_gridder_direct_grid`, sdp_gridder_direct.cpp:123-158. -/
def gridCall (cuda : Bool) (pl : Plan) (vis : Data ℂ) (q : Coords) (im : Data ℂ) (st : Sdp.Status) : Option (Run ℂ) :=
  if st ≠ .success then some (Run.none st)
  else
    let lmn := newArray cuda q.uvw.mem.type vis.mem.location [im.mem.queryNumElements, 3] st
    (flmnCall pl.geo im none none lmn.1 lmn.2).map fun r =>
    idftCall cuda (pl.coords q) vis ⟨lmn.1.mem, r.2.2⟩ (some pl.pswf) im.mem r.1

end
end Sdp.Direct
