import Verif.Wstack.Model
import Verif.WTower.Sweep
import Verif.GridCorrect.Model

/-!
# W-stacking with w-towers, the whole calls: model

`/repo/src/ska-sdp-func/grid_data/sdp_grid_wstack_wtower.cpp`:
`sdp_grid_wstack_wtower_degrid_all` (L218-472) and `sdp_grid_wstack_wtower_grid_all`
(L475-736), from image to visibilities and back: w-planes, task list, worker threads, image
correction, FFTs, sub-grids and kernels.  Exact arithmetic, CPU memory, status clear
throughout, complex image.  The argument checks (L241-260), timers and log output are not
modelled.  The `work` step of a thread is atomic: degridding threads share `vis`, where each
visibility belongs to one task (C36), and otherwise only read shared data; gridding threads
share `grid`, which they update in a critical section (L686-690).
-/

namespace Sdp.Wstack

open Sdp.Clamp Sdp.GridUtil Sdp.Fft Sdp.WTower Sdp.GridCorrect

noncomputable section

/-- A pair of channel range arrays. -/
abbrev Ranges := Arr Int × Arr Int

/-- Inputs of a call: the kernel plan (L296-299, L553-556) with its w pattern, image size, visibility
coordinates, `subgrid_frac`, `w_tower_height`, shear, number of threads, and the window values
used in the image correction. -/
structure Setup where
  pl : Plan ℝ ℂ
  pat : Arr ℂ
  size : Nat
  c0 : ℝ
  f0 : ℝ
  df : ℝ
  uvw : Arr ℝ
  numRows : Nat
  numChan : Nat
  frac : ℝ
  height : ℝ
  hu : ℝ
  hv : ℝ
  pswf : Arr ℝ
  win : NWin
  threads : Nat

/-- `eff_sg_size` (L312, L569). -/
def Setup.eff (su : Setup) : Int := ⌊(su.pl.n : ℝ) * su.frac⌋

/-- Geometry of the boxes (L312-314, L569-571, L90-92). -/
def Setup.cfg (su : Setup) : Cfg ℝ where
  c0 := su.c0
  f0 := su.f0
  df := su.df
  uvw := su.uvw
  numRows := su.numRows
  numChan := su.numChan
  dUv := (su.eff : ℝ) / su.pl.theta
  dW := su.height * su.pl.wStep
  vpc := (((su.numRows * su.numChan) / su.threads : Nat) : Int)

/-- Conversion of a `double` to `int`: towards zero. -/
def truncate (x : ℝ) : Int := if 0 ≤ x then ⌊x⌋ else ⌈x⌉

/-- The `int` parameter that receives `iw * w_tower_height` (L372, L434, L680, L708). -/
def Setup.offW (su : Setup) (iw : Int) : Int := truncate ((iw : ℝ) * su.height)

/-- Whole image as a facet (L371-373, L707-709). -/
def Setup.fac (su : Setup) : Fac :=
  ⟨su.size, su.pl.theta, su.pl.wStep, su.hu, su.hv, su.size, su.size, 0, 0⟩

/-- `sdp_gridder_wtower_uvw_degrid_correct` (wtower_uvw.cpp L912-932) with `inverse = false`,
`..._grid_correct` (L1126-1146) with `inverse = true`. -/
def correct (su : Setup) (iw : Int) (inverse : Bool) (o1 o2 : List (Nat × Nat)) (a : Arr ℂ) :
    Option (Arr ℂ) :=
  (pswfCorrect su.fac su.pswf su.win o1 a).bind fun a =>
  wStack su.fac (su.offW iw) inverse o2 a

/-- Orders of the loops over the whole image, and the old contents of the FFT work space. -/
structure ImgSched where
  px : List (Nat × Nat)
  c1 : List (Nat × Nat)
  c2 : List (Nat × Nat)
  o1 : List Nat
  o2 : List Nat
  ph : List (Nat × Nat)
  tmp : Arr ℂ

/-- The grid of a w-plane when degridding (L366-375). -/
def planeImage (su : Setup) (sc : ImgSched) (iw : Int) (img : Arr ℂ) : Option (Arr ℂ) :=
  (accumScale su.size sc.px ⟨su.size * su.size, fun _ => 0⟩ img none 0).bind fun g =>
  (correct su iw false sc.c1 sc.c2 g).bind fun g =>
  (execShift su.size su.size sc.o1 sc.o2 sc.ph 1 false g sc.tmp).map fun r => r.1

/-- What follows the parallel region when gridding (L702-711). -/
def planeAdd (su : Setup) (sc : ImgSched) (iw : Int) (grid img : Arr ℂ) : Option (Arr ℂ) :=
  (execShift su.size su.size sc.o1 sc.o2 sc.ph 0 true grid sc.tmp).bind fun r =>
  (correct su iw true sc.c1 sc.c2 r.1).bind fun g =>
  accumScale su.size sc.px img g none 0

/-- A kernel call: the task and the channel ranges passed. -/
abbrev Event := Task × Ranges

/-- Observation passed to the kernel (L433-437, L677-681). -/
def taskObs (su : Setup) (iw : Int) (e : Event) : Obs ℝ where
  c0 := su.c0
  f0 := su.f0
  df := su.df
  uvw := su.uvw
  startChs := e.2.1
  endChs := e.2.2
  numChan := su.numChan
  offU := e.1.iu * su.eff
  offV := e.1.iv * su.eff
  offW := su.offW iw

/-- Orders of the loops of one task, and the old contents of all buffers. -/
structure TaskSched where
  px : List (Nat × Nat)
  o1 : List Nat
  o2 : List Nat
  ph : List (Nat × Nat)
  s0 : Nat → Sched
  s1 : Nat → Sched
  sub : Arr ℂ
  tmp : Arr ℂ
  tower : Arr ℂ
  wImg : Arr ℂ
  wTmp : Arr ℂ

/-- Degridding one task (L422-437): cut out, inverse FFT, kernel. -/
def degridTask (su : Setup) (iw : Int) (grid : Arr ℂ) (vis : Arr ℂ) (x : TaskSched × Event) :
    Option (Arr ℂ) :=
  (subgridCut su.size su.size su.pl.n su.pl.n (x.2.1.iu * su.eff) (x.2.1.iv * su.eff) grid x.1.px
    x.1.sub).bind fun s =>
  (execShift su.pl.n su.pl.n x.1.o1 x.1.o2 x.1.ph 0 true s x.1.tmp).bind fun r =>
  (degridCall su.pl (taskObs su iw x.2) su.numRows su.pat r.1 x.1.s0 x.1.s1 x.1.tower x.1.wImg
    x.1.wTmp vis).map fun r => r.1

/-- `sg_factor` (L572). -/
def Setup.factor (su : Setup) : ℂ := ((su.size : ℂ) / (su.pl.n : ℂ)) ^ 2

/-- Gridding one task (L672-690): kernel into a cleared sub-grid, FFT, add to the grid. -/
def gridTask (su : Setup) (iw : Int) (vis : Arr ℂ) (grid : Arr ℂ) (x : TaskSched × Event) :
    Option (Arr ℂ) :=
  (gridCall su.pl (taskObs su iw x.2) su.numRows su.pat vis x.2.1.rowStart x.2.1.rowEnd x.1.s0 x.1.s1
    x.1.wImg x.1.wTmp ⟨su.pl.n * su.pl.n, fun _ => 0⟩).bind fun r =>
  (execShift su.pl.n su.pl.n x.1.o1 x.1.o2 x.1.ph 1 false r.1 x.1.tmp).bind fun r =>
  subgridAdd su.size su.size su.pl.n su.pl.n (-x.2.1.iu * su.eff) (-x.2.1.iv * su.eff) r.1
    su.factor x.1.px grid

/-- Work on one task up to the kernel call (L400-420, L650-670), which is logged as an event if
there is anything to do. -/
def workKernel (cfg : Cfg ℝ) (w buf : Ranges) (t : Task) : Option (Ranges × Int × List Event) :=
  (selectUv cfg w t.iu t.iv buf t.rowStart t.rowEnd).bind fun b =>
  (sumDiff b.2 b.1 t.rowStart t.rowEnd).bind fun v =>
  some (b, v, if v = 0 then [] else [(t, b)])

/-- One iteration of the counting loop (L98-120), box `x.2` by thread `x.1`.  State: the private
buffers, and the tasks by box. -/
def countStep (cfg : Cfg ℝ) (w : Ranges) (st : List Ranges × (Int × Int → Task))
    (x : Nat × (Int × Int)) : Option (List Ranges × (Int × Int → Task)) :=
  st.1[x.1]?.bind fun buf =>
  (selectUv cfg w x.2.1 x.2.2 buf (-1) (-1)).bind fun b =>
  (sumDiff b.2 b.1 (-1) (-1)).bind fun v =>
  some (st.1.set x.1 b,
    fun q => if q = x.2 then mkTask x.2.1 x.2.2 v cfg.numRows cfg.vpc else st.2 q)

/-- `count_visibilities` (L66-135): the boxes are shared out among the threads; `order` lists
them with the thread numbers in the order in which they are done.  The vector of tasks is indexed
by the box here; before the loop it holds default tasks (L95). -/
def countAll (cfg : Cfg ℝ) (w : Ranges) (iu iv : Int × Int) (order : List (Nat × (Int × Int)))
    (bufs : List Ranges) : Option (List Ranges × List Task) :=
  (loop (countStep cfg w) (bufs, fun _ => Task.blank) order).map fun st =>
    (st.1, (boxes iu iv).map st.2)

/-- How a call, or part of it, ends: normally, by `exit(1)` (L442-448, L694-700), or with
undefined behaviour, which here includes a thread that cannot continue. -/
inductive Out (α : Type) where
  | done (a : α)
  | abort
  | fault


/-- What survives from one w-plane to the next: `start_ch_w`/`end_ch_w`, the private range
buffers, and the visibilities (degridding) or the image (gridding). -/
structure Carry where
  out : Ranges
  bufs : List Ranges
  data : Arr ℂ

/-- One w-plane (L350-449, L608-713).  `act sc es data` is what the plane does to the
visibilities or the image, given the kernel calls `es` in order, each with its loop orders; it
contains the steps before and after the parallel region too. -/
inductive Plane (su : Setup) (act : ImgSched → Int → List (TaskSched × Event) → Arr ℂ → Option (Arr ℂ))
    (okI : ImgSched → Prop) (okT : Event → TaskSched → Prop)
    (iu iv : Int × Int) (iw : Int) (st : Carry) : Out Carry → Prop
  | noSelect (h : (selectW su.cfg iw st.out).bind
      (fun w => sumDiff w.2 w.1 (-1) (-1)) = none) : Plane su act okI okT iu iv iw st .fault
  | skip (w : Ranges) (hw : selectW su.cfg iw st.out = some w)
      (hv : sumDiff w.2 w.1 (-1) (-1) = some 0) :
      Plane su act okI okT iu iv iw st (.done { st with out := w })
  | noCount (w : Ranges) (numVis : Int) (order : List (Nat × (Int × Int)))
      (hw : selectW su.cfg iw st.out = some w)
      (hv : sumDiff w.2 w.1 (-1) (-1) = some numVis) (hne : numVis ≠ 0)
      (ho : (order.map Prod.snd).Perm (boxes iu iv)) (hth : ∀ x ∈ order, x.1 < st.bufs.length)
      (hc : countAll su.cfg w iu iv order st.bufs = none) :
      Plane su act okI okT iu iv iw st .fault
  | stuck (w : Ranges) (numVis : Int) (order : List (Nat × (Int × Int))) (bufs : List Ranges)
      (tasks : List Task) (m : Nat) (s : Par Ranges Event)
      (hw : selectW su.cfg iw st.out = some w)
      (hv : sumDiff w.2 w.1 (-1) (-1) = some numVis) (hne : numVis ≠ 0)
      (ho : (order.map Prod.snd).Perm (boxes iu iv)) (hth : ∀ x ∈ order, x.1 < st.bufs.length)
      (hc : countAll su.cfg w iu iv order st.bufs = some (bufs, tasks))
      (hr : Run (workKernel su.cfg w) m (Par.start tasks bufs) s) (hf : ¬ s.final)
      (hs : ∀ s', ¬ Step (workKernel su.cfg w) s s') :
      Plane su act okI okT iu iv iw st .fault
  | run (w : Ranges) (numVis : Int) (order : List (Nat × (Int × Int))) (bufs : List Ranges)
      (tasks : List Task) (m : Nat) (s : Par Ranges Event) (sc : ImgSched)
      (es : List (TaskSched × Event))
      (hw : selectW su.cfg iw st.out = some w)
      (hv : sumDiff w.2 w.1 (-1) (-1) = some numVis) (hne : numVis ≠ 0)
      (ho : (order.map Prod.snd).Perm (boxes iu iv)) (hth : ∀ x ∈ order, x.1 < st.bufs.length)
      (hc : countAll su.cfg w iu iv order st.bufs = some (bufs, tasks))
      (hr : Run (workKernel su.cfg w) m (Par.start tasks bufs) s) (hf : s.final)
      (hsc : okI sc) (hes : es.map Prod.snd = s.handled) (hok : ∀ x ∈ es, okT x.2 x.1) :
      Plane su act okI okT iu iv iw st
        (if s.count ≠ numVis then .abort else
          match act sc iw es st.data with
          | none => .fault
          | some d => .done ⟨w, s.threads.map Thread.buf, d⟩)

/-- The loop over w-planes (L350, L608), ended by the first plane that does not end normally. -/
inductive Planes (su : Setup)
    (act : ImgSched → Int → List (TaskSched × Event) → Arr ℂ → Option (Arr ℂ))
    (okI : ImgSched → Prop) (okT : Event → TaskSched → Prop)
    (iu iv : Int × Int) : List Int → Carry → Out Carry → Prop
  | nil (st : Carry) : Planes su act okI okT iu iv [] st (.done st)
  | cons (iw : Int) (l : List Int) (st st' : Carry) (o : Out Carry)
      (h : Plane su act okI okT iu iv iw st (.done st')) (t : Planes su act okI okT iu iv l st' o) :
      Planes su act okI okT iu iv (iw :: l) st o
  | abort (iw : Int) (l : List Int) (st : Carry)
      (h : Plane su act okI okT iu iv iw st .abort) :
      Planes su act okI okT iu iv (iw :: l) st .abort
  | fault (iw : Int) (l : List Int) (st : Carry)
      (h : Plane su act okI okT iu iv iw st .fault) :
      Planes su act okI okT iu iv (iw :: l) st .fault

/-- A plane when degridding (L365-449). -/
def degridAct (su : Setup) (img : Arr ℂ) (sc : ImgSched) (iw : Int)
    (es : List (TaskSched × Event)) (vis : Arr ℂ) : Option (Arr ℂ) :=
  (planeImage su sc iw img).bind fun g => loop (degridTask su iw g) vis es

/-- A plane when gridding (L623-713). -/
def gridAct (su : Setup) (vis : Arr ℂ) (sc : ImgSched) (iw : Int)
    (es : List (TaskSched × Event)) (img : Arr ℂ) : Option (Arr ℂ) :=
  (loop (gridTask su iw vis) ⟨su.size * su.size, fun _ => 0⟩ es).bind fun g =>
  planeAdd su sc iw g img

/-- Fresh range buffers: zero (`sdp_mem_create`, L280-281, L306-307, and alike L537-538, L563-564). -/
def freshRanges (su : Setup) : Ranges := (⟨su.numRows, fun _ => 0⟩, ⟨su.numRows, fun _ => 0⟩)

/-- A whole call with the given action on zeroed output of `n` values (L338-341, L596-599). -/
inductive Whole (su : Setup)
    (act : ImgSched → Int → List (TaskSched × Event) → Arr ℂ → Option (Arr ℂ))
    (okI : ImgSched → Prop) (okT : Event → TaskSched → Prop) (n : Nat) :
    Out Carry → Prop
  | noBounds (h : indices su.cfg = none) : Whole su act okI okT n .fault
  | run (iw iu iv : Int × Int) (o : Out Carry) (h : indices su.cfg = some (iw, iu, iv))
      (hr : Planes su act okI okT iu iv (rowsOf iw.1 (iw.2 + 1))
        ⟨freshRanges su, List.replicate su.threads (freshRanges su), ⟨n, fun _ => 0⟩⟩ o) :
      Whole su act okI okT n o

/-- The loops over the whole image visit every index once. -/
structure ImgSched.Ok (su : Setup) (sc : ImgSched) : Prop where
  px : sc.px.Perm (nest2 su.size su.size)
  c1 : sc.c1.Perm (nest2 su.size su.size)
  c2 : sc.c2.Perm (nest2 su.size su.size)
  o1 : sc.o1.Perm (List.range su.size)
  o2 : sc.o2.Perm (List.range su.size)
  ph : sc.ph.Perm (nest2 su.size su.size)
  tmp : sc.tmp.size = su.size * su.size

/-- The loops of a task visit every index once (rows: the rows of the task), and the buffers have
the right sizes. -/
structure TaskSched.Ok (su : Setup) (e : Event) (ts : TaskSched) : Prop where
  px : ts.px.Perm (nest2 su.pl.n su.pl.n)
  o1 : ts.o1.Perm (List.range su.pl.n)
  o2 : ts.o2.Perm (List.range su.pl.n)
  ph : ts.ph.Perm (nest2 su.pl.n su.pl.n)
  s0 : ∀ j, (ts.s0 j).o1.Perm (List.range su.pl.n) ∧ (ts.s0 j).o2.Perm (List.range su.pl.n) ∧
    (ts.s0 j).px.Perm (nest2 su.pl.n su.pl.n) ∧
    (ts.s0 j).rows.Perm (rowList su.numRows e.1.rowStart e.1.rowEnd)
  s1 : ∀ j, (ts.s1 j).o1.Perm (List.range su.pl.n) ∧ (ts.s1 j).o2.Perm (List.range su.pl.n) ∧
    (ts.s1 j).px.Perm (nest2 su.pl.n su.pl.n) ∧
    (ts.s1 j).rows.Perm (rowList su.numRows e.1.rowStart e.1.rowEnd)
  sub : ts.sub.size = su.pl.n * su.pl.n
  tmp : ts.tmp.size = su.pl.n * su.pl.n
  tower : ts.tower.size = su.pl.wSupport * (su.pl.n * su.pl.n)
  wImg : ts.wImg.size = su.pl.n * su.pl.n
  wTmp : ts.wTmp.size = su.pl.n * su.pl.n

/-- `sdp_grid_wstack_wtower_degrid_all` (L218-472): possible results for image `img`. -/
def DegridAll (su : Setup) (img : Arr ℂ) (o : Out Carry) : Prop :=
  Whole su (degridAct su img) (ImgSched.Ok su) (TaskSched.Ok su) (su.numRows * su.numChan) o

/-- `sdp_grid_wstack_wtower_grid_all` (L475-736): possible results for visibilities `vis`. -/
def GridAll (su : Setup) (vis : Arr ℂ) (o : Out Carry) : Prop :=
  Whole su (gridAct su vis) (ImgSched.Ok su) (TaskSched.Ok su) (su.size * su.size) o

end
end Sdp.Wstack
