import Verif.Common.Team
import Verif.GridUtil.Subgrid
import Verif.Direct.Model
import Verif.WTower.Model
import Verif.Station.Model
import Verif.Dft.Model
import Verif.Fft.Model
import Verif.GridCorrect.Model

/-!
# The OpenMP loops of the library

One definition for one iteration of each `#pragma omp parallel for`: a program of single reads and writes of
the array that the loop writes.  Arrays that the loop only reads, and the arithmetic, are those of the models
of the serial functions.  Schedules are arbitrary (`Verif/Common/Team.lean`).
-/

namespace Sdp.Omp
open Race

section
variable {R : Type} [CommSemiring R]

/-- Row `i` of `subgrid_add`, sdp_gridder_utils.cpp:574-597. -/
def addRow (gu gv su sv : Nat) (offU offV : Int) (sub : Arr R) (factor : R) (i : Nat) : Prog R :=
  .seqAll ((List.range sv).map fun (j : Nat) =>
    .need (GridUtil.wrap gu (GridUtil.place gu su (-offU) i)) fun i1 =>
    .need (GridUtil.wrap gv (GridUtil.place gv sv (-offV) j)) fun j1 =>
    .need (sub.read (index2 sv i j)) fun x => .add (index2 gv i1 j1) (x * factor))

/-- Row `i` of `subgrid_cut_out`, sdp_gridder_utils.cpp:623-644. -/
def cutRow (gu gv su sv : Nat) (offU offV : Int) (grid : Arr R) (i : Nat) : Prog R :=
  .seqAll ((List.range sv).map fun (j : Nat) =>
    .need (GridUtil.wrap gu (GridUtil.place gu su offU i)) fun i1 =>
    .need (GridUtil.wrap gv (GridUtil.place gv sv offV j)) fun j1 =>
    .need (grid.read (index2 gv i1 j1)) fun x => .store (index2 sv i j) x)
end

/-- Row `j` of the loop over plane `k` in `shift_subgrids`, sdp_gridder_utils.cpp:541-547. -/
def shiftRow {M : Type} (n nx k j : Nat) : Prog M :=
  .seqAll ((List.range n).map fun (i : Nat) =>
    .read (index3 n nx (k + 1 : Nat) j i) fun x => .store (index3 n nx k j i) x)

/-- The loops of `shift_subgrids` over its planes, sdp_gridder_utils.cpp:538-548. -/
def shiftRegions {M : Type} (planes n nx : Nat) (team : Nat → List (List Nat)) : List (Region M) :=
  (List.range (planes - 1)).map fun k => ⟨shiftRow n nx k, n, team k⟩

noncomputable section

/-- Row `i` of `dft`, sdp_gridder_utils.cpp:182-210 (the row test is repeated for every channel, as in
`Direct.dftBody`). -/
def dftRow (o : Direct.Obs) (flux lmn : Arr ℝ) (i : Nat) : Prog ℂ :=
  .seqAll ((List.range o.numChan).map fun (c : Nat) =>
    .need (o.active i) fun act =>
    if act then
      .need (o.coords i c) fun q =>
      .need (Direct.sourceSum lmn flux q) fun v => .add (index2 o.numChan i c) v
    else .done)

/-- Pixel `it` of `idft`, sdp_gridder_utils.cpp:274-312; `collapse(2)` makes one loop of the two loops over
pixels. -/
def idftPixel (o : Direct.Obs) (n : Nat) (vis : Arr ℂ) (lmn : Arr ℝ) (taper : Option (Arr ℝ)) (it : Nat) : Prog ℂ :=
  .need (Direct.visSum o vis lmn (n * (it / n) + it % n)) fun x =>
  .need (Direct.taperVal taper (it / n, it % n)) fun t =>
  .add (index2 n (it / n : Nat) (it % n : Nat)) (x * (t : ℂ))

/-- Row `i1` of `fft_phase`, sdp_fft.cpp:1055-1062. -/
def phaseRow (n2 i1 : Nat) : Prog ℂ :=
  .seqAll ((List.range n2).map fun (i2 : Nat) =>
    .read (index2 n2 i1 i2) fun v =>
      .store (index2 n2 i1 i2) (v * ((1 - (((i1 + i2) &&& 1) <<< 1 : Nat) : Int) : ℂ)))

/-- Row `i1` of `fft_norm`, sdp_fft.cpp:974-980. -/
def normRow (n1 n2 i1 : Nat) : Prog ℂ :=
  .seqAll ((List.range n2).map fun (i2 : Nat) =>
    .read (index2 n2 i1 i2) fun v => .store (index2 n2 i1 i2) (v * (1 / (n1 * n2))))

/-- Row `il` of `grid_corr_w_stack`, sdp_gridder_grid_correct.cpp:99-113. -/
def wStackRow (f : GridCorrect.Fac) (wOffset : Int) (inverse : Bool) (il : Nat) : Prog ℂ :=
  .seqAll ((List.range f.nm).map fun (im : Nat) =>
    .read (index2 f.nm il im) fun x =>
      .store (index2 f.nm il im) (x * GridCorrect.wFactor f wOffset inverse (il, im)))

/-- Row `il` of `grid_corr_pswf`, sdp_gridder_grid_correct.cpp:50-72. -/
def pswfRow (f : GridCorrect.Fac) (pswf : Arr ℝ) (win : GridCorrect.NWin) (il : Nat) : Prog ℂ :=
  .seqAll ((List.range f.nm).map fun (im : Nat) =>
    .need (pswf.read (GridCorrect.pixPos f.nl f.offL il + ((f.imageSize / 2 : Nat) : Int))) fun pl =>
    .need (pswf.read (GridCorrect.pixPos f.nm f.offM im + ((f.imageSize / 2 : Nat) : Int))) fun pm =>
    .read (index2 f.nm il im) fun x =>
      .store (index2 f.nm il im) (x * ((1 / (pl * pm * GridCorrect.nWindow f win (il, im)) : ℝ) : ℂ)))

/-- Storing the local visibilities of one time, channel and baseline, sdp_dft.cpp:86-94 and 323-331. -/
def storeVis (D : Dft.Dims) (t b c : Nat) (loc : Arr ℂ) : Prog ℂ :=
  .seqAll ((List.range D.pols).map fun (p : Nat) =>
    .need (loc.read p) fun x => .store (index4 D.baselines D.channels D.pols t b c p) x)

/-- Baseline `b` of the loop for time `t` and channel `c` in `dft_point_v00`, sdp_dft.cpp:43-95. -/
def dftBaseline (D : Dft.Dims) (dirs : Arr ℝ) (flux : Arr ℂ) (uvw : Arr ℝ) (t c b : Nat) : Prog ℂ :=
  .need (uvw.read (index4 D.baselines D.channels 3 t b c 0)) fun u =>
  .need (uvw.read (index4 D.baselines D.channels 3 t b c 0 + 1)) fun v =>
  .need (uvw.read (index4 D.baselines D.channels 3 t b c 0 + 2)) fun w =>
  .need (Dft.localVis D dirs flux 1 u v w c) fun loc => storeVis D t b c loc

/-- The loops of `dft_point_v00` over baselines, one after the other, sdp_dft.cpp:38-97. -/
def dftRegions (D : Dft.Dims) (dirs : Arr ℝ) (flux : Arr ℂ) (uvw : Arr ℝ) (team : Nat × Nat → List (List Nat)) :
    List (Region ℂ) :=
  (nest2 D.times D.channels).map fun x => ⟨dftBaseline D dirs flux uvw x.1 x.2, D.baselines, team x⟩

/-- Baseline `b` of the loop for time `t` in `dft_point_v01`, sdp_dft.cpp:276-333 (the uvw load is repeated
for every channel, as in `Dft.bodyV01`). -/
def dftBaseline1 (D : Dft.Dims) (dirs : Arr ℝ) (flux : Arr ℂ) (uvw : Arr ℝ) (f0 df : ℝ) (t b : Nat) : Prog ℂ :=
  .seqAll ((List.range D.channels).map fun (c : Nat) =>
    .need (uvw.read (index3 D.baselines 3 t b 0)) fun u =>
    .need (uvw.read (index3 D.baselines 3 t b 0 + 1)) fun v =>
    .need (uvw.read (index3 D.baselines 3 t b 0 + 2)) fun w =>
    .need (Dft.localVis D dirs flux ((f0 + c * df) / 299792458) u v w c) fun loc => storeVis D t b c loc)

/-- The loops of `dft_point_v01` over baselines, one after the other, sdp_dft.cpp:272-334. -/
def dftRegions1 (D : Dft.Dims) (dirs : Arr ℝ) (flux : Arr ℂ) (uvw : Arr ℝ) (f0 df : ℝ)
    (team : Nat → List (List Nat)) : List (Region ℂ) :=
  (List.range D.times).map fun t => ⟨dftBaseline1 D dirs flux uvw f0 df t, D.baselines, team t⟩

end

section
variable {K : Type} [Field K] [LinearOrder K] [IsStrictOrderedRing K] [FloorRing K]
variable {R : Type} [CommRing R]

/-- Row `i` of `degrid`, sdp_gridder_wtower_uvw.cpp:87-174. -/
def degridRow (pl : WTower.Plan K R) (ob : WTower.Obs K) (p : Int) (T : Arr R) (i : Nat) : Prog R :=
  .need (WTower.rowSel pl ob p i) fun r =>
  .seqAll ((Clamp.rowsOf r.1 r.2).map fun c =>
    .need (WTower.coords pl ob p i c) fun q =>
    .need (WTower.cell pl q) fun cl =>
    .need (WTower.degridVis pl cl T) fun x =>
    .need (WTower.visIdx ob i c) fun j => .add j x)
end

section
variable {K C : Type} [Ring K] [Ring C]

/-- Point `o` of `sdp_station_beam_dft`, sdp_station.cpp:77-164. -/
def beamPoint (a : Station.Args K C) (o : Nat) : Prog C :=
  .need (Station.point a o) fun p =>
  .need (loop (fun (out : Arr C) (i : Nat) => (Station.elemCpu a i).bind (Station.accum a o p out))
    ⟨4, fun _ => 0⟩ (List.range a.numIn)) fun out =>
  .seqAll (a.enabled.map fun (k : Nat) =>
    .need (out.read (k : Int)) fun v => .store (a.pols * (o + a.offOut) + k) (v * a.norm))
end

end Sdp.Omp
