import Mathlib.Algebra.Ring.Defs
import Verif.Common.Launch

/-!
# Station beam: model

`/repo/src/ska-sdp-func/station_beam/sdp_station.cpp` (CPU kernel, L54-165) and `sdp_station.cu`
(GPU kernel).  Exact arithmetic: coordinates in a ring `K`, weights and beams in a ring `C`; `int`
does not overflow.  `phasor t` is `cos t + i sin t`.
-/

namespace Sdp.Station

/-- Kernel arguments; `none` is a NULL pointer. -/
structure Args (K C : Type) where
  wavenumber : K
  numIn : Nat
  weights : Arr C
  x : Arr K
  y : Arr K
  z : Arr K
  offPoints : Int
  numOut : Nat
  px : Arr K
  py : Arr K
  pz : Option (Arr K)
  idx : Option (Arr Int)
  data : Option (Arr C)
  offOut : Int
  norm : C
  evalX : Bool
  evalY : Bool
  /-- `NUM_POL == 4`, otherwise 1. -/
  polarised : Bool
  phasor : K → C

variable {K C : Type} [Ring K] [Ring C]

/-- `NUM_POL`. -/
def Args.pols (a : Args K C) : Nat := if a.polarised then 4 else 1

/-- The polarisations that are evaluated (sdp_station.cpp L101-117, L147-163). -/
def Args.enabled (a : Args K C) : List Nat :=
  if a.polarised then (if a.evalX then [0, 1] else []) ++ (if a.evalY then [2, 3] else []) else [0]

/-- `xo, yo, zo` (sdp_station.cpp L87-90, sdp_station.cu L39-45). -/
def point (a : Args K C) (o : Nat) : Option (K × K × K) :=
  (a.px.read (o + a.offPoints)).bind fun x =>
  (a.py.read (o + a.offPoints)).bind fun y =>
  (match a.pz with
    | none => some 0
    | some pz => (pz.read (o + a.offPoints)).map fun z => a.wavenumber * z).map fun z =>
  (a.wavenumber * x, a.wavenumber * y, z)

/-- What is known of an element: weight, coordinates and row of the element beam. -/
structure Elem (K C : Type) where
  w : C
  x : K
  y : K
  z : K
  row : Int

/-- `data_idx ? data_idx[i] : i`. -/
def row (a : Args K C) (i : Nat) : Option Int :=
  match a.idx with
  | none => some i
  | some d => d.read i

/-- The reads of one element on the CPU (L95-100, L124-126): the index only with element beams. -/
def elemCpu (a : Args K C) (i : Nat) : Option (Elem K C) :=
  (a.x.read i).bind fun x =>
  (a.y.read i).bind fun y =>
  (a.z.read i).bind fun z =>
  (a.weights.read i).bind fun w =>
  (match a.data with
    | none => some 0
    | some _ => row a i).map fun r => ⟨w, x, y, z, r⟩

/-- The contribution of one element to `out` (sdp_station.cpp L91-145, sdp_station.cu L70-134). -/
def accum (a : Args K C) (o : Nat) (p : K × K × K) (out : Arr C) (e : Elem K C) : Option (Arr C) :=
  let phase := p.1 * e.x + p.2.1 * e.y + p.2.2 * e.z
  let wp := a.phasor phase * e.w
  loop (fun (out : Arr C) (k : Nat) =>
    match a.data with
    | none => out.addAt (k : Int) wp
    | some d => (d.read (a.pols * (e.row * a.numOut + o) + k)).bind fun v => out.addAt (k : Int) (wp * v))
    out a.enabled

/-- The output of one point (sdp_station.cpp L146-163, sdp_station.cu L138-164). -/
def store (a : Args K C) (o : Nat) (out output : Arr C) : Option (Arr C) :=
  loop (fun (output : Arr C) (k : Nat) =>
    (out.read (k : Int)).bind fun v => output.write (a.pols * (o + a.offOut) + k) (v * a.norm))
    output a.enabled

/-- One iteration of the loop over points (sdp_station.cpp L76-164). -/
def body (a : Args K C) (output : Arr C) (o : Nat) : Option (Arr C) :=
  (point a o).bind fun p =>
  (loop (fun (out : Arr C) (i : Nat) => (elemCpu a i).bind (accum a o p out)) ⟨4, fun _ => 0⟩
    (List.range a.numIn)).bind fun out => store a o out output

/-- `sdp_station_beam_dft` (sdp_station.cpp L54-165) with the points in the given order. -/
def cpu (a : Args K C) (output : Arr C) (order : List Nat) : Option (Arr C) :=
  loop (body a) output order

/-! ## GPU -/

/-- The reads of one element on the GPU (sdp_station.cu L60-65). -/
def elemGpu (a : Args K C) (i : Nat) : Option (Elem K C) :=
  (a.weights.read i).bind fun w =>
  (a.x.read i).bind fun x =>
  (a.y.read i).bind fun y =>
  (row a i).bind fun r =>
  (a.z.read i).map fun z => ⟨w, x, y, z, r⟩

/-- The load of one entry of shared memory (L58-66); the five arrays form one. -/
def load (a : Args K C) (j : Nat) (smem : Arr (Elem K C)) (t : Nat) : Option (Arr (Elem K C)) :=
  (elemGpu a (j + t)).bind fun e => smem.write (t : Int) e

/-- `chunk_size` (L53-57). -/
def chunk (a : Args K C) (max j : Nat) : Nat := if max < a.numIn - j then max else a.numIn - j

/-- Entries loaded by thread `tid` of `T` (L58). -/
def loads (T n tid : Nat) : List Nat := (List.range (blocks (n - tid) T)).map fun q : Nat => tid + T * q

/-- The loop of one thread over the entries of a chunk (L68-135). -/
def accumChunk (a : Args K C) (o : Nat) (p : K × K × K) (smem : Arr (Elem K C)) (n : Nat) (out : Arr C) :
    Option (Arr C) :=
  loop (fun (out : Arr C) (i : Nat) => (smem.read (i : Int)).bind (accum a o p out)) out (List.range n)

/-- State of a block: shared memory and `out` of each thread. -/
structure Block (K C : Type) where
  smem : Arr (Elem K C)
  out : Nat → Arr C

/-- One round of a block (L51-137): all loads in some order, a barrier, all threads in some order,
a barrier.  `first` is the index of the first point of the block. -/
def round (a : Args K C) (max first : Nat) (loadOrder : Nat → List Nat) (threads : List Nat)
    (b : Block K C) (j : Nat) : Option (Block K C) :=
  (loop (load a j) b.smem (loadOrder j)).bind fun smem =>
  (loop (fun (out : Nat → Arr C) (tid : Nat) =>
    if first + tid < a.numOut then
      (point a (first + tid)).bind fun p =>
      (accumChunk a (first + tid) p smem (chunk a max j) (out tid)).map fun r =>
        Function.update out tid r
    else some out) b.out threads).map fun out => ⟨smem, out⟩

/-- A block (L31-165); every thread of a point reads the point first (L39-45). -/
def block (a : Args K C) (max first : Nat) (loadOrder : Nat → List Nat) (threads : List Nat)
    (smem : Arr (Elem K C)) (output : Arr C) : Option (Arr C) :=
  (loop (fun (_ : Unit) (tid : Nat) =>
    if first + tid < a.numOut then (point a (first + tid)).map fun _ => () else some ()) () threads).bind
    fun _ =>
  (loop (round a max first loadOrder threads) ⟨smem, fun _ => ⟨4, fun _ => 0⟩⟩
    ((List.range (blocks a.numIn max)).map fun q : Nat => max * q)).bind fun b =>
  loop (fun (output : Arr C) (tid : Nat) =>
    if first + tid < a.numOut then store a (first + tid) (b.out tid) output else some output)
    output threads

end Sdp.Station
