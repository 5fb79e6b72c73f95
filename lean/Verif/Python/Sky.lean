import Mathlib.Data.List.Basic

/-!
# Sky coordinates (property C106)

The C object `sdp_SkyCoord` and the Python class `SkyCoord`, under any sequence of calls on any
number of objects.
-/

namespace Verif.Python.Sky

/-- /repo/src/ska-sdp-func/utility/sdp_sky_coord.c L9-L14 (`struct sdp_SkyCoord`). The type is a
C string: a list of characters other than NUL. `K` stands for `double`. -/
structure Coord (K : Type) where
  type : List Char
  epoch : K
  coords : List K
deriving DecidableEq

/-- A C string ends at its first NUL.
/repo/src/ska-sdp-func/utility/sdp_sky_coord.c L25-L27 (`strlen`, `memcpy`). -/
def cString (s : List Char) : List Char := s.takeWhile (fun c => c ≠ Char.ofNat 0)

variable {K : Type} [Zero K] [NatCast K]

/-- /repo/src/ska-sdp-func/utility/sdp_sky_coord.c L17-L33 (`sdp_sky_coord_create`).
Simplified: memory is available and the string is not a null pointer. -/
def create (type : List Char) (c0 c1 c2 : K) : Coord K :=
  { type := cString type, epoch := ((2000 : Nat) : K), coords := [c0, c1, c2] }

/-- /repo/src/ska-sdp-func/utility/sdp_sky_coord.c L44-L47 (`sdp_sky_coord_epoch`); `none` is a
null pointer. -/
def epoch (c : Option (Coord K)) : K :=
  match c with
  | some c => c.epoch
  | none => 0

/-- /repo/src/ska-sdp-func/utility/sdp_sky_coord.c L50-L54 (`sdp_sky_coord_set_epoch`). -/
def setEpoch (c : Option (Coord K)) (e : K) : Option (Coord K) :=
  match c with
  | some c => some { c with epoch := e }
  | none => none

/-- /repo/src/ska-sdp-func/utility/sdp_sky_coord.c L57-L60 (`sdp_sky_coord_type`). -/
def type (c : Option (Coord K)) : Option (List Char) :=
  match c with
  | some c => some c.type
  | none => none

/-- /repo/src/ska-sdp-func/utility/sdp_sky_coord.c L63-L66 (`sdp_sky_coord_value`). -/
def value (c : Option (Coord K)) (dim : Int) : K :=
  match c with
  | some c => if 0 ≤ dim ∧ dim < 3 then c.coords.getD dim.toNat 0 else 0
  | none => 0

/-- What a program does with coordinates; objects are numbered in the order they are made. -/
inductive Op (K : Type)
  /-- `SkyCoord(type, c0, c1, c2)` -/
  | make (type : List Char) (c0 c1 c2 : K)
  /-- `SkyCoord(other)` -/
  | copy (other : Nat)
  /-- `coord.set_epoch(e)` -/
  | setEpoch (x : Nat) (e : K)

/-- One operation on the objects made so far.
/repo/src/ska_sdp_func/utility/sky_coord.py L34-L42 (copy of an existing `SkyCoord`), L59-L70
(`len(args) >= 3`), L87-L93 (`set_epoch`). An operation on an object that does not exist does
nothing. -/
def step (objs : List (Coord K)) : Op K → List (Coord K)
  | .make t c0 c1 c2 => objs ++ [create t c0 c1 c2]
  | .copy x =>
    match objs[x]? with
    | some c => objs ++ [create ((type (some c)).getD []) (value (some c) 0) (value (some c) 1)
        (value (some c) 2)]
    | none => objs
  | .setEpoch x e =>
    match objs[x]? with
    | some c => match setEpoch (some c) e with
      | some c' => objs.set x c'
      | none => objs
    | none => objs

/-- A whole program. -/
def run (objs : List (Coord K)) (ops : List (Op K)) : List (Coord K) := ops.foldl step objs

/-- Specification: the epoch last given to object `x` by these operations, `old` if none was. -/
def lastEpoch (x : Nat) (old : K) : List (Op K) → K
  | [] => old
  | .setEpoch y e :: rest => lastEpoch x (if y = x then e else old) rest
  | _ :: rest => lastEpoch x old rest

end Verif.Python.Sky
