import Verif.Common.Race
import Verif.Common.Launch
import Verif.Common.Desc
import Mathlib.Data.Complex.Basic

/-!
# Model of `sdp_gridder_accumulate_scaled_arrays` and `sdp_gridder_scale_inv_array`
(grid_data/sdp_gridder_utils.{cpp,cu})

Whole calls on descriptors.  Real values are complex numbers with zero imaginary part; exact arithmetic, so
that conversions between float and double change nothing.  A power or quotient that is not a number is
`none`.  `src = none` means that the first input and the output are the same array; the second input is
another array.  The iterations of the OpenMP loops are threads, like those of the kernels.
-/

namespace Sdp.GridUtil
open Sdp.Race
noncomputable section

/-- Element index of `view(i, j)`, sdp_mem_view.h:131-147. -/
def addr (v : View) (p : Nat × Nat) : Int := dot [(p.1 : Int), (p.2 : Int)] v.stride

/-- `in1(i, j)`. -/
def source (src : Option (Arr ℂ)) (i : Int) (k : ℂ → Prog ℂ) : Prog ℂ :=
  match src with
  | none => .read i k
  | some a => .need (a.read i) k

/-- `pow(q, e)`. -/
def powC (q : ℂ) (e : Int) : Option ℂ := if q = 0 ∧ e ≤ 0 then none else some (q ^ e)

/-- Body of `accum_scale_array`, sdp_gridder_utils.cpp:36-77, and of the kernel, sdp_gridder_utils.cu:26-37. -/
def accumBody (e : Int) (vo v1 v2 : View) (src : Option (Arr ℂ)) (in2 : Arr ℂ) (p : Nat × Nat) : Prog ℂ :=
  source src (addr v1 p) fun x =>
    if e = 0 then .read (addr vo p) fun y => .write (addr vo p) (y + x) .done
    else .need (in2.read (addr v2 p)) fun q =>
      .need (if e = 1 then some q else powC q e) fun f =>
      .read (addr vo p) fun y => .write (addr vo p) (y + x * f) .done

/-- Body of `accum_complex_real_array`, sdp_gridder_utils.cpp:99, and of the kernel,
sdp_gridder_utils.cu:50. -/
def realBody (vo v1 : View) (src : Option (Arr ℂ)) (p : Nat × Nat) : Prog ℂ :=
  source src (addr v1 p) fun x =>
    .read (addr vo p) fun y => .write (addr vo p) (y + (x.re : ℂ)) .done

/-- Body of `scale_inv_array`, sdp_gridder_utils.cpp:504-526, and of the kernel, sdp_gridder_utils.cu:141-149. -/
def invBody (e : Int) (vo v1 v2 : View) (src : Option (Arr ℂ)) (in2 : Arr ℂ) (p : Nat × Nat) : Prog ℂ :=
  source src (addr v1 p) fun x =>
    .need (in2.read (addr v2 p)) fun q =>
    .need (if q = 0 then none else some (if e = 1 then x / q else x / q ^ e)) fun y =>
    .write (addr vo p) y .done

/-- What a call does: the status it returns, and the threads it runs on the output. -/
structure Run (α : Type) where
  status : Status
  threads : List (Nat × Nat)
  prog : Nat × Nat → Prog α

/-- A call that touches nothing. -/
def Run.none {α : Type} (st : Status) : Run α := ⟨st, [], fun _ => .done⟩

/-- Extents of a view of two dimensions. -/
def rows (v : View) : Nat := (v.shape.getD 0 0).toNat
def cols (v : View) : Nat := (v.shape.getD 1 0).toNat

/-- The OpenMP loops over all elements of the output, e.g. sdp_gridder_utils.cpp:38-45. -/
def cpuRun {α : Type} (st : Status) (vo : View) (body : Nat × Nat → Prog α) : Run α :=
  ⟨st, nest2 (rows vo) (cols vo), body⟩

/-- A launch in blocks of 16 x 16, sdp_gridder_utils.cpp:834-838 and 1599-1603, and the guard of the kernels,
sdp_gridder_utils.cu:23-25.  It is refused after an error, or where there is no device. -/
def gpuRun {α : Type} (cuda : Bool) (mo : Mem) (st : Status) (vo : View) (body : Nat × Nat → Prog α) : Run α :=
  if st ≠ .success then Run.none st
  else if cuda = false then Run.none .runtime
  else ⟨.success, nest2 (blocks (mo.shapeDim 0).toNat 16 * 16) (blocks (mo.shapeDim 1).toNat 16 * 16),
    fun p => if p.1 ≥ rows vo ∨ p.2 ≥ cols vo then .done else body p⟩

/-- The two kinds of accumulation. -/
inductive Kind | scale | real
  deriving DecidableEq

/-- Choice by types, sdp_gridder_utils.cpp:744-826 and 848-968. -/
def accumKind (t0 t1 t2 : MemType) : Option Kind :=
  if (t0 = .complexDouble ∨ t0 = .complexFloat) ∧
      (t1 = .complexDouble ∨ t1 = .complexFloat ∨ t1 = .double ∨ t1 = .float) ∧ t2 = .complexDouble then
    some .scale
  else if (t0 = .double ∨ t0 = .float) ∧ (t1 = .complexDouble ∨ t1 = .complexFloat) then some .real
  else none

/-- `accum_scale_array` on the CPU, sdp_gridder_utils.cpp:22-76. -/
def accumCpu (mo m1 : Mem) (m2 : Option Mem) (e : Int) (st : Status) (src : Option (Arr ℂ)) (in2 : Arr ℂ) : Run ℂ :=
  let v := checkAndView mo mo.type 2 .cpu st
  let w := checkAndViewConst m1 m1.type 2 .cpu v.2
  match m2 with
  | .none => cpuRun w.2 v.1 (accumBody 0 v.1 w.1 w.1 src in2)
  | some m2 =>
    if e = 0 then cpuRun w.2 v.1 (accumBody 0 v.1 w.1 w.1 src in2)
    else
      let z := checkAndViewConst m2 .complexDouble 2 .cpu w.2
      cpuRun z.2 v.1 (accumBody e v.1 w.1 z.1 src in2)

/-- `accum_complex_real_array` on the CPU, sdp_gridder_utils.cpp:82-103. -/
def realCpu (mo m1 : Mem) (st : Status) (src : Option (Arr ℂ)) : Run ℂ :=
  let v := checkAndView mo mo.type 2 .cpu st
  let w := checkAndViewConst m1 m1.type 2 .cpu v.2
  cpuRun w.2 v.1 (realBody v.1 w.1 src)

/-- `sdp_gridder_accumulate_scaled_arrays`, sdp_gridder_utils.cpp:722-985; `m2 = none` is a null pointer. -/
def accumCall (cuda : Bool) (mo m1 : Mem) (m2 : Option Mem) (e : Int) (st : Status) (src : Option (Arr ℂ))
    (in2 : Arr ℂ) : Run ℂ :=
  if st ≠ .success then Run.none st
  else if m1.location ≠ mo.location then Run.none .memLocation
  else
    let kind := accumKind mo.type m1.type (m2.elim .complexDouble Mem.type)
    let e := if m2.isNone then 0 else e
    match mo.location with
    | .cpu =>
      match kind with
      | some .scale => accumCpu mo m1 m2 e st src in2
      | some .real => realCpu mo m1 st src
      | .none => Run.none .dataType
    | .gpu =>
      let z := m2.elim (mkView mo 2 .invalidArgument, st) fun m2 => checkAndViewConst m2 .complexDouble 2 .gpu st
      let v := checkAndView mo mo.type 2 .gpu z.2
      let w := checkAndViewConst m1 m1.type 2 .gpu v.2
      match kind with
      | some .scale => gpuRun cuda mo w.2 v.1 (accumBody e v.1 w.1 z.1 src in2)
      | some .real => gpuRun cuda mo w.2 v.1 (realBody v.1 w.1 src)
      | .none => Run.none .dataType
    | .other => Run.none st

/-- Types with a function for the quotient, sdp_gridder_utils.cpp:1559-1596 and 1615-1658. -/
def invTypes (t0 t1 t2 : MemType) : Bool :=
  decide (t2 = .complexDouble ∧ (t0 = .complexDouble ∧ (t1 = .double ∨ t1 = .complexDouble) ∨
    t0 = .complexFloat ∧ (t1 = .float ∨ t1 = .complexFloat)))

/-- `sdp_gridder_scale_inv_array`, sdp_gridder_utils.cpp:1541-1665. -/
def invCall (cuda : Bool) (mo m1 m2 : Mem) (e : Int) (st : Status) (src : Option (Arr ℂ)) (in2 : Arr ℂ) : Run ℂ :=
  if st ≠ .success then Run.none st
  else if m1.location ≠ mo.location ∨ m2.location ≠ mo.location then Run.none .memLocation
  else
    match mo.location with
    | .cpu =>
      if invTypes mo.type m1.type m2.type then
        let v := checkAndView mo mo.type 2 .cpu st
        let w := checkAndViewConst m1 m1.type 2 .cpu v.2
        let z := checkAndViewConst m2 .complexDouble 2 .cpu w.2
        cpuRun z.2 v.1 (invBody e v.1 w.1 z.1 src in2)
      else Run.none .dataType
    | .gpu =>
      let z := checkAndViewConst m2 .complexDouble 2 .gpu st
      if invTypes mo.type m1.type m2.type then
        let v := checkAndView mo mo.type 2 .gpu z.2
        let w := checkAndViewConst m1 m1.type 2 .gpu v.2
        gpuRun cuda mo w.2 v.1 (invBody e v.1 w.1 z.1 src in2)
      else Run.none .dataType
    | .other => Run.none st

end
end Sdp.GridUtil
