import Verif.Pswf.Model
import Mathlib.Analysis.SpecialFunctions.Pow.NNReal

/-!
# Model of the characteristic value of a prolate spheroidal wave function (`pswf_segv`, sdp_pswf.cpp)

Exact arithmetic, for both mode parameters equal to `m` and the prolate function (`kd = 1`), as the library calls
it (sdp_pswf.cpp:629-632).  Then `icm` is 1: there is one bracket `[h, b]` in each of the two passes, and the
steps that order brackets (sdp_pswf.cpp:483-500 and 532-547) do nothing.
-/

namespace Sdp.Pswf
noncomputable section

/-- `k` for pass `l` and row `i`, counted from 0, sdp_pswf.cpp:424-431. -/
def rowK (l i : Nat) : Nat := if l = 0 then 2 * i else 2 * i + 1

/-- `a`, sdp_pswf.cpp:436-437 and 105-106; exact, without the casts. -/
def coefA (m k : Nat) (cs : ℝ) : ℝ :=
  ((2 * m + k : ℝ) + 2) * ((2 * m + k : ℝ) + 1) / ((2 * (m + k : ℝ) + 3) * (2 * (m + k : ℝ) + 5)) * cs

/-- `d_`, sdp_pswf.cpp:438-439 and 107-108. -/
def coefD (m k : Nat) (cs : ℝ) : ℝ :=
  (m + k : ℝ) * (m + k + 1 : ℝ) +
    ((m + k : ℝ) * 2 * (m + k + 1 : ℝ) - m * 2 * m - 1) / ((2 * (m + k : ℝ) - 1) * (2 * (m + k : ℝ) + 3)) * cs

/-- `g`, sdp_pswf.cpp:441 and 109. -/
def coefG (m k : Nat) (cs : ℝ) : ℝ :=
  (k : ℝ) * (k - 1) / ((2 * (m + k : ℝ) - 3) * (2 * (m + k : ℝ) - 1)) * cs

/-- The arrays of one pass, sdp_pswf.cpp:421-451: diagonal, off-diagonal and its square. -/
structure Tri where
  d : Nat → ℝ
  e : Nat → ℝ
  f : Nat → ℝ

def passTri (m : Nat) (cs : ℝ) (l : Nat) : Tri :=
  let e := fun (i : Nat) =>
    if i = 0 then 0 else Real.sqrt (coefA m (rowK l (i - 1)) cs * coefG m (rowK l i) cs)
  { d := fun i => coefD m (rowK l i) cs, e := e, f := fun i => if i = 0 then 0 else e i * e i }

/-- One step of the search for the first bracket, sdp_pswf.cpp:456-472; the state is (`xa`, `xb`). -/
def bracketStep (T : Tri) (x : ℝ × ℝ) (i : Nat) : ℝ × ℝ :=
  let t := |T.e i| + |T.e (i + 1)|
  let xa := if x.1 < T.d i + t then T.d i + t else x.1
  (xa, if T.d i - t < x.2 then T.d i - t else x.2)

/-- The first bracket, sdp_pswf.cpp:452-479. -/
def bracket (T : Tri) (nm : Nat) : ℝ × ℝ :=
  (List.range (nm - 1)).foldl (bracketStep T)
    (T.d (nm - 1) + |T.e (nm - 1)|, T.d (nm - 1) - |T.e (nm - 1)|)

/-- One step of the count, sdp_pswf.cpp:511-524; the state is (`s`, `j`). -/
def countStep (T : Tri) (x1 : ℝ) (sj : ℝ × Nat) (i : Nat) : ℝ × Nat :=
  let s := if sj.1 = 0 then sj.1 + 1 / 10 ^ 30 else sj.1
  let s := T.d i - T.f i / s - x1
  (s, if s < 0 then sj.2 + 1 else sj.2)

/-- The number of negative values of `s`, sdp_pswf.cpp:508-524. -/
def count (T : Tri) (nm : Nat) (x1 : ℝ) : Nat := ((List.range nm).foldl (countStep T x1) (1, 0)).2

/-- The bisection, sdp_pswf.cpp:501-550, for at most `fuel` steps; `none`: more are needed.  A quotient by zero
is infinite, or not a number, and the test fails. -/
def bisect (T : Tri) (nm : Nat) : Nat → ℝ → ℝ → Option ℝ
  | 0, _, _ => none
  | fuel + 1, h, b =>
    let x1 := (b + h) / 2
    if x1 ≠ 0 ∧ |(b - h) / x1| < 1 / 10 ^ 14 then some x1
    else if count T nm x1 < 1 then bisect T nm fuel x1 b
    else bisect T nm fuel h x1

/-- What `pswf_segv` does within a number of steps. -/
inductive Char
  /-- An access outside an array. -/
  | fault
  /-- More steps are needed. -/
  | running
  /-- `*cv` on return. -/
  | value (x : ℝ)

/-- `pswf_segv`, sdp_pswf.cpp:365-566; the arrays have 300 elements (sdp_pswf.cpp:380). -/
def segv (m : Nat) (c : ℝ) (fuel : Nat) : Char :=
  if c < 1 / 10 ^ 10 then .value ((0 + m + 1) * (0 + m))
  else
    let nm := (trunc c + 10).toNat
    if 300 < nm then .fault
    else
      let run := fun (l : Nat) =>
        let T := passTri m (c * c) l
        let x := bracket T nm
        bisect T nm fuel x.2 x.1
      match run 0, run 1 with
      | some x, some _ => .value x
      | _, _ => .running

end
end Sdp.Pswf
