import Mathlib.Algebra.Field.Basic
import Mathlib.Algebra.Order.Ring.Defs
import Verif.Common.Loops

/-!
# Legendre functions: model

`/repo/src/ska-sdp-func/math/sdp_legendre_polynomial.h` and the Legendre routines of
`/repo/src/ska-sdp-func/grid_data/sdp_gridder_uvw_es_fft_utils.cpp`.  Exact arithmetic in a field;
`int` does not overflow.
-/

namespace Sdp.Legendre

variable {K : Type} [Field K]

/-- `p0` after the first loop (sdp_legendre_polynomial.h L20-29): `(p0, fact)`. -/
def start (m : Nat) (sinT : K) : K × K :=
  (List.range m).foldl (fun (s : K × K) (_ : Nat) => (s.1 * (-s.2 * sinT), s.2 + 2)) (1, 1)

/-- `out0, p1` after L30-45: `(p0, out0, p1)`. -/
def climb (l m : Nat) (cosT p0 : K) : K × K × K :=
  let out0 := cosT * (2 * m + 1) * p0
  if l = m then (p0, p0, out0)
  else
    (List.range' (m + 2) (l + 1 - (m + 1))).foldl
      (fun (s : K × K × K) (i : Nat) =>
        let out0 := s.2.2
        let p1 := ((2 * i - 1) * cosT * out0 - (i + m - 1) * s.1) / (i - m)
        (out0, out0, p1))
      (p0, out0, out0)

/-- `sdp_legendre2` (sdp_legendre_polynomial.h L10-57): `(out0, out1, out2)`, for `l` and `m` that
are not negative. -/
def legendre2 [DecidableEq K] (l m : Nat) (cosT sinT : K) : K × K × K :=
  let s := climb l m cosT (start m sinT).1
  let out0 := s.2.1
  let p1 := s.2.2
  if sinT ≠ 0 then
    (out0, out0 / sinT, (cosT * out0 * (l + 1) - p1 * (l - m + 1)) / sinT)
  else (out0, 0, 0)

variable [LinearOrder K]

/-- `sdp_get_legendre` (sdp_gridder_uvw_es_fft_utils.cpp L13-57): the value returned and the
contents of `*derivative` afterwards (`d` before; not NULL).  `n` is not negative. -/
def getLegendre (x : K) (n : Nat) (d : K) : K × K :=
  if n = 0 then (1, 0)
  else if n = 1 then (x, 1)
  else
    -- p_im2, p_im1, p_i
    let s := (List.range' 2 (n - 1)).foldl
      (fun (s : K × K × K) (i : Nat) =>
        let pi := x * s.2.1 + ((i - 1 : K) / i) * (x * s.2.1 - s.1)
        (s.2.1, pi, pi)) (1, x, 0)
    (s.2.2, if -1 < x ∧ x < 1 then n / (1 - x * x) * (s.1 - x * s.2.2) else d)

/-- The loop of `sdp_calculate_legendre_root` (L93-103): at most `fuel + 1` iterations; state after
the loop: `(next_estimate, derivative)`. -/
def newton (n : Nat) (accuracy : K) : Nat → K → K → K × K
  | 0, x, d =>
    let r := getLegendre x n d
    (x - r.1 / r.2, r.2)
  | fuel + 1, x, d =>
    let r := getLegendre x n d
    let next := x - r.1 / r.2
    -- fdim(next, estimate) > accuracy
    if accuracy < (if x < next then next - x else 0) then newton n accuracy fuel next r.2
    else (next, r.2)

/-- `sdp_calculate_legendre_root` (L82-112) from the first estimate: root and weight;
`MAX_NEWTON_RAPHSON_ITERATIONS` is `maxIter`, at least 1. -/
def root (n : Nat) (accuracy first : K) (maxIter : Nat) : K × K :=
  let s := newton n accuracy (maxIter - 1) first 1
  let d := (getLegendre s.1 n s.2).2
  (s.1, 2 / ((1 - s.1 * s.1) * d * d))

end Sdp.Legendre
