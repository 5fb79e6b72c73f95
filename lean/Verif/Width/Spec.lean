import Verif.Width.Base

/-
Specification for C115: which elements the functions are documented to use,
with mathematical (unbounded) integers.  Independent of the models: only the
type of accesses (array name, index) is shared.
-/
namespace Sdp.Width

/-- The position of an element of a C array: `[(size, index), ...]`, outermost
dimension first. -/
def rowMajor (l : List (Nat × Nat)) : Nat :=
  l.foldl (fun a q => a * q.1 + q.2) 0

/-- Everything for each index below `n`. -/
def each (n : Nat) (f : Nat → List Acc) : List Acc := (List.range n).flatMap f

/-- Element of array `a`. -/
def el (a : String) (l : List (Nat × Nat)) : Acc := (a, (rowMajor l : Int))

/-- An element count that an `int` can hold. -/
def FitsInt (n : Nat) : Prop := n ≤ 2147483647

/-- An element count that an `int64_t` can hold. -/
def FitsLong (n : Nat) : Prop := n ≤ 9223372036854775807

/-- All components of one direction, and the fluxes of one component and
channel. -/
def componentsSpec (K C P c : Nat) : List Acc :=
  each K fun k =>
    [el "dir" [(K, k), (3, 0)], el "dir" [(K, k), (3, 1)],
      el "dir" [(K, k), (3, 2)]] ++
    each P fun p => [el "flux" [(K, k), (C, c), (P, p)]]

/-- Every polarisation of visibility (t, b, c) is written. -/
def visSpec (T B C P t b c : Nat) : List Acc :=
  each P fun p => [el "vis" [(T, t), (B, b), (C, c), (P, p)]]

/-- sdp_dft_point_v00: uvw is [time, baseline, channel, 3]. -/
def dftV00Spec (T B C P K : Nat) : List Acc :=
  each T fun t => each C fun c => each B fun b =>
    [el "uvw" [(T, t), (B, b), (C, c), (3, 0)],
      el "uvw" [(T, t), (B, b), (C, c), (3, 1)],
      el "uvw" [(T, t), (B, b), (C, c), (3, 2)]] ++
    componentsSpec K C P c ++ visSpec T B C P t b c

/-- sdp_dft_point_v01: uvw is [time, baseline, 3]. -/
def dftV01Spec (T B C P K : Nat) : List Acc :=
  each T fun t => each B fun b =>
    [el "uvw" [(T, t), (B, b), (3, 0)], el "uvw" [(T, t), (B, b), (3, 1)],
      el "uvw" [(T, t), (B, b), (3, 2)]] ++
    each C fun c => componentsSpec K C P c ++ visSpec T B C P t b c

/-- The same on the GPU, in elements of three coordinates. -/
def dftV00GpuSpec (T B C P K : Nat) : List Acc :=
  each T fun t => each C fun c => each B fun b =>
    [el "uvw" [(T, t), (B, b), (C, c)]] ++
    (each K fun k => [el "dir" [(K, k)]] ++
      each P fun p => [el "flux" [(K, k), (C, c), (P, p)]]) ++
    visSpec T B C P t b c

/-- sdp_phase_rotate_uvw: `n` coordinates of three numbers. -/
def rotateUvwSpec (n : Nat) : List Acc :=
  each n fun i =>
    [el "in" [(n, i), (3, 0)], el "in" [(n, i), (3, 1)],
      el "in" [(n, i), (3, 2)], el "out" [(n, i), (3, 0)],
      el "out" [(n, i), (3, 1)], el "out" [(n, i), (3, 2)]]

/-- The same in elements of three coordinates. -/
def rotateUvwGpuSpec (n : Nat) : List Acc :=
  each n fun i => [el "in" [(n, i)], el "out" [(n, i)]]

/-- sdp_phase_rotate_vis. -/
def rotateVisSpec (T B C P : Nat) : List Acc :=
  each T fun t => each B fun b =>
    [el "uvw" [(T, t), (B, b), (3, 0)], el "uvw" [(T, t), (B, b), (3, 1)],
      el "uvw" [(T, t), (B, b), (3, 2)]] ++
    each C fun c => each P fun p =>
      [el "in" [(T, t), (B, b), (C, c), (P, p)],
        el "out" [(T, t), (B, b), (C, c), (P, p)]]

/-- The same in elements of three coordinates. -/
def rotateVisGpuSpec (T B C P : Nat) : List Acc :=
  each T fun t => each C fun c => each B fun b =>
    [el "uvw" [(T, t), (B, b)]] ++
    each P fun p =>
      [el "in" [(T, t), (B, b), (C, c), (P, p)],
        el "out" [(T, t), (B, b), (C, c), (P, p)]]

/-- The elements used for the weights of one visibility with its cell. -/
def weightsAt (T B C P G : Nat) (cell : Option (Nat × Nat)) (t b c : Nat) :
    List Acc :=
  [el "freq" [(C, c)], el "uvw" [(T, t), (B, b), (3, 0)],
    el "uvw" [(T, t), (B, b), (3, 1)]] ++
  match cell with
  | none => []
  | some (u, v) =>
    each P fun p => [el "grid" [(G, u), (G, v), (P, p)],
      el "weight" [(T, t), (B, b), (C, c), (P, p)]]

/-- Gridding of weights. -/
def weightsSpec (T B C P G : Nat)
    (cell : Nat → Nat → Nat → Option (Nat × Nat)) : List Acc :=
  each T fun t => each B fun b => each C fun c =>
    weightsAt T B C P G (cell t b c) t b c

/-- The same with the loops in the order of the kernel's dimensions. -/
def weightsGpuSpec (T B C P G : Nat)
    (cell : Nat → Nat → Nat → Option (Nat × Nat)) : List Acc :=
  each T fun t => each C fun c => each B fun b =>
    weightsAt T B C P G (cell t b c) t b c

/-- The flagger: samples are every `step`-th channel. -/
def flaggerSpec (T B C P S step : Nat) : List Acc :=
  each B fun b => each P fun p => each T fun t =>
    (each S fun s => [el "vis" [(T, t), (B, b), (C, s * step), (P, p)]]) ++
    (each C fun c => [el "vis" [(T, t), (B, b), (C, c), (P, p)]]) ++
    (if 0 < t then
      each C fun c => [el "vis" [(T, t), (B, b), (C, c), (P, p)],
        el "vis" [(T, t - 1), (B, b), (C, c), (P, p)]]
    else [])

/-- Every element of the padded arrays is multiplied, and every product is
normalised. -/
def productSpec (pad : Nat) : List Acc :=
  (each (pad * pad) fun i => [el "a" [(pad * pad, i)], el "b" [(pad * pad, i)],
    el "product" [(pad * pad, i)]]) ++
  each (pad * pad) fun i => [el "product" [(pad * pad, i)]]

/-- Element (i, j) of the image goes to (i + pad, j + pad) of the padded one. -/
def padSpec (n pad : Nat) : List Acc :=
  each n fun i => each n fun j =>
    [el "padded" [(n + 2 * pad, i + pad), (n + 2 * pad, j + pad)],
      el "data" [(n, i), (n, j)]]

/-- Every element of the residual is looked at. -/
def hogbomScanSpec (D : Nat) : List Acc :=
  each (D * D) fun i => [el "residual" [(D * D, i)]]

/-- The window of the point spread function whose centre is put on pixel
(px, py). -/
def hogbomSubtractSpec (D M px py : Nat) : List Acc :=
  each D fun i => each D fun j =>
    [el "psf" [(M, D - px + i), (M, D - py + j)],
      el "residual" [(D, i), (D, j)]]

/-- Each pair of scales has its own point spread function. -/
def scaledPsfsSpec (S M : Nat) : List Acc :=
  each S fun s => each S fun p => each M fun x => each M fun y =>
    [el "cur" [(M, x), (M, y)],
      el "scaled_psf" [(S, s), (S, p), (M, x), (M, y)]]

/-- Every element of both arrays. -/
def rmsSpec (X Y : Nat) : List Acc :=
  each X fun i => each Y fun j =>
    [el "a" [(X, i), (Y, j)], el "b" [(X, i), (Y, j)]]

end Sdp.Width
