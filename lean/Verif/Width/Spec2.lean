import Verif.Width.Spec
import Verif.Width.Es

/-
Specification for C117: which elements the beam, tiling and gridding functions
are documented to use, with mathematical integers.  Independent of the models.
-/
namespace Sdp.Width

/-- The polarisations that are switched on, of 1 or 4. -/
def pols (P : Nat) (ex ey : Bool) (f : Nat → Acc) : List Acc :=
  if P = 1 then [f 0]
  else (if ex then [f 0, f 1] else []) ++ (if ey then [f 2, f 3] else [])

/-- The pattern that antenna `i` uses. -/
def patternOf (idx : Option (Nat → Nat)) (i : Nat) : Nat :=
  match idx with
  | none => i
  | some f => f i

/-- Element patterns of one point: an array [pattern, point, polarisation]. -/
def patternSpec (P N D o : Nat) (idx : Option (Nat → Nat)) (data ex ey : Bool)
    (i : Nat) : List Acc :=
  if data then
    pols P ex ey fun p => el "data" [(D, patternOf idx i), (N, o), (P, p)]
  else []

/-- The coordinates of a point, and the beam of the station at that point. -/
def pointSpec (N off o : Nat) : List Acc :=
  [el "x_out" [(off + N, off + o)], el "y_out" [(off + N, off + o)],
    el "z_out" [(off + N, off + o)]]

def outputSpec (P N off o : Nat) (ex ey : Bool) : List Acc :=
  pols P ex ey fun p => el "output" [(off + N, off + o), (P, p)]

/-- sdp_station_beam_aperture_array with `D` element patterns. -/
def stationSpec (P E N offPt offBeam : Nat) (idx : Option (Nat → Nat))
    (data ex ey : Bool) (D : Nat) : List Acc :=
  each N fun o =>
    pointSpec N offPt o ++
    (each E fun i =>
      [el "x_in" [(E, i)], el "y_in" [(E, i)], el "z_in" [(E, i)],
        el "weights" [(E, i)]] ++ patternSpec P N D o idx data ex ey i) ++
    outputSpec P N offBeam o ex ey

/-- The same on the GPU, without the arrays of the antennas. -/
def stationGpuSpec (P E N offPt offBeam : Nat) (idx : Option (Nat → Nat))
    (data ex ey : Bool) (D : Nat) : List Acc :=
  each N fun o =>
    pointSpec N offPt o ++ (each E fun i => patternSpec P N D o idx data ex ey i) ++
    outputSpec P N offBeam o ex ey

/-- Dipole patterns: point `i` is written at `off` in the `i`-th group of
`stride` values. -/
def dipoleSpec (N stride off : Nat) : List Acc :=
  each N fun i => [el "phi" [(N, i)], el "theta" [(N, i)],
    ("beam", ((i * stride + off : Nat) : Int))]

/-- The four coefficients of order `(l, m)`, `m` from `-l` to `l`: number
`l(l+1) + m` of all orders, counted from `l = 1`, `m = -1` as 0. -/
def coefficient (l : Nat) (m : Int) : List Acc :=
  [("alpha", 4 * (l * (l + 1) + m - 1)), ("alpha", 4 * (l * (l + 1) + m - 1) + 1),
    ("alpha", 4 * (l * (l + 1) + m - 1) + 2), ("alpha", 4 * (l * (l + 1) + m - 1) + 3)]

/-- Spherical waves up to order `lMax`. -/
def harpSpec (N lMax off : Nat) : List Acc :=
  each N fun i =>
    [el "theta" [(N, i)], el "phi_x" [(N, i)], el "phi_y" [(N, i)]] ++
    (each lMax fun k => each (k + 2) fun d =>
      if k + 1 - d = 0 then coefficient (k + 1) 0
      else coefficient (k + 1) (-((k + 1 - d : Nat) : Int)) ++
        coefficient (k + 1) ((k + 1 - d : Nat) : Int)) ++
    [el "pattern" [(off + N, off + i), (4, 0)], el "pattern" [(off + N, off + i), (4, 1)],
      el "pattern" [(off + N, off + i), (4, 2)],
      el "pattern" [(off + N, off + i), (4, 3)]]

/-- One visibility of a bucket sort that belongs to `hits` tiles. -/
def bucketAt (T B C t b c hits : Nat) : List Acc :=
  [el "freq" [(C, c)], el "uvw" [(T, t), (B, b), (3, 0)],
    el "uvw" [(T, t), (B, b), (3, 1)]] ++
  each hits fun _ => [el "vis" [(T, t), (B, b), (C, c)],
    el "weight" [(T, t), (B, b), (C, c)]]

def bucketSpec (T B C : Nat) (hits : Nat → Nat → Nat → Nat) : List Acc :=
  each T fun t => each B fun b => each C fun c => bucketAt T B C t b c (hits t b c)

def bucketGpuSpec (T B C : Nat) (hits : Nat → Nat → Nat → Nat) : List Acc :=
  each T fun t => each C fun c => each B fun b => bucketAt T B C t b c (hits t b c)

/-- De-gridding one visibility: a block of the grid [channel, z, y, x,
polarisation] around (x, y), and the kernels from their offsets. -/
def customAt (S W X Y Z T B C P t b c : Nat) (q : Nat × Nat × Nat × Nat × Nat) :
    List Acc :=
  each P fun p =>
    (each W fun z =>
      (each S fun y =>
        (each S fun x =>
          [el "grid" [(C, c), (Z, z), (Y, q.2.1 + y - S / 2), (X, q.1 + x - S / 2),
            (P, p)], ("uv_kernel", ((q.2.2.1 + x : Nat) : Int))]) ++
        [("uv_kernel", ((q.2.2.2.1 + y : Nat) : Int))]) ++
      [("w_kernel", ((q.2.2.2.2 + z : Nat) : Int))]) ++
    [el "vis" [(T, t), (B, b), (C, c), (P, p)]]

def customMaybe (S W X Y Z T B C P t b c : Nat)
    (q : Option (Nat × Nat × Nat × Nat × Nat)) : List Acc :=
  match q with
  | none => []
  | some q => customAt S W X Y Z T B C P t b c q

def customSpec (S W X Y Z T B C P : Nat)
    (pt : Nat → Nat → Nat → Option (Nat × Nat × Nat × Nat × Nat)) : List Acc :=
  each T fun t => each B fun b =>
    [el "uvw" [(T, t), (B, b), (3, 0)], el "uvw" [(T, t), (B, b), (3, 1)],
      el "uvw" [(T, t), (B, b), (3, 2)]] ++
    each C fun c => customMaybe S W X Y Z T B C P t b c (pt t b c)

def customGpuSpec (S W X Y Z T B C P : Nat)
    (pt : Nat → Nat → Nat → Option (Nat × Nat × Nat × Nat × Nat)) : List Acc :=
  each T fun t => each C fun c => each B fun b =>
    [el "uvw" [(T, t), (B, b)]] ++ customMaybe S W X Y Z T B C P t b c (pt t b c)

/-- The cells of the stack of grids [plane, u, v] from the centre of each. -/
def cellsSpec (K G : Nat) (u0 v0 : Int) (nu nv k0 nk : Nat) : List Acc :=
  each nk fun k => each nu fun i => each nv fun j =>
    [el "stack" [(K, k0 + k), (G, (u0 + i + (G / 2 : Nat)).toNat),
      (G, (v0 + j + (G / 2 : Nat)).toNat)]]

/-- The four pixels at distances (j, i) from the centre. -/
def pixel (a : String) (l : List (Nat × Nat)) (N : Nat) (j i : Int) : Acc :=
  el a (l ++ [(N, ((N / 2 : Nat) + j).toNat), (N, ((N / 2 : Nat) + i).toNat)])

/-- Every pixel of the image once, in quadrants. -/
def quadSpec (a : String) (l : List (Nat × Nat)) (N H i j : Nat) : List Acc :=
  (if i < H ∧ j < H then [pixel a l N j i] else []) ++
  (if 0 < i ∧ j < H then [pixel a l N j (-(i : Int))] else []) ++
  (if 0 < j ∧ i < H then [pixel a l N (-(j : Int)) i] else []) ++
  (if 0 < i ∧ 0 < j then [pixel a l N (-(j : Int)) (-(i : Int))] else [])

/-- Image pixels in quadrants, and the pixels of the `K` planes of the stack
that belong to them. -/
def screenSumSpec (N G K : Nat) : List Acc :=
  each (N / 2 + 1) fun j => each (N / 2 + 1) fun i =>
    (each K fun k => [pixel "stack" [(K, k)] G j i,
      pixel "stack" [(K, k)] G (-(j : Int)) i,
      pixel "stack" [(K, k)] G j (-(i : Int)),
      pixel "stack" [(K, k)] G (-(j : Int)) (-(i : Int))]) ++
    quadSpec "image" [] N (N / 2) i j

def convCorrSpec (N : Nat) : List Acc :=
  each (N / 2 + 1) fun j => each (N / 2 + 1) fun i =>
    [el "kernel" [(N / 2 + 1, i)], el "kernel" [(N / 2 + 1, j)]] ++
    quadSpec "image" [] N (N / 2) i j

/-- De-gridding: image pixels in quadrants, and the pixels of the planes each
once. -/
def screenReverseSpec (N G K : Nat) : List Acc :=
  each (N / 2 + 1) fun j => each (N / 2 + 1) fun i =>
    (if j < N / 2 ∧ i < N / 2 then [pixel "image" [] N j i] else []) ++
    (if j < N / 2 then [pixel "image" [] N j (-(i : Int))] else []) ++
    (if i < N / 2 then [pixel "image" [] N (-(j : Int)) i] else []) ++
    [pixel "image" [] N (-(j : Int)) (-(i : Int))] ++
    (each K fun k =>
      (if i < N / 2 ∧ j < N / 2 then [pixel "stack" [(K, k)] G j i] else []) ++
      (if 0 < j ∧ i < N / 2 then [pixel "stack" [(K, k)] G (-(j : Int)) i] else []) ++
      (if 0 < i ∧ j < N / 2 then [pixel "stack" [(K, k)] G j (-(i : Int))] else []) ++
      (if 0 < i ∧ 0 < j then [pixel "stack" [(K, k)] G (-(j : Int)) (-(i : Int))] else []))

/-- The gridding kernels: one row of coordinates, one frequency, one visibility
and one weight [row, channel] for each visibility, and the cells of `K` planes
under its kernel. -/
def esGridSpec (R C G K : Nat) (box : Nat → Nat → Option Box) : List Acc :=
  each R fun r => each C fun c =>
    [el "uvw" [(R, r)], el "freq" [(C, c)], el "vis" [(R, r), (C, c)],
      el "weight" [(R, r), (C, c)]] ++
    match box r c with
    | none => []
    | some b => cellsSpec K G b.u0 b.v0 b.nu b.nv b.k0 b.nk

/-- A kernel within the grids. -/
def BoxOk (K G : Nat) (b : Box) : Prop :=
  0 ≤ b.u0 + (G / 2 : Nat) ∧ b.u0 + b.nu + (G / 2 : Nat) ≤ G ∧
  0 ≤ b.v0 + (G / 2 : Nat) ∧ b.v0 + b.nv + (G / 2 : Nat) ≤ G ∧ b.k0 + b.nk ≤ K

end Sdp.Width
