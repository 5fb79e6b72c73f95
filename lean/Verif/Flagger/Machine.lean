/-!
# What the flagger does to memory (visibility/sdp_flagger.cpp)

A run is the list of the machine operations that can go wrong: divisions, `int` results, allocations and accesses
to arrays, each with what decides whether it is defined.  The values of the visibilities enter only through the
comparisons with the thresholds, which are arbitrary (`Choice`).  Arithmetic on floating-point numbers and the
accesses of `qsort` (which stay within the `n` elements it is given) are left out.
-/

namespace Sdp.Flagger.Machine

/-- The arrays: scratch arrays of a thread (sdp_flagger.cpp:146-149), of a time (sdp_flagger.cpp:169) and of
`median_dev_calc` (sdp_flagger.cpp:94), and the two arguments. -/
inductive Store
  | samples | score | transit | history | med | devs | vis | flags
  deriving DecidableEq

/-- An operation. -/
inductive Op
  /-- division by `d` -/
  | div (d : Int)
  /-- an expression of type `int` -/
  | int (x : Int)
  /-- `new double[n]` -/
  | alloc (a : Store) (n : Int)
  /-- access to element `i` of an array of `n` -/
  | elem (a : Store) (i n : Int)
  deriving DecidableEq

/-- Arguments: `int` parameters (sdp_flagger.cpp:360-362), dimensions of the visibilities
(sdp_flagger.cpp:369-372) and the number of elements of the flags. -/
structure Args where
  step : Int
  window : Int
  hist : Int
  nTimes : Nat
  nBaselines : Nat
  nChannels : Nat
  nPols : Nat
  nFlags : Nat

/-- Results of the comparisons: a channel flagged at a time by methods 1 and 3 (sdp_flagger.cpp:223-225), and by
method 2 (sdp_flagger.cpp:308-309). -/
structure Choice where
  bad : Nat → Bool
  vary : Nat → Bool

/-- `for (int i = 0; i < n; i++)`. -/
def iter (n : Int) (f : Nat → List Op) : List Op := (List.range n.toNat).flatMap f

/-- `int(round(0.5 * n))`, sdp_flagger.cpp:85 and 93 (half away from zero). -/
def middle (n : Int) : Int := if 0 ≤ n then (n + 1) / 2 else -((-n + 1) / 2)

/-- `median_calc`, sdp_flagger.cpp:83-88. -/
def medianCalc (a : Store) (n : Int) : List Op := [.elem a (middle n) n]

/-- `median_dev_calc`, sdp_flagger.cpp:91-103. -/
def medianDevCalc (a : Store) (n : Int) : List Op :=
  [.alloc .devs n] ++ iter n (fun i => [.elem .devs i n, .elem a i n]) ++ [.elem .devs (middle n) n]

/-- `filler`, sdp_flagger.cpp:73-80. -/
def filler (a : Store) (length n : Int) : List Op := iter length fun i => [.elem a i n]

section
variable (A : Args)

/-- Number of visibilities. -/
def nVis : Int := A.nTimes * A.nBaselines * A.nChannels * A.nPols

/-- sdp_flagger.cpp:145. -/
def numSamples : Int := (A.nChannels : Int).tdiv A.step

/-- sdp_flagger.cpp:164. -/
def timeBlock : Int := A.nBaselines * A.nChannels * A.nPols

/-- sdp_flagger.cpp:165. -/
def baselineBlock : Int := A.nChannels * A.nPols

/-- `t * time_block + b * baseline_block`, sdp_flagger.cpp:166 and 257. -/
def basePos (t b : Int) : Int := t * timeBlock A + b * baselineBlock A

/-- The `int` operations of `base + c * num_pols + p`. -/
def posOps (base c p : Int) : List Op :=
  [.int (c * A.nPols), .int (base + c * A.nPols), .int (base + c * A.nPols + p)]

/-- `pos = base + c * num_pols + p; flags[pos] = 1`, e.g. sdp_flagger.cpp:234-236. -/
def setFlag (base c p : Int) : List Op :=
  posOps A base c p ++ [.elem .flags (base + c * A.nPols + p) A.nFlags]

/-- The loop over the window beside channel `c`, sdp_flagger.cpp:228-246 and 313-338; `set` sets the flags of one
channel. -/
def windowOps (c : Int) (set : Int → List Op) : List Op :=
  iter A.window fun w =>
    [.int (c - w), .int (c - w - 1)] ++ (if c - w - 1 > 0 then set (c - w - 1) else []) ++
    [.int (c + w), .int (c + w + 1)] ++ (if c + w + 1 < A.nChannels then set (c + w + 1) else [])

/-- Methods 1 and 3 at one time, sdp_flagger.cpp:163-249. -/
def method13 (ch : Choice) (b p t : Nat) : List Op :=
  let ns := numSamples A
  let mw := min ((t : Int) + 1) A.hist
  let base := basePos A t b
  [.int (A.nBaselines * A.nChannels), .int (timeBlock A), .int (baselineBlock A),
    .int (t * timeBlock A), .int (b * baselineBlock A), .int base, .int (t + 1), .alloc .med mw] ++
  (iter ns fun s => [.int (s * A.step)] ++ posOps A base (s * A.step) p ++
    [.elem .vis (base + s * A.step * A.nPols + p) (nVis A), .elem .samples s ns]) ++
  medianCalc .samples ns ++ medianDevCalc .samples ns ++
  [.elem .history t A.nTimes] ++
  (iter mw fun tt => [.int (t - tt), .elem .history (t - tt) A.nTimes, .elem .med tt mw]) ++
  medianCalc .med mw ++ medianDevCalc .med mw ++
  iter A.nChannels fun c => posOps A base c p ++ [.elem .vis (base + c * A.nPols + p) (nVis A)] ++
    if ch.bad c then setFlag A base c p ++ windowOps A c fun c' => setFlag A base c' p else []

/-- Method 2 at one time after the first, sdp_flagger.cpp:255-341. -/
def method2 (ch : Choice) (b p t : Nat) : List Op :=
  let ns := numSamples A
  let base := basePos A t b
  let before := basePos A (t - 1) b
  let both := fun c : Int => setFlag A base c p ++ setFlag A before c p
  [.int (t - 1), .int ((t - 1) * timeBlock A), .int (b * baselineBlock A), .int before] ++
  (iter A.nChannels fun c => posOps A base c p ++ posOps A before c p ++
    [.elem .vis (base + c * A.nPols + p) (nVis A), .elem .vis (before + c * A.nPols + p) (nVis A),
      .elem .score c A.nChannels]) ++
  (iter ns fun s => [.int (s * A.step), .elem .score (s * A.step) A.nChannels, .elem .transit s ns]) ++
  medianCalc .transit ns ++ medianDevCalc .transit ns ++
  iter A.nChannels fun c => posOps A base c p ++ posOps A before c p ++ [.elem .score c A.nChannels] ++
    if ch.vary c then both c ++ windowOps A c both else []

/-- The body of the time loop, sdp_flagger.cpp:161-342. -/
def timeStep (ch : Choice) (b p t : Nat) : List Op :=
  method13 A ch b p t ++ if 0 < t then method2 A ch b p t else []

/-- The start of a thread, sdp_flagger.cpp:145-154. -/
def start : List Op :=
  let ns := numSamples A
  [.div A.step, .int ns, .alloc .samples ns, .alloc .score A.nChannels, .alloc .transit ns,
    .alloc .history A.nTimes] ++
  filler .samples ns ns ++ filler .score A.nChannels A.nChannels ++ filler .transit ns ns ++
  filler .history A.nTimes A.nTimes

/-- A thread that is given the baselines `bs`, sdp_flagger.cpp:143-348. -/
def thread (ch : Nat → Nat → Nat → Choice) (bs : List Nat) : List Op :=
  start A ++ bs.flatMap fun b => iter A.nPols fun p => iter A.nTimes fun t => timeStep A (ch b p t) b p t

end
end Sdp.Flagger.Machine
