import Verif.Mem.Model

/-!
# Model of visibility/sdp_flagger.cpp (dynamic-threshold flagger)

* Numbers are of an arbitrary type with operations obeying no laws, so the
  theorems hold for IEEE doubles (NaN included).  `mag t b c p` is
  `abs(visibilities[pos])`.
* The flag array is only ever written, always with 1 (sdp_flagger.cpp:227, 236,
  242, 311-312, 324-325, 334-335), so a run is the list of positions written.
* A read past the end of the scratch arrays (`arr[mid]` in `median_calc`,
  `devs[mid]` in `median_dev_calc`) yields an arbitrary value `junk`, one per
  read site; it is not silently totalised to a fixed value.
* `int` parameters are `Nat` (a negative window behaves as 0; a zero sampling
  step, a division by zero in C, is excluded by the theorems).
-/

namespace Sdp.Flagger

/-- Arithmetic used by the flagger; no laws. `sort` is `qsort` with `compare`,
sdp_flagger.cpp:59-70. -/
structure Ops (α : Type) where
  abs : α → α
  neg : α → α
  add : α → α → α
  sub : α → α → α
  mul : α → α → α
  div : α → α → α
  lt : α → α → Bool
  eq : α → α → Bool
  zero : α
  one : α
  c6795 : α
  big : α
  sort : List α → List α

/-- Arguments of `sdp_flagger_dynamic_threshold`, sdp_flagger.cpp:353-364, and the
dimensions read from the visibility array, sdp_flagger.cpp:369-372. -/
structure Params (α : Type) where
  alpha : α
  thrMag : α
  thrVar : α
  thrBroad : α
  step : Nat
  window : Nat
  hist : Nat
  nTimes : Nat
  nBaselines : Nat
  nChannels : Nat
  nPols : Nat

/-- `int(round(0.5 * n))`, sdp_flagger.cpp:85 (round half away from zero). -/
def mid (n : Nat) : Nat := (n + 1) / 2

section
variable {α : Type} (o : Ops α) (P : Params α)

/-- `median_calc`, sdp_flagger.cpp:83-88; `j` is what an out-of-range read yields. -/
def medianCalc (j : α) (arr : List α) : α := arr.getD (mid arr.length) j

/-- `median_dev_calc`, sdp_flagger.cpp:91-103. -/
def medianDevCalc (j : α) (arr : List α) (median : α) : α :=
  (o.sort (arr.map fun x => o.abs (o.sub x median))).getD (mid arr.length) j

/-- `modified_zscore`, sdp_flagger.cpp:106-122. -/
def zscore (median dev val : α) : α :=
  if o.eq dev o.zero && o.eq val median then o.zero
  else if o.eq dev o.zero && !o.eq val median then o.big
  else o.div (o.mul o.c6795 (o.sub val median)) dev

/-- `z > thr || z < -thr`, sdp_flagger.cpp:208-209, 223-224, 308-309. -/
def outside (z thr : α) : Bool := o.lt thr z || o.lt z (o.neg thr)

/-- Channels written for a flagged channel `c`: itself and the window on both
sides, sdp_flagger.cpp:227-245 (`c - w - 1 > 0`, so never channel 0). -/
def windowChannels (c : Nat) : List Nat :=
  c :: (List.range P.window).flatMap fun w =>
    (if c > w + 1 then [c - w - 1] else []) ++
    (if c + w + 1 < P.nChannels then [c + w + 1] else [])

/-- Number of samples, sdp_flagger.cpp:145. -/
def nSamples : Nat := P.nChannels / P.step

/-- Scratch arrays of a thread that live across baselines and polarisations:
`median_history` and `transit_score`, sdp_flagger.cpp:147-154. -/
structure Scratch (α : Type) where
  hist : Nat → α
  score : Nat → α

/-- Methods 1 and 3 at time `t`, sdp_flagger.cpp:163-249: writes, and the new
scratch and median. `m t c` are the magnitudes of one baseline and polarisation. -/
def method13 (junk : Nat → α) (m : Nat → Nat → α) (t : Nat) (sc : Scratch α) :
    List (Nat × Nat) × Scratch α × α :=
  let medwindow := min (t + 1) P.hist
  let samples := o.sort ((List.range (nSamples P)).map fun s => m t (s * P.step))
  let median := medianCalc (junk 0) samples
  let mediandev := medianDevCalc o (junk 1) samples median
  let hist := fun k => if k = t then median else sc.hist k
  let medarray := o.sort ((List.range medwindow).map fun tt => hist (t - tt))
  let medmed := medianCalc (junk 2) medarray
  let medmeddev := medianDevCalc o (junk 3) medarray medmed
  let z := zscore o medmed medmeddev median
  let situation := outside o z P.thrBroad && decide (t ≠ 0)
  let writes := (List.range P.nChannels).flatMap fun c =>
    if outside o (zscore o median mediandev (m t c)) P.thrMag || situation then
      (windowChannels P c).map fun c' => (t, c')
    else []
  (writes, { sc with hist := hist }, median)

/-- Exponentially averaged rate of change, sdp_flagger.cpp:257-275. -/
def newScore (m : Nat → Nat → α) (t : Nat) (old : Nat → α) (c : Nat) : α :=
  if c < P.nChannels then
    let rate := o.abs (o.sub (m (t - 1) c) (m t c))
    if t = 1 then rate
    else o.add (o.mul P.alpha rate) (o.mul (o.sub o.one P.alpha) (old c))
  else old c

/-- Method 2 at time `t > 0`, sdp_flagger.cpp:253-341 (`median`, not `medianvar`,
is passed to `median_dev_calc`, line 294, as in the code). -/
def method2 (junk : Nat → α) (m : Nat → Nat → α) (t : Nat) (sc : Scratch α) (median : α) :
    List (Nat × Nat) × Scratch α :=
  let score := newScore o P m t sc.score
  let samples := o.sort ((List.range (nSamples P)).map fun s => o.abs (score (s * P.step)))
  let medianvar := medianCalc (junk 4) samples
  let mediandevvar := medianDevCalc o (junk 5) samples median
  let writes := (List.range P.nChannels).flatMap fun c =>
    if outside o (zscore o medianvar mediandevvar (o.abs (score c))) P.thrVar then
      (windowChannels P c).flatMap fun c' => [(t, c'), (t - 1, c')]
    else []
  (writes, { sc with score := score })

/-- One time step, body of the loop sdp_flagger.cpp:161-342. -/
def timeStep (junk : Nat → α) (m : Nat → Nat → α) (t : Nat) (sc : Scratch α) :
    List (Nat × Nat) × Scratch α :=
  let (w1, sc1, median) := method13 o P junk m t sc
  if 0 < t then
    let (w2, sc2) := method2 o P junk m t sc1 median
    (w1 ++ w2, sc2)
  else (w1, sc1)

/-- Time loop for one baseline and polarisation, sdp_flagger.cpp:161: the first
`n` time steps. -/
def runTimes (junk : Nat → Nat → α) (m : Nat → Nat → α) (sc : Scratch α) :
    Nat → List (Nat × Nat) × Scratch α
  | 0 => ([], sc)
  | n + 1 =>
    let (w, sc1) := runTimes junk m sc n
    let (w', sc2) := timeStep o P (junk n) m n sc1
    (w ++ w', sc2)

/-- Array position, sdp_flagger.cpp:164-166, 216. -/
def pos (t b c p : Nat) : Nat :=
  t * (P.nBaselines * P.nChannels * P.nPols) + b * (P.nChannels * P.nPols) + c * P.nPols + p

/-- Polarisation loop for one baseline, sdp_flagger.cpp:159: positions written. -/
def runPols (junk : Nat → Nat → Nat → α) (mag : Nat → Nat → Nat → Nat → α) (b : Nat) :
    List Nat → Scratch α → List Nat × Scratch α
  | [], sc => ([], sc)
  | p :: ps, sc =>
    let (w, sc1) := runTimes o P (junk p) (fun t c => mag t b c p) sc P.nTimes
    let (w', sc2) := runPols junk mag b ps sc1
    (w.map (fun tc => pos P tc.1 b tc.2 p) ++ w', sc2)

/-- What one thread does with the baselines it is given, in that order,
sdp_flagger.cpp:142-156: its scratch is carried from one to the next. -/
def runThread (junk : Nat → Nat → Nat → Nat → α) (mag : Nat → Nat → Nat → Nat → α) :
    List Nat → Scratch α → List Nat × Scratch α
  | [], sc => ([], sc)
  | b :: bs, sc =>
    let (w, sc1) := runPols o P (junk b) mag b (List.range P.nPols) sc
    let (w', sc2) := runThread junk mag bs sc1
    (w ++ w', sc2)

end

/-- `flags[pos] = 1` for a sequence of positions, in that order. -/
def applyWrites (flags : Nat → Int) : List Nat → Nat → Int
  | [] => flags
  | k :: ks => applyWrites (fun j => if j = k then 1 else flags j) ks

/-- `check_params_dynamic`, sdp_flagger.cpp:11-56 (error codes as there). -/
def checkParams (vis flags : Mem) (status : Status) : Status :=
  if status ≠ .success then status
  else if flags.queryReadOnly then .runtime
  else if !vis.queryCContiguous || !flags.queryCContiguous then .runtime
  else if vis.numDims ≠ 4 ∨ flags.numDims ≠ 4 then .runtime
  else if !vis.queryComplex then .dataType
  else if flags.type ≠ .int then .dataType
  else if vis.location ≠ flags.location then .memLocation
  else status

end Sdp.Flagger
