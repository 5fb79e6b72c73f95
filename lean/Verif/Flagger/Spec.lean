import Mathlib.Algebra.Order.Field.Basic
import Mathlib.Algebra.BigOperators.Group.Finset.Basic
import Mathlib.Algebra.BigOperators.Intervals
import Mathlib.Algebra.Order.BigOperators.Group.Finset
import Verif.Flagger.Model

/-!
# What the flagger is to flag

Exact arithmetic over an ordered field.  `m t c` is the magnitude of the visibility at time `t` and channel `c` of one
baseline and polarisation.
-/

namespace Sdp.Flagger
section
variable {K : Type} [Field K] [LinearOrder K]

/-- The arithmetic of the field; `sort` is any function that sorts. -/
def exact (sort : List K → List K) : Ops K where
  abs x := |x|
  neg x := -x
  add x y := x + y
  sub x y := x - y
  mul x y := x * y
  div x y := x / y
  lt x y := decide (x < y)
  eq x y := decide (x = y)
  zero := 0
  one := 1
  c6795 := 6795 / 10000
  big := 10000000
  sort := sort

/-- `v` is the number at place `k`, from 0, when the numbers of the list are put in order. -/
def AtRank (l : List K) (k : Nat) (v : K) : Prop :=
  v ∈ l ∧ l.countP (fun x => decide (x < v)) ≤ k ∧ k < l.countP (fun x => decide (x ≤ v))

/-- The number far from the middle: 0.6795 times the distance, in units of the typical distance `dev`, is above the
threshold; if `dev` is zero, any other number is taken to be ten million away. -/
def Far (middle dev thr v : K) : Prop :=
  if dev = 0 then thr < (if v = middle then 0 else 10000000) ∨ (if v = middle then (0 : K) else 10000000) < -thr
  else thr < 6795 / 10000 * (v - middle) / dev ∨ 6795 / 10000 * (v - middle) / dev < -thr

/-- Every `step`-th of the numbers `f`. -/
def sampled (P : Params K) (f : Nat → K) : List K := (List.range (P.nChannels / P.step)).map fun s => f (s * P.step)

/-- The magnitude has changed by this much since the time before. -/
def change (m : Nat → Nat → K) (t c : Nat) : K := |m (t - 1) c - m t c|

/-- Exponentially weighted mean of the changes up to time `t`. -/
def drift (P : Params K) (m : Nat → Nat → K) (t c : Nat) : K :=
  (1 - P.alpha) ^ (t - 1) * change m 1 c + ∑ s ∈ Finset.Ico 2 (t + 1), P.alpha * (1 - P.alpha) ^ (t - s) * change m s c

/-- The last `n` numbers of a history up to time `t`. -/
def recent (n t : Nat) (f : Nat → K) : List K := (List.range n).map fun i => f (t - i)

/-- The numbers that decide: middle of the magnitudes and distance from it; middle of the recent middles and distance
from it; middle of the mean changes, and the distance of these from `about`. -/
structure Levels (P : Params K) (m : Nat → Nat → K) (rank : Nat → Nat) (about : Nat → K) where
  mid : Nat → K
  dev : Nat → K
  mid_is : ∀ t, t < P.nTimes → AtRank (sampled P (m t)) (rank (P.nChannels / P.step)) (mid t)
  dev_is : ∀ t, t < P.nTimes → AtRank ((sampled P (m t)).map fun x => |x - mid t|) (rank (P.nChannels / P.step)) (dev t)
  hmid : Nat → K
  hdev : Nat → K
  hmid_is : ∀ t, 0 < t → t < P.nTimes → AtRank (recent (min (t + 1) P.hist) t mid) (rank (min (t + 1) P.hist)) (hmid t)
  hdev_is : ∀ t, 0 < t → t < P.nTimes →
    AtRank ((recent (min (t + 1) P.hist) t mid).map fun x => |x - hmid t|) (rank (min (t + 1) P.hist)) (hdev t)
  vmid : Nat → K
  vdev : Nat → K
  vmid_is : ∀ t, 0 < t → t < P.nTimes → AtRank (sampled P fun c => |drift P m t c|) (rank (P.nChannels / P.step)) (vmid t)
  vdev_is : ∀ t, 0 < t → t < P.nTimes →
    AtRank ((sampled P fun c => |drift P m t c|).map fun x => |x - about t|) (rank (P.nChannels / P.step)) (vdev t)

/-- Channels flagged along with channel `c₀`, from `first` on. -/
def Beside (P : Params K) (first : Nat) (c₀ c : Nat) : Prop :=
  c = c₀ ∨ (first ≤ c ∧ c < c₀ ∧ c₀ ≤ c + P.window) ∨ (c₀ < c ∧ c ≤ c₀ + P.window ∧ c < P.nChannels)

/-- The magnitude at (t, c) is far from that of the other channels. -/
def Loud {P : Params K} {m : Nat → Nat → K} {rank : Nat → Nat} {about : Nat → K} (L : Levels P m rank about) (t c : Nat) : Prop :=
  Far (L.mid t) (L.dev t) P.thrMag (m t c)

/-- All of time `t` is far from the times before. -/
def Burst {P : Params K} {m : Nat → Nat → K} {rank : Nat → Nat} {about : Nat → K} (L : Levels P m rank about) (t : Nat) : Prop :=
  0 < t ∧ Far (L.hmid t) (L.hdev t) P.thrBroad (L.mid t)

/-- The magnitude changes at (t, c) more, or less, than in the other channels. -/
def Restless {P : Params K} {m : Nat → Nat → K} {rank : Nat → Nat} {about : Nat → K} (L : Levels P m rank about) (t c : Nat) : Prop :=
  0 < t ∧ t < P.nTimes ∧ Far (L.vmid t) (L.vdev t) P.thrVar |drift P m t c|

/-- The samples to flag: those beside one that is loud, in a burst, or restless then or at the time after. -/
def ToFlag {P : Params K} {m : Nat → Nat → K} {rank : Nat → Nat} {about : Nat → K} (L : Levels P m rank about) (first t c : Nat) : Prop :=
  t < P.nTimes ∧ ∃ c₀, c₀ < P.nChannels ∧ Beside P first c₀ c ∧ (Loud L t c₀ ∨ Burst L t ∨ Restless L t c₀ ∨ Restless L (t + 1) c₀)

end
end Sdp.Flagger
