import Verif.Flagger.Machine

/-!
# C120: defined operations, specification
-/

namespace Sdp.Flagger.Machine

/-! ## Specification -/

/-- The operation is defined: no division by zero, no `int` overflow, no block of negative size, no access
outside an array. -/
def Op.Defined : Op → Prop
  | .div d => d ≠ 0
  | .int x => -2147483648 ≤ x ∧ x ≤ 2147483647
  | .alloc _ n => 0 ≤ n
  | .elem _ i n => 0 ≤ i ∧ i < n

/-- Arguments with which everything after the first time is defined: at least two samples, a history of at least
two times, a window that ends within the range of `int`, flags for all visibilities, and less than 2^31 of these. -/
structure Args.Fit (A : Args) : Prop where
  step : 1 ≤ A.step
  samples : 2 * A.step ≤ A.nChannels
  hist : 2 ≤ A.hist
  window : A.window + A.nChannels ≤ 2 ^ 31
  flags : A.nTimes * A.nBaselines * A.nChannels * A.nPols ≤ A.nFlags
  vis : A.nTimes * A.nBaselines * A.nChannels * A.nPols < 2 ^ 31

end Sdp.Flagger.Machine
