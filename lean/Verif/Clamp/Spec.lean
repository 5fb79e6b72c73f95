import Verif.Clamp.Model

/-!
# Channel clamping: specification

`inRange` is the documented meaning: coordinate in `[lo, hi)`.  `Sel` is what the code
actually selects; it depends on the sign of the coordinate step and on the numerical
guard.
-/

namespace Sdp.Clamp

variable {K : Type} [Field K] [LinearOrder K] [IsStrictOrderedRing K] [FloorRing K]

/-- Coordinate of channel `ch`. -/
def coord (u0 du : K) (ch : Int) : K := u0 + du * ch

/-- "Minimum value (inclusive), maximum value (exclusive)"
(sdp_gridder_clamp_channels.h:114-115). -/
def inRange (u0 du lo hi : K) (ch : Int) : Prop :=
  lo ≤ coord u0 du ch ∧ coord u0 du ch < hi

/-- The numerical guard: the range ends are within 2147483645 channel steps of
channel 0. -/
def resolved (u0 du lo hi : K) : Prop :=
  |lo - u0| < 2147483645 * |du| ∧ |hi - u0| < 2147483645 * |du|

/-- The channels the code selects: half-open below for rising coordinates, half-open
above for falling coordinates, all-or-nothing by the position of channel 0 when the
coordinate step is not resolved. -/
def Sel (u0 du lo hi : K) (ch : Int) : Prop :=
  (resolved u0 du lo hi ∧ 0 < du ∧ lo ≤ coord u0 du ch ∧ coord u0 du ch < hi) ∨
  (resolved u0 du lo hi ∧ du < 0 ∧ lo < coord u0 du ch ∧ coord u0 du ch ≤ hi) ∨
  (¬ resolved u0 du lo hi ∧ lo ≤ u0 ∧ u0 < hi)

end Sdp.Clamp
