import Verif.Model.Ieee

/-!
# Arithmetic of doubles

Sums and quotients of doubles as IEEE 754 has them: the exact result, rounded.  Doubles are rational numbers here; the
two zeros are one, since the code only compares.  Overflow does not happen with the numbers this is used for.
-/

namespace Kml.Ieee

/-- The double for an exact result with its sign. -/
def fl (x : ℚ) : ℚ := if x < 0 then -toDouble (-x) else toDouble x

/-- `(a + b)/2.0`: src/kml/engine/bbox.h 165-171 `GetCenterLat`, `GetCenterLon`; src/kml/engine/location_util.cc 193-203
`GetCenter`. -/
def midDouble (a b : ℚ) : ℚ := fl (fl (a + b) / 2)

end Kml.Ieee
