import Mathlib.Analysis.SpecialFunctions.Trigonometric.Inverse
import Mathlib.Analysis.SpecialFunctions.Trigonometric.Arctan
import Mathlib.Analysis.SpecialFunctions.Complex.Arg
import Verif.Model.Location
/-! Model of `src/kml/base/math_util.cc` and `src/kml/engine/feature_view.cc`.  A `double` is a real number: rounding,
overflow and NaN are outside this model, and the functions of `math.h` are the mathematical ones. -/
namespace Kml.Sphere
open Real

/-- C `atan2(y, x)`, in `(-π, π]`; 0 at the origin. -/
noncomputable def atan2 (y x : ℝ) : ℝ := Complex.arg ⟨x, y⟩

/-- C `fmod`: the remainder of the division truncated towards zero, with the sign of the dividend. -/
noncomputable def fmod (x m : ℝ) : ℝ := x - m * (if 0 ≤ x / m then (⌊x / m⌋ : ℝ) else (⌈x / m⌉ : ℝ))

/-- math_util.cc 30 `kEarthRadius`. -/
noncomputable def earthRadius : ℝ := 6366710

/-- math_util.cc 95 `DegToRad`. -/
noncomputable def degToRad (d : ℝ) : ℝ := d * π / 180

/-- math_util.cc 96 `RadToDeg`. -/
noncomputable def radToDeg (r : ℝ) : ℝ := r * 180 / π

/-- math_util.cc 97 `MetersToRadians`. -/
noncomputable def metersToRadians (m : ℝ) : ℝ := m / earthRadius

/-- math_util.cc 98 `RadiansToMeters`. -/
noncomputable def radiansToMeters (r : ℝ) : ℝ := r * earthRadius

/-- math_util.cc 34-43 `AzimuthBetweenPoints`. -/
noncomputable def azimuthBetweenPoints (lat1 lng1 lat2 lng2 : ℝ) : ℝ :=
  let lat1 := degToRad lat1
  let lng1 := degToRad lng1
  let lat2 := degToRad lat2
  let lng2 := degToRad lng2
  radToDeg (fmod (atan2 (sin (lng2 - lng1) * cos lat2)
    (cos lat1 * sin lat2 - sin lat1 * cos lat2 * cos (lng2 - lng1))) (2 * π))

/-- math_util.cc 45-54 `DistanceBetweenPoints`. -/
noncomputable def distanceBetweenPoints (lat1 lng1 lat2 lng2 : ℝ) : ℝ :=
  let lat1 := degToRad lat1
  let lng1 := degToRad lng1
  let lat2 := degToRad lat2
  let lng2 := degToRad lng2
  radiansToMeters (2 * arcsin (√(sin ((lat1 - lat2) / 2) ^ 2 + cos lat1 * cos lat2 * sin ((lng1 - lng2) / 2) ^ 2)))

/-- math_util.cc 56-61 `DistanceBetweenPoints3d`. -/
noncomputable def distanceBetweenPoints3d (lat1 lng1 alt1 lat2 lng2 alt2 : ℝ) : ℝ :=
  √(distanceBetweenPoints lat1 lng1 lat2 lng2 ^ 2 + (alt2 - alt1) ^ 2)

/-- math_util.cc 63-69 `ElevationBetweenPoints`.  For a distance of zero the code divides by zero and gives 90, -90 or NaN;
the model gives 0, and no theorem is about that case. -/
noncomputable def elevationBetweenPoints (lat1 lng1 alt1 lat2 lng2 alt2 : ℝ) : ℝ :=
  radToDeg (arctan ((alt2 - alt1) / distanceBetweenPoints lat1 lng1 lat2 lng2))

/-- math_util.cc 71-73 `GroundDistanceFromRangeAndElevation`. -/
noncomputable def groundDistance (range elevation : ℝ) : ℝ := |cos (degToRad elevation) * range|

/-- math_util.cc 75-77 `HeightFromRangeAndElevation`. -/
noncomputable def heightOf (range elevation : ℝ) : ℝ := |sin (degToRad elevation) * range|

/-- math_util.cc 79-93 `LatLngOnRadialFromPoint`: latitude and longitude. -/
noncomputable def latLngOnRadial (lat lng distance radial : ℝ) : ℝ × ℝ :=
  let lat := degToRad lat
  let lng := degToRad lng
  let distance := metersToRadians distance
  let radial := degToRad radial
  let radialLat := arcsin (sin lat * cos distance + cos lat * sin distance * cos radial)
  let deltaLng := atan2 (sin radial * sin distance * cos lat) (cos distance - sin lat * sin radialLat)
  let radialLng := fmod (lng + deltaLng + π) (2 * π) - π
  (radToDeg radialLat, radToDeg radialLng)

/-- The fields `ComputeBboxLookAt` sets, but for the altitude mode. -/
structure LookAt where
  longitude : ℝ
  latitude : ℝ
  range : ℝ

/-- feature_view.cc 58-84 `ComputeBboxLookAt`, with bbox.h 165-171 for the center; `kFieldOfView` is 60 and `kMinRange`
1000. -/
noncomputable def bboxLookAt (b : Geo.Bbox ℝ) : LookAt :=
  let lat := (b.north + b.south) / 2
  let lon := (b.east + b.west) / 2
  let dNorth := distanceBetweenPoints lat lon b.north lon
  let dWest := distanceBetweenPoints lat lon lat b.west
  let dCorner := √(dNorth ^ 2 + dWest ^ 2)
  let range := dCorner * tan (degToRad 60) * 1.1
  { longitude := lon, latitude := lat, range := if range < 1000 then 1000 else range }

/-- feature_view.cc 50-56 `ComputeFeatureLookAt`; `none` is NULL. -/
noncomputable def featureLookAt (f : Geo.Feature ℝ) : Option LookAt :=
  let r := Geo.featureBounds f (.init (-180) 180)
  if r.1 then some (bboxLookAt r.2) else none

end Kml.Sphere
