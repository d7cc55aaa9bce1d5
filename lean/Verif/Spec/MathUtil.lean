import Mathlib.Analysis.SpecialFunctions.Trigonometric.Inverse
import Mathlib.Analysis.SpecialFunctions.Complex.Arg
/-! The geometry of the sphere in terms of points of space, independent of the code. -/
namespace Kml.Sphere
open Real

/-- An angle in degrees as one in radians. -/
noncomputable def deg (d : ℝ) : ℝ := d * π / 180

/-- A point of space. -/
structure Point where
  x : ℝ
  y : ℝ
  z : ℝ

def Point.dot (u v : Point) : ℝ := u.x * v.x + u.y * v.y + u.z * v.z

/-- The point of the unit sphere at a latitude and a longitude, in degrees. -/
noncomputable def unitAt (lat lng : ℝ) : Point :=
  ⟨cos (deg lat) * cos (deg lng), cos (deg lat) * sin (deg lng), sin (deg lat)⟩

/-- The direction to the north and that to the east at a latitude and a longitude. -/
noncomputable def northAt (lat lng : ℝ) : Point :=
  ⟨-(sin (deg lat) * cos (deg lng)), -(sin (deg lat) * sin (deg lng)), cos (deg lat)⟩

noncomputable def eastAt (_lat lng : ℝ) : Point := ⟨-sin (deg lng), cos (deg lng), 0⟩

/-- The mean radius of the Earth, in meters, and the distance along a great circle between points of the unit sphere
scaled to it. -/
noncomputable def greatCircle (u v : Point) : ℝ := 6366710 * arccos (u.dot v)

/-- `a` is the direction from the place at `lat`, `lng` to `v`, in degrees clockwise from north: the part of `v` along
the ground is a positive multiple of the direction. -/
def Heads (lat lng : ℝ) (v : Point) (a : ℝ) : Prop :=
  ∃ k : ℝ, 0 < k ∧ v.dot (northAt lat lng) = k * cos (deg a) ∧ v.dot (eastAt lat lng) = k * sin (deg a)

/-- The place is in the view from straight above a center, at a height, with a field of view of 60 degrees: its distance
from the center is at most what half that angle spans on the ground. -/
def InView (lat lng range : ℝ) (lat' lng' : ℝ) : Prop :=
  greatCircle (unitAt lat lng) (unitAt lat' lng') ≤ range * tan (deg 30)

end Kml.Sphere
