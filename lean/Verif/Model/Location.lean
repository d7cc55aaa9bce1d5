import Verif.Model.Bbox
/-! Model of `src/kml/engine/location_util.cc` on the parts of features and geometries it looks at. -/
namespace Kml.Geo

/-- A position: latitude and longitude. -/
abbrev Pos (K : Type u) := K × K

/-- `<coordinates>`: absent, or a list of positions. -/
abbrev Coords (K : Type u) := Option (List (Pos K))

/-- The geometries of src/kml/dom/geometry.h, model.h and gx_track (kml_ptr.h). -/
inductive Geometry (K : Type u) where
  | point (c : Coords K)
  | lineString (c : Coords K)
  | linearRing (c : Coords K)
  /-- The outer boundary may be absent, may have no ring; the inner boundaries are rings. -/
  | polygon (outer : Option (Option (Coords K))) (inner : List (Coords K))
  | model (location : Option (Pos K))
  | multi (parts : List (Geometry K))
  | track (coords : List (Pos K))

/-- The features of src/kml/dom/feature.h, as far as positions are concerned. -/
inductive Feature (K : Type u) where
  | placemark (geometry : Option (Geometry K))
  | photoOverlay (point : Option (Coords K))
  | container (features : List (Feature K))
  /-- NetworkLink, GroundOverlay, ScreenOverlay, gx:Tour. -/
  | other

variable {K : Type u} [LinearOrder K]

/-- location_util.cc 49-61 `GetCoordinatesBounds` and location_util.h `GetCoordinatesParentBounds` with a box. -/
def coordinatesBounds : Coords K → Bbox K → Bool × Bbox K
  | none, b => (false, b)
  | some ps, b => (!ps.isEmpty, ps.foldl (fun b p => b.expandLatLon p.1 p.2) b)

mutual
/-- location_util.cc 99-132 `GetGeometryBounds` on a present geometry, with `GetModelBounds` (154-163). -/
def geometryBounds : Geometry K → Bbox K → Bool × Bbox K
  | .point c, b => coordinatesBounds c b
  | .lineString c, b => coordinatesBounds c b
  | .linearRing c, b => coordinatesBounds c b
  | .polygon (some (some c)) _, b => coordinatesBounds c b
  | .polygon _ _, b => (false, b)
  | .model (some p), b => (true, b.expandLatLon p.1 p.2)
  | .model none, b => (false, b)
  | .multi gs, b => geometriesBounds gs b
  | .track _, b => (false, b)
/-- location_util.cc 121-130, the loop over the parts of a MultiGeometry. -/
def geometriesBounds : List (Geometry K) → Bbox K → Bool × Bbox K
  | [], b => (false, b)
  | g :: gs, b =>
    let r := geometryBounds g b
    let s := geometriesBounds gs r.2
    (r.1 || s.1, s.2)
end

mutual
/-- location_util.cc 63-84 `GetFeatureBounds`. -/
def featureBounds : Feature K → Bbox K → Bool × Bbox K
  | .placemark (some g), b => geometryBounds g b
  | .placemark none, b => (false, b)
  | .photoOverlay (some c), b => coordinatesBounds c b
  | .photoOverlay none, b => (false, b)
  | .container fs, b => featuresBounds fs b
  | .other, b => (false, b)
/-- location_util.cc 73-79, the loop over the features of a container. -/
def featuresBounds : List (Feature K) → Bbox K → Bool × Bbox K
  | [], b => (false, b)
  | f :: fs, b =>
    let r := featureBounds f b
    let s := featuresBounds fs r.2
    (r.1 || s.1, s.2)
end

/-- location_util.cc 86-97 `GetFeatureLatLon`; `lo`, `hi` are the limits of the default box. -/
def featureLatLon (mid : K → K → K) (lo hi : K) (f : Feature K) : Option (Pos K) :=
  let r := featureBounds f (Bbox.init lo hi)
  if r.1 then some (r.2.center mid) else none

/-- location_util.cc 129-142 `GetGeometryLatLon`; no geometry is NULL. -/
def geometryLatLon (mid : K → K → K) (lo hi : K) (g : Option (Geometry K)) : Option (Pos K) :=
  match g with
  | none => none
  | some g =>
    let r := geometryBounds g (Bbox.init lo hi)
    if r.1 then some (r.2.center mid) else none

/-- location_util.cc 144-147 `GetPlacemarkLatLon` of the geometry of a placemark; a NULL placemark is undefined. -/
def placemarkLatLon (mid : K → K → K) (lo hi : K) : Option (Option (Geometry K)) → Outcome (Option (Pos K))
  | none => .ub
  | some g => .ok (geometryLatLon mid lo hi g)

/-- location_util.cc 160-173 `GetModelLatLon`, of a model with or without a location, or of NULL. -/
def modelLatLon : Option (Option (Pos K)) → Option (Pos K)
  | some (some p) => some p
  | _ => none

/-- location_util.cc 175-191 `GetPointLatLon`, of the coordinates of a point, or of NULL. -/
def pointLatLon : Option (Coords K) → Option (Pos K)
  | some (some (p :: _)) => some p
  | _ => none

end Kml.Geo
