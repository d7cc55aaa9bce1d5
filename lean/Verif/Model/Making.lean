import Verif.Model.Convenience
import Verif.Model.Update
/-! Model of the functions of `src/kml/convenience/convenience.cc` and `src/kml/regionator/regionator_util.cc` that make elements.

Numbers are the texts that are written for them, and enumerations their names.  The setters of the DOM are changes of the members of an
element, as in Convenience.lean. -/
namespace Kml.Dom
open Kml

/-- convenience.cc 161-173 `CreatePointFromVec3`: without an altitude, `add_latlng`, which writes 0 for it (vec3.h 44-49). -/
def createPointFromVec3 (v : Coords.Vec3) : Elem :=
  (newNode Ty.«Point»).setOne M.«coordinates»
    ((newNode Ty.«coordinates»).addItem M.«coordinates_array»
      (.field Ty.Unknown (pointText (if v.hasAlt then v else ⟨v.lon, v.lat, ['0'], false⟩))))

/-- The placemark in `createAnimatedUpdateChangePoint`: convenience.cc 77-79. -/
def changePointPlacemark (target : Str) (v : Coords.Vec3) : Elem :=
  ((newNode Ty.«Placemark»).setKnown (chars! "targetId") target).setOne M.«geometry» (createPointFromVec3 v)

/-- The update in `createAnimatedUpdateChangePoint`: convenience.cc 77-84. -/
def changePointUpdate (target : Str) (v : Coords.Vec3) : Elem :=
  ((newNode Ty.«Update»).addItem M.«updateoperation_array»
    ((newNode Ty.«Change»).addItem M.«object_array» (changePointPlacemark target v))).setSimple M.«targethref» Ty.«targetHref» []

/-- convenience.cc 74-89 `CreateAnimatedUpdateChangePoint`. -/
def createAnimatedUpdateChangePoint (target : Str) (v : Coords.Vec3) (duration : Str) : Elem :=
  ((newNode Ty.«GxAnimatedUpdate»).setOne M.«update» (changePointUpdate target v)).setSimple M.«gx_duration» Ty.«GxDuration» duration

/-- convenience.cc 91-101 `CreateBasicPolygonPlacemark`, for a ring without a parent. -/
def createBasicPolygonPlacemark (ring : Elem) : Elem :=
  (newNode Ty.«Placemark»).setOne M.«geometry»
    ((newNode Ty.«Polygon»).setOne M.«outerboundaryis» ((newNode Ty.«outerBoundaryIs»).setOne M.«linearring» ring))

/-- convenience.cc 103-115 `CreateCamera`. -/
def createCamera (latitude longitude altitude heading tilt roll altitudeMode : Str) : Elem :=
  (((((((newNode Ty.«Camera»).setSimple M.«longitude» Ty.«longitude» longitude).setSimple M.«latitude» Ty.«latitude» latitude).setSimple
    M.«altitude» Ty.«altitude» altitude).setSimple M.«heading» Ty.«heading» heading).setSimple M.«tilt» Ty.«tilt» tilt).setSimple
    M.«roll» Ty.«roll» roll).setSimple M.«altitudemode» Ty.«altitudeMode» altitudeMode

/-- convenience.cc 134-146 `CreateLookAt`. -/
def createLookAt (latitude longitude altitude heading tilt range altitudeMode : Str) : Elem :=
  (((((((newNode Ty.«LookAt»).setSimple M.«longitude» Ty.«longitude» longitude).setSimple M.«latitude» Ty.«latitude» latitude).setSimple
    M.«altitude» Ty.«altitude» altitude).setSimple M.«heading» Ty.«heading» heading).setSimple M.«tilt» Ty.«tilt» tilt).setSimple
    M.«range» Ty.«range» range).setSimple M.«altitudemode» Ty.«altitudeMode» altitudeMode

/-- convenience.cc 148-159 `CreatePointFromLatLonAtts`, of the attributes that `Attributes::Create` makes of the array;
`GetValue` of a number is `FromString` of the text, into a variable that is not initialised: a blank text is undefined. -/
def createPointFromLatLonAtts (n : NumLib) (atts : Option (StdMap Str)) : Outcome (Option Elem) :=
  match atts with
  | none => .ok none
  | some m =>
    match m.get (chars! "lat") with
    | none => .ok none
    | some lat =>
      match m.get (chars! "lon") with
      | none => .ok none
      | some lon => if blank lat || blank lon then .ub else .ok (some (createPointLatLon (n.num lat) (n.num lon)))

/-- convenience.cc 193-209 `CreateRegion2d`. -/
def createRegion2d (north south east west minLod maxLod : Str) : Elem :=
  ((newNode Ty.«Region»).setOne M.«latlonaltbox»
    (((((newNode Ty.«LatLonAltBox»).setSimple M.«north» Ty.«north» north).setSimple M.«south» Ty.«south» south).setSimple
      M.«east» Ty.«east» east).setSimple M.«west» Ty.«west» west)).setOne M.«lod»
    (((newNode Ty.«Lod»).setSimple M.«minlodpixels» Ty.«minLodPixels» minLod).setSimple M.«maxlodpixels» Ty.«maxLodPixels» maxLod)

/-- convenience.cc 211-217 `CreateFlyTo`; `none` is NULL.  `AsAbstractView` gives NULL for an element that is no view, and to set NULL is
to set nothing (element.h 187-197). -/
def createFlyTo (n : NumLib) (view : Option Elem) (duration : Str) : Outcome Elem :=
  match view with
  | none => .ok ((newNode Ty.«GxFlyTo»).setSimple M.«gx_duration» Ty.«GxDuration» duration)
  | some v => clone n v >>= fun copy =>
    match copy with
    | none => .ok ((newNode Ty.«GxFlyTo»).setSimple M.«gx_duration» Ty.«GxDuration» duration)
    | some y =>
      if y.isA Ty.«AbstractView» then
        .ok (((newNode Ty.«GxFlyTo»).setSimple M.«gx_duration» Ty.«GxDuration» duration).setOne M.«abstractview» y)
      else .ok ((newNode Ty.«GxFlyTo»).setSimple M.«gx_duration» Ty.«GxDuration» duration)

/-- convenience.cc 219-231 `CreateFlyToForFeature`; `lookAt` is `ComputeFeatureLookAt` (feature_view.cc), see MathUtil.lean. -/
def createFlyToForFeature (n : NumLib) (lookAt : Elem → Option Elem) (feature : Option Elem) (duration : Str) : Outcome (Option Elem) :=
  match feature with
  | none => .ok none
  | some f =>
    match f.only M.«abstractview» with
    | some v => createFlyTo n (some v) duration >>= fun e => .ok (some e)
    | none =>
      match lookAt f with
      | none => .ok none
      | some v => createFlyTo n (some v) duration >>= fun e => .ok (some e)

/-- convenience.cc 233-237 `CreateWait`. -/
def createWait (duration : Str) : Elem := (newNode Ty.«GxWait»).setSimple M.«gx_duration» Ty.«GxDuration» duration

/-- convenience.cc 264-283 `CreatePointPlacemarkWithTimeStamp`, with what `GetXsdDate`, `GetXsdTime` and `GetXsdDateTime` give, for a
point without a parent. -/
def createPointPlacemarkWithTimeStamp (point : Elem) (date time dateTime styleId : Str) : Elem :=
  (addExtendedDataValue (chars! "time") time (addExtendedDataValue (chars! "date") date
    ((((newNode Ty.«Placemark»).setSimple M.«name» Ty.«name» time).setSimple M.«styleurl» Ty.«styleUrl» ('#' :: styleId)).setOne
      M.«timeprimitive» ((newNode Ty.«TimeStamp»).setSimple M.«when» Ty.«when» dateTime)))).setOne M.«geometry» point

/-- The text of a number an element has, or the one it is without it. -/
def Elem.numberOr (e : Elem) (m : Mem) (default : Str) : Str := (single (e.items m)).getD default

/-- The point that `add_latlng` adds. -/
def latLng (lat lng : Str) : Elem := .field Ty.Unknown (pointText ⟨lng, lat, ['0'], false⟩)

/-- regionator_util.cc 124-149 `CreateLineStringBox`.  The defaults are those of abstractlatlonbox.cc 33-36. -/
def createLineStringBox (name : Str) (region : Elem) : Elem :=
  match region.only M.«latlonaltbox» with
  | none => (newNode Ty.«Placemark»).setSimple M.«name» Ty.«name» name
  | some box =>
    ((newNode Ty.«Placemark»).setSimple M.«name» Ty.«name» name).setOne M.«geometry»
      (((newNode Ty.«LineString»).setOne M.«coordinates»
        ((((((newNode Ty.«coordinates»).addItem M.«coordinates_array»
          (latLng (box.numberOr M.«north» (chars! "180")) (box.numberOr M.«west» (chars! "-180")))).addItem M.«coordinates_array»
          (latLng (box.numberOr M.«north» (chars! "180")) (box.numberOr M.«east» (chars! "180")))).addItem M.«coordinates_array»
          (latLng (box.numberOr M.«south» (chars! "-180")) (box.numberOr M.«east» (chars! "180")))).addItem M.«coordinates_array»
          (latLng (box.numberOr M.«south» (chars! "-180")) (box.numberOr M.«west» (chars! "-180")))).addItem M.«coordinates_array»
          (latLng (box.numberOr M.«south» (chars! "-180")) (box.numberOr M.«west» (chars! "-180"))))).setSimple
        M.«tessellate» Ty.«tessellate» (chars! "1"))

/-- regionator_util.cc 151-163 `CreateRegionNetworkLink`, with the copy of the region that `CloneRegion` makes. -/
def createRegionNetworkLink (region : Elem) (href : Str) : Elem :=
  ((newNode Ty.«NetworkLink»).setOne M.«region» region).setOne M.«link»
    (((newNode Ty.«Link»).setSimple M.«href» Ty.«href» href).setSimple M.«viewrefreshmode» Ty.«viewRefreshMode» (chars! "onRegion"))

/-- regionator_util.cc 165-172 `CreateRegionDocument`, with the copy of the region. -/
def createRegionDocument (region : Elem) : Elem := (newNode Ty.«Document»).setOne M.«region» region

end Kml.Dom
