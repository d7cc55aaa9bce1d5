import Verif.Spec.Update
import Verif.Props.RoundTrip
/-! What the elements that are made are to be. -/
namespace Kml.Dom
open Kml

/-- The element, written with or without line breaks and read again, is the same. -/
def Rereads (n : NumLib) (e : Elem) : Prop :=
  reread n ['\n'] (chars! "  ") e = .ok (some e) ∧ reread n [] [] e = .ok (some e)

/-- The names of `altitudeMode`. -/
def altitudeModes : List Str := ["clampToGround".toList, "relativeToGround".toList, "absolute".toList]

/-- The texts of the points of a geometry with `coordinates`. -/
def Elem.pointTexts (g : Elem) : List Str :=
  ((g.inside M.«coordinates»).flatMap fun c => c.inside M.«coordinates_array»).filterMap fun
    | .field _ s => some s
    | .node .. => none

/-- What is written for a position: longitude, latitude and altitude, which is 0 if there is none. -/
def positionText (v : Coords.Vec3) : Str := v.lon ++ ",".toList ++ v.lat ++ ",".toList ++ (if v.hasAlt then v.alt else "0".toList)

end Kml.Dom
