import Verif.Model.Lit

/-!
# What the element tables should say

Written without reference to the lookups of the model.
-/

namespace Kml.Spec

/-- A name without its colon and without regard to case: "gx:Tour" and "GxTour" are alike. -/
def plainName (s : Str) : Str := (s.filter (· ≠ ':')).map toLower

/-- The enumerators whose element has another name in KML, with that name. -/
def renamed : List (Str × Str) :=
  [(chars! "Type_ColorStyle", chars! "AbstractColorStyleGroup"),
   (chars! "Type_Object", chars! "AbstractObjectGroup"),
   (chars! "Type_Overlay", chars! "AbstractOverlayGroup"),
   (chars! "Type_SubStyle", chars! "AbstractSubStyleGroup"),
   (chars! "Type_Vec2", chars! "vec2Type"),
   (chars! "Type_GxTourPrimitive", chars! "gx:AbstractTourPrimitiveGroup"),
   (chars! "Type_IconStyleIcon", chars! "Icon")]

/-- `name` is the element name the enumerator `e` stands for. -/
def NamedBy (e name : Str) : Bool :=
  match renamed.find? (fun r => decide (r.1 = e)) with
  | some r => r.2 = name
  | none => plainName (chars! "Type_" ++ name) = plainName e

/-- The enumeration values of the KML 2.2 and gx schemas, by element name. -/
def kmlEnums : List (Str × List Str) :=
  [(chars! "altitudeMode", [chars! "clampToGround", chars! "relativeToGround", chars! "absolute"]),
   (chars! "colorMode", [chars! "normal", chars! "random"]),
   (chars! "displayMode", [chars! "default", chars! "hide"]),
   (chars! "gridOrigin", [chars! "lowerLeft", chars! "upperLeft"]),
   (chars! "state", [chars! "open", chars! "closed", chars! "error", chars! "fetching0",
     chars! "fetching1", chars! "fetching2"]),
   (chars! "listItemType", [chars! "check", chars! "radioFolder", chars! "checkOffOnly",
     chars! "checkHideChildren"]),
   (chars! "refreshMode", [chars! "onChange", chars! "onInterval", chars! "onExpire"]),
   (chars! "shape", [chars! "rectangle", chars! "cylinder", chars! "sphere"]),
   (chars! "key", [chars! "normal", chars! "highlight"]),
   (chars! "units", [chars! "fraction", chars! "pixels", chars! "insetPixels"]),
   (chars! "viewRefreshMode", [chars! "never", chars! "onRequest", chars! "onStop",
     chars! "onRegion"]),
   (chars! "gx:altitudeMode", [chars! "clampToSeaFloor", chars! "relativeToSeaFloor"]),
   (chars! "gx:flyToMode", [chars! "bounce", chars! "smooth"]),
   (chars! "gx:playMode", [chars! "pause"])]

end Kml.Spec
