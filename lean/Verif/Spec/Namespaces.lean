import Verif.Model.Namespaces
import Verif.Spec.Place

/-!
# Prefixes and declarations
-/

namespace Kml.Dom

open Kml

/-- The element whose tag a call writes. -/
def Call.tag : Call → Option Ty
  | .beginElem t _ => some t
  | .field t _ => some t
  | .color t _ => some t
  | _ => none

/-- The prefix of a name: what is before its colon. -/
def prefixOf (name : Str) : Option Str := if ':' ∈ name then some (name.takeWhile (· ≠ ':')) else none

/-- The KML namespace. -/
def kmlNamespace : Str := chars! "http://www.opengis.net/kml/2.2"

/-- The prefixes of names in KML files and their namespaces. -/
def standardPrefixes : List (Str × Str) :=
  [(chars! "gx", chars! "http://www.google.com/kml/ext/2.2"), (chars! "atom", chars! "http://www.w3.org/2005/Atom"),
   (chars! "xal", chars! "urn:oasis:names:tc:ciq:xsdschema:xAL:2.0")]

/-- The simple elements with a prefix that KML elements have. -/
def lonePrefixed : List Ty :=
  [Ty.«GxAltitudeMode», Ty.«GxBalloonVisibility», Ty.«GxX», Ty.«GxY», Ty.«GxW», Ty.«GxH»]

/-- The KML elements without a namespace of their own. -/
def namespaceless : List Ty :=
  [Ty.«hotSpot», Ty.«overlayXY», Ty.«screenXY», Ty.«rotationXY», Ty.«size», Ty.«innerBoundaryIs», Ty.«outerBoundaryIs»]

/-- No misplaced child has a name with a prefix. -/
def PlainStray : Elem → Prop
  | .field _ _ => True
  | .node _ _ _ mis _ => ∀ x ∈ mis, prefixOf (Xsd.elementName x.ty) = none

/-- The element or one that is found below it. -/
def Found (root y : Elem) : Prop := y = root ∨ ∃ p, (p, y) ∈ getChildElements root true

end Kml.Dom
