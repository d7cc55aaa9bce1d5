import Verif.Spec.Observers
import Verif.Spec.File
import Verif.Model.FeatureSaver

/-!
# Taking elements out of a document

The document that is left when some elements are taken out, and the elements taken out, in the order in which they
end.  Nothing is taken out of a `description` or an unknown element.
-/

namespace Kml.Dom

open Kml

mutual

/-- What is left of a piece of the content of an element of type `p`. -/
def Xml.left (out : Ty → Str → List (Str × Str) → Bool) (p : Ty) : Xml → List Xml
  | .text t => [.text t]
  | .empty name attrs => if isKnown name && out p name attrs then [] else [.empty name attrs]
  | .elem name attrs ks =>
    if isKnown name then
      if out p name attrs then []
      else [.elem name attrs (if name = chars! "description" then ks else leftOf out (tyIn p name) ks)]
    else [.elem name attrs ks]

/-- What is left of the content of an element of type `p`. -/
def leftOf (out : Ty → Str → List (Str × Str) → Bool) (p : Ty) : List Xml → List Xml
  | [] => []
  | x :: xs => x.left out p ++ leftOf out p xs

end

mutual

/-- The elements taken out, each without those taken out of it. -/
def Xml.taken (out : Ty → Str → List (Str × Str) → Bool) (p : Ty) : Xml → List Xml
  | .text _ => []
  | .empty name attrs => if isKnown name && out p name attrs then [.elem name attrs []] else []
  | .elem name attrs ks =>
    if isKnown name then
      (if name = chars! "description" then [] else takenOf out (tyIn p name) ks) ++
        (if out p name attrs then
          [.elem name attrs (if name = chars! "description" then ks else leftOf out (tyIn p name) ks)]
        else [])
    else []

/-- The same for the content of an element of type `p`. -/
def takenOf (out : Ty → Str → List (Str × Str) → Bool) (p : Ty) : List Xml → List Xml
  | [] => []
  | x :: xs => x.taken out p ++ takenOf out p xs

end

/-- The features that are not containers. -/
def savedTypes : List Ty :=
  [Ty.«Placemark», Ty.«NetworkLink», Ty.«GroundOverlay», Ty.«ScreenOverlay», Ty.«PhotoOverlay», Ty.«GxTour»]

/-- The elements the saver takes out: features that are not containers, shared styles if they are asked for, and
updates. -/
def saverTakes (styles : Bool) (p : Ty) (name : Str) (attrs : List (Str × Str)) : Bool :=
  decide (Xsd.elementId name ∈ savedTypes) || decide (Xsd.elementId name = Ty.«Update») ||
    (styles && decide (p = Ty.«Document») && decide (Xsd.elementId name ∈ [Ty.«Style», Ty.«StyleMap»]) &&
      (attrValue (chars! "id") attrs).isSome)

/-- The type of the element a piece of a document is. -/
def Xml.tag : Xml → Ty
  | .text _ => Ty.Unknown
  | .empty name _ => Xsd.elementId name
  | .elem name _ _ => Xsd.elementId name

/-- What `parse` gives for an element by itself. -/
def ReadAs (n : NumLib) (x : Xml) (e : Elem) : Prop := parseEvents n [] () x.events = .ok (some e, ())

end Kml.Dom
