import Verif.Model.Visitor
import Verif.Spec.Place

/-!
# What a visit is meant to be
-/

namespace Kml.Dom

open Kml

/-- The name of the class of an instance (`BasicElement`s and fields included). -/
def className : Elem → Str
  | .field _ _ => chars! "Field"
  | .node t _ _ _ _ => ((classNames.find? fun e => e.1 = t).map (·.2)).getD (chars! "Element")

/-- The class of an instance, its base class, the base class of that and so on (`Field`, element.h 290, is an
`Element`). -/
def lineage : Elem → List Str
  | .field _ _ => [chars! "Field", chars! "Element"]
  | .node t a s m u => follow baseTable (className (.node t a s m u))

/-- `Visitor` has a method for the class. -/
def hasMethod (c : Str) : Bool := c = chars! "Element" || (visitorTable.map (·.1)).contains c

/-- The types of Atom and xAL elements. -/
def foreignTypes : List Ty :=
  [Ty.«AtomAuthor», Ty.«AtomCategory», Ty.«AtomContent», Ty.«AtomEntry», Ty.«AtomFeed», Ty.«AtomLink»,
   Ty.«XalAddressDetails», Ty.«XalAdministrativeArea», Ty.«XalCountry», Ty.«XalLocality», Ty.«XalPostalCode»,
   Ty.«XalSubAdministrativeArea», Ty.«XalThoroughfare»]

/-- Every step down to a place is one to an item of a member, and none is to an Atom or xAL element. -/
def Plain (e : Elem) (p : List Step) : Prop :=
  ∀ q s r, p = q ++ s :: r → (∃ m i, s = .slot m i) ∧ ∀ x, e.at (q ++ [s]) = some x → x.ty ∉ foreignTypes

/-- The types and the names `Visitor` has for them: those of the instances and the abstract ones. -/
def kinds : List (Ty × Str) :=
  classNames ++
  [(Ty.«Object», chars! "Object"), (Ty.«Feature», chars! "Feature"), (Ty.«Container», chars! "Container"),
   (Ty.«Geometry», chars! "Geometry"), (Ty.«Overlay», chars! "Overlay"), (Ty.«StyleSelector», chars! "StyleSelector"),
   (Ty.«TimePrimitive», chars! "TimePrimitive"), (Ty.«AbstractView», chars! "AbstractView"),
   (Ty.«BasicLink», chars! "BasicLink"), (Ty.«ColorStyle», chars! "ColorStyle"), (Ty.«SubStyle», chars! "SubStyle"),
   (Ty.«Vec2», chars! "Vec2"), (Ty.«AbstractLatLonBox», chars! "AbstractLatLonBox"),
   (Ty.«GxTourPrimitive», chars! "GxTourPrimitive")]

end Kml.Dom
