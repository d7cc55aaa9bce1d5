import Verif.Spec.Listen
import Verif.Model.KmlFile

/-!
# What a document says about ids, styles and links
-/

namespace Kml.Dom

open Kml

/-- The value of an attribute of a tag; the last one, if there are more. -/
def attrValue (k : Str) (attrs : List (Str × Str)) : Option Str :=
  (attrs.filter fun a => a.1 = k).getLast?.map (·.2)

/-- The id of the object a tag stands for: an element that is not an object has none. -/
def tagId (t : Ty) (attrs : List (Str × Str)) : Option Str :=
  if (newNode t).isA Ty.«Object» = true then attrValue (chars! "id") attrs else none

/-- The type and the attributes of a start tag. -/
def Told.tag : Told → Option (Ty × List (Str × Str))
  | .start t attrs => some (t, attrs)
  | .attach _ _ => none

/-- The type of an element and an element in it. -/
def Told.inner : Told → Option (Ty × Xml)
  | .start _ _ => none
  | .attach p x => some (p, x)

/-- The start tags of a document, in document order. -/
def docStarts (name : Str) (attrs : List (Str × Str)) (ks : List Xml) : List (Ty × List (Str × Str)) :=
  (docTells name attrs ks).filterMap Told.tag

/-- The elements in elements of a document, with the type of the outer one, in the order of their end tags. -/
def docChildren (name : Str) (attrs : List (Str × Str)) (ks : List Xml) : List (Ty × Xml) :=
  (docTells name attrs ks).filterMap Told.inner

/-- Their ids. -/
def docIds (name : Str) (attrs : List (Str × Str)) (ks : List Xml) : List (Option Str) :=
  (docStarts name attrs ks).map fun t => tagId t.1 t.2

/-- The last place in a list with a given id. -/
def IsLast (l : List (Option Str)) (id : Str) (i : Nat) : Prop :=
  l[i]? = some (some id) ∧ ∀ j, i < j → l[j]? ≠ some (some id)

/-- The name, the attributes and the content of an element. -/
def Xml.parts : Xml → Option (Str × List (Str × Str) × List Xml)
  | .text _ => none
  | .empty name attrs => some (name, attrs, [])
  | .elem name attrs ks => some (name, attrs, ks)

/-- The id of a piece that is a `StyleSelector`: empty if it has none. -/
def styleId (x : Xml) : Option Str :=
  x.parts.bind fun q =>
    if (newNode (Xsd.elementId q.1)).isA Ty.«StyleSelector» = true then
      some ((attrValue (chars! "id") q.2.1).getD [])
    else none

/-- The link an element of an element of type `p` holds: the text of `href`, `styleUrl` and, in an `Alias`, of
`targetHref`, and the schema address of `SchemaData`. -/
def linkOf (p : Ty) (x : Xml) : Option Str :=
  x.parts.bind fun q =>
    if q.1 = chars! "href" ∨ q.1 = chars! "styleUrl" ∨ (q.1 = chars! "targetHref" ∧ p = Ty.«Alias») then
      some (directText q.2.2)
    else if q.1 = chars! "SchemaData" then attrValue (chars! "schemaUrl") q.2.1
    else none

end Kml.Dom
