import Verif.Spec.Canonical

/-!
# Documents that come through

What a document has to look like so that reading it, writing what was read, and reading that gives the same elements.  Every
condition is about the document.
-/

namespace Kml.Dom

open Kml

/-- A text of characters XML allows, without CDATA marks. -/
def Clean (s : Str) : Prop :=
  (∀ c ∈ s, legalChar c = true) ∧ ¬ (chars! "<![CDATA[") <:+: s ∧ ¬ (chars! "]]>") <:+: s

/-- Content without elements. -/
def NoElements (ks : List Xml) : Prop := ∀ x ∈ ks, x.name? = none

/-- A known element with these attributes and this content, in a parent of the given name (`none` for the root), as far as
its own tag and texts go; `pretty` says with which serializer it is written.
 * Attribute values need no escapes.
 * The content of a simple element has no CDATA marks; that of a `description` is taken with all its markup.
 * The elements with text of their own are not written with `SerializePretty`.
 * `SerializeRaw` writes at most one point. -/
structure FaithfulElem (n : NumLib) (pretty : Bool) (parent : Option Str) (name : Str) (attrs : List (Str × Str)) (ks : List Xml) :
    Prop where
  values : ∀ e ∈ attrs, XmlName e.1 ∧ PlainAttr e.2
  schema : name = chars! "Schema" → chars! "parent" ∉ attrs.map (·.1)
  locality : name = chars! "xal:LocalityName" → parent ≠ some (chars! "xal:Locality")
  icon : name ≠ chars! "IconStyleIcon"
  simple : Xsd.elementType (Xsd.elementId name) = .simple →
    Clean (if name = chars! "description" then renderAll ks else directText ks)
  text : name = chars! "Snippet" ∨ name = chars! "linkSnippet" ∨ name = chars! "SimpleData" →
    pretty = false ∧ NoElements ks ∧ Clean (directText ks)
  points : name = chars! "coordinates" → attrs = [] ∧ NoElements ks ∧
    (pretty = true ∨ ∀ pts, Coords.parse n (directText ks).length (directText ks) [] = some (.ok pts) → pts.length ≤ 1)

mutual

/-- A piece of a document that comes through, in a parent of the given name.  Of the content of a simple element only the
texts matter.  An unknown element has no markup characters in its texts and values. -/
def Xml.Faithful (n : NumLib) (pretty : Bool) (parent : Option Str) : Xml → Prop
  | .text _ => True
  | .empty name attrs =>
    if isKnown name = true then FaithfulElem n pretty parent name attrs [] else (Xml.empty name attrs).Plain
  | .elem name attrs ks =>
    if isKnown name = true then
      FaithfulElem n pretty parent name attrs ks ∧
        (Xsd.elementType (Xsd.elementId name) = .simple ∨ FaithfulAll n pretty (some name) ks)
    else (Xml.elem name attrs ks).Plain

/-- The same for a sequence. -/
def FaithfulAll (n : NumLib) (pretty : Bool) (parent : Option Str) : List Xml → Prop
  | [] => True
  | x :: xs => x.Faithful n pretty parent ∧ FaithfulAll n pretty parent xs

end

end Kml.Dom
