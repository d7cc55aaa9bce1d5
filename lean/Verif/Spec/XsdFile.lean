import Verif.Model.XsdFile
import Verif.Spec.XmlTree

/-! # XSD files: what they say

What an XSD document declares, read off the document, and the hierarchy of its types. -/

namespace Kml.XsdDoc

open Kml

/-! ## The hierarchy -/

/-- `b` is the base of `c`: `c` extends `prefix:name`, with the prefix of the target namespace, and `b` is the complex type
of that name. -/
def BaseOf (f : File) (s : Schema) (c b : Complex) : Prop :=
  ∃ name, name ≠ [] ∧ c.base = s.pre ++ ':' :: name ∧ (name, XType.complex b) ∈ f.types

/-- `b` is the base of `c`, or of its base, or so on. -/
inductive Ancestor (f : File) (s : Schema) : Complex → Complex → Prop
  | base {c b : Complex} : BaseOf f s c b → Ancestor f s c b
  | step {c b a : Complex} : BaseOf f s c b → Ancestor f s b a → Ancestor f s c a

/-- The chain of bases of a type: complete if the last one extends nothing, and broken off if it extends something that
is not in the file. -/
inductive Chain (f : File) (s : Schema) : Complex → List Complex → Bool → Prop
  | root {c : Complex} : c.base = [] → Chain f s c [] true
  | unknown {c : Complex} : c.base ≠ [] → (∀ b, ¬ BaseOf f s c b) → Chain f s c [] false
  | base {c b : Complex} {l : List Complex} {done : Bool} : BaseOf f s c b → Chain f s b l done → Chain f s c (b :: l) done

/-- Some type is its own ancestor: `c` or an ancestor of it. -/
def Cyclic (f : File) (s : Schema) (c : Complex) : Prop := ∃ b, (b = c ∨ Ancestor f s c b) ∧ Ancestor f s b b

/-- Facts of files: elements and types are kept in order, each under its name, and the type id of an element is the one
of its type. -/
structure File.Ok (f : File) : Prop where
  elements_sorted : f.elements.Sorted
  types_sorted : f.types.Sorted
  elements_named : ∀ k e, (k, e) ∈ f.elements → e.name_ = k
  types_named : ∀ k t, (k, t) ∈ f.types → t.name = k
  type_ids : ∀ k e, (k, e) ∈ f.elements → e.typeId = getTypeId e.type_

/-- The element has a type of the file: its type attribute is `prefix:name`, with the prefix of the target namespace. -/
def HasType (f : File) (e : Element) (t : XType) : Prop :=
  ∃ s name, f.schema = some s ∧ name ≠ [] ∧ e.type_ = s.pre ++ ':' :: name ∧ (name, t) ∈ f.types

/-- The element has one of the built-in types. -/
def HasBuiltin (e : Element) : Prop := e.type_ ∈ primitiveNames

/-! ## Documents -/

/-- The value of an attribute. -/
def attr (a : List (Str × Str)) (k : Str) : Option Str := (a.reverse.find? fun e => e.1 == k).map (·.2)

/-- A tag: the name of the element around it (empty for the root), its own name and attributes. -/
structure Tag where
  parent : Str
  name : Str
  attrs : List (Str × Str)

mutual

/-- The start tags of a piece of a document, in order. -/
def tags (p : Str) : Dom.Xml → List Tag
  | .text _ => []
  | .empty n a => [⟨p, n, a⟩]
  | .elem n a ks => ⟨p, n, a⟩ :: tagsOf n ks

/-- The start tags of several pieces. -/
def tagsOf (p : Str) : List Dom.Xml → List Tag
  | [] => []
  | x :: xs => tags p x ++ tagsOf p xs

end

/-- `complexType` and `simpleType`. -/
def isType (n : Str) : Bool := n == chars! "complexType" || n == chars! "simpleType"

/-- What `<element>` declares: with a `name` an element, with only a `ref` a reference. -/
def declared (a : List (Str × Str)) : Option Element :=
  match attr a (chars! "name"), attr a (chars! "ref") with
  | some n, _ =>
    some
      { abstract_ := ((attr a (chars! "abstract")).map StringUtil.boolFromString).getD false
        ref_ := false
        default_ := (attr a (chars! "default")).getD []
        name_ := n
        type_ := (attr a (chars! "type")).getD []
        typeId := getTypeId ((attr a (chars! "type")).getD [])
        substitutionGroup := (attr a (chars! "substitutionGroup")).getD [] }
  | none, some r => some { ref_ := true, name_ := r }
  | none, none => none

/-- The global elements: the children of `<schema>`. -/
def globals (l : List Tag) : List Element :=
  l.filterMap fun t => if t.parent = chars! "schema" ∧ t.name = chars! "element" then declared t.attrs else none

/-- The elements inside a type. -/
def locals (l : List Tag) : List Element :=
  l.filterMap fun t => if t.parent ≠ chars! "schema" ∧ t.name = chars! "element" then declared t.attrs else none

/-- The values of an attribute on all elements of a name. -/
def valuesOf (name key : Str) (l : List Tag) : List Str :=
  l.filterMap fun t => if t.name = name then attr t.attrs key else none

/-- The type that `<complexType>` or `<simpleType>` declares, with the tags it contains. -/
def declaredType (n : Str) (a : List (Str × Str)) (inner : List Tag) : XType :=
  if n = chars! "complexType" then
    .complex ⟨(attr a (chars! "name")).getD [], (valuesOf (chars! "extension") (chars! "base") inner).getLast?.getD [],
      locals inner⟩
  else
    .simple ⟨(attr a (chars! "name")).getD [], (valuesOf (chars! "restriction") (chars! "base") inner).getLast?.getD [],
      valuesOf (chars! "enumeration") (chars! "value") inner⟩

mutual

/-- The types a piece of a document declares, in order. -/
def typeDecls : Dom.Xml → List XType
  | .text _ => []
  | .empty n a => if isType n then [declaredType n a []] else []
  | .elem n a ks => if isType n then [declaredType n a (tagsOf n ks)] else typeDeclsOf ks

/-- The types of several pieces. -/
def typeDeclsOf : List Dom.Xml → List XType
  | [] => []
  | x :: xs => typeDecls x ++ typeDeclsOf xs

end

mutual

/-- Every type has a name and contains no other type. -/
def Tidy : Dom.Xml → Prop
  | .text _ => True
  | .empty n a => isType n = true → (attr a (chars! "name")).isSome = true
  | .elem n a ks =>
    if isType n then (attr a (chars! "name")).isSome = true ∧ ∀ t ∈ tagsOf n ks, isType t.name = false
    else TidyAll ks

/-- The same of several pieces. -/
def TidyAll : List Dom.Xml → Prop
  | [] => True
  | x :: xs => Tidy x ∧ TidyAll xs

end

/-- The schema: what the last `<schema>` tag says. -/
def lastSchema (l : List Tag) : Option (List (Str × Str)) :=
  ((l.filter fun t => t.name == chars! "schema").getLast?).map (·.attrs)

end Kml.XsdDoc
