import Verif.Spec.File

/-!
# Documents with an old-style schema, and what they stand for

`<Schema name="N" parent="Placemark">` declares elements `<N>` whose fields are written as elements of their own.  What such a
document stands for is told by a document without any of that: the schema has the id `N_id`, and an element `<N>` is a
`<Placemark>` with the fields as schema data.
-/

namespace Kml.Dom

open Kml

/-- The names of the fields a schema lists. -/
def fieldNamesOf : List Xml → List Str
  | [] => []
  | .text _ :: l => fieldNamesOf l
  | .empty m a :: l => (if m = chars! "SimpleField" then (attrValue (chars! "name") a).toList else []) ++ fieldNamesOf l
  | .elem m a _ :: l => (if m = chars! "SimpleField" then (attrValue (chars! "name") a).toList else []) ++ fieldNamesOf l

/-- A name that is neither that of a schema, nor the one the schema declares, nor that of a field (a field with the name of a
KML element is not a field). -/
def Ordinary (N : Str) (fs : List Str) (name : Str) (_ : List (Str × Str)) : Prop :=
  name ≠ chars! "Schema" ∧ name ≠ N ∧ (isKnown name = true ∨ name ∉ fs)

/-- A name no element of KML has. -/
def Foreign (name : Str) : Prop := Xsd.elementType (Xsd.elementId name) = .unknown

/-- The value of a field: its name and its text. -/
inductive FieldValue (N : Str) (fs : List Str) : Xml → Str × Str → Prop
  | empty {f : Str} {a : List (Str × Str)} : f ∈ fs → Foreign f → f ≠ N → FieldValue N fs (.empty f a) (f, [])
  | elem {f : Str} {a : List (Str × Str)} {ks : List Xml} : f ∈ fs → Foreign f → f ≠ N → (∀ x ∈ ks, ∃ s, x = Xml.text s) →
    FieldValue N fs (.elem f a ks) (f, directText ks)

/-- Fields as schema data. -/
def asSchemaData (N : Str) (fields : List (Str × Str)) : Xml :=
  .elem (chars! "ExtendedData") [] [.elem (chars! "SchemaData") [(chars! "schemaUrl", N ++ chars! "_id")]
    (fields.map fun f => .elem (chars! "SimpleData") [(chars! "name", f.1)] [.text f.2])]

/-- The content of an element `<N>`, told apart: the fields, and the rest. -/
inductive Apart (N : Str) (fs : List Str) : List Xml → List (Str × Str) → List Xml → Prop
  | nil : Apart N fs [] [] []
  | field {k : Xml} {v : Str × Str} {ks others : List Xml} {fields : List (Str × Str)} : FieldValue N fs k v →
    Apart N fs ks fields others → Apart N fs (k :: ks) (v :: fields) others
  | other {k : Xml} {ks others : List Xml} {fields : List (Str × Str)} : k.All (Ordinary N fs) → k.Tame →
    Apart N fs ks fields others → Apart N fs (k :: ks) fields (k :: others)

mutual

/-- A piece of the document after the schema, and what it stands for. -/
inductive Modern (N : Str) (fs : List Str) : Xml → Xml → Prop
  | same {x : Xml} : x.All (Ordinary N fs) → x.Tame → Modern N fs x x
  | feature {a : List (Str × Str)} {ks others : List Xml} {fields : List (Str × Str)} : Apart N fs ks fields others →
    Modern N fs (.elem N a ks) (.elem (chars! "Placemark") a (others ++ [asSchemaData N fields]))
  | inside {m : Str} {a : List (Str × Str)} {ks ks' : List Xml} : isKnown m = true → m ≠ chars! "description" →
    Ordinary N fs m a → ModernAll N fs ks ks' → Modern N fs (.elem m a ks) (.elem m a ks')

/-- The same for a sequence. -/
inductive ModernAll (N : Str) (fs : List Str) : List Xml → List Xml → Prop
  | nil : ModernAll N fs [] []
  | cons {x x' : Xml} {xs xs' : List Xml} : Modern N fs x x' → ModernAll N fs xs xs' → ModernAll N fs (x :: xs) (x' :: xs')

end

/-- A document with an old-style schema for `N` with the fields `fs`, and what it stands for. -/
inductive Upgrade (N : Str) (fs : List Str) : Xml → Xml → Prop
  | schema {m p : Str} {a b : List (Str × Str)} {pre ks post post' : List Xml} :
    isKnown m = true → m ≠ chars! "description" → m ≠ chars! "Schema" → AllOf NotOldSchema pre → TameAll pre →
    (b = [(chars! "name", N), (chars! "parent", p)] ∨ b = [(chars! "parent", p), (chars! "name", N)]) →
    AllOf (Ordinary N []) ks → TameAll ks → fieldNamesOf ks = fs → ModernAll N fs post post' →
    Upgrade N fs (.elem m a (pre ++ .elem (chars! "Schema") b ks :: post))
      (.elem m a (pre ++ .elem (chars! "Schema") [(chars! "id", N ++ chars! "_id"), (chars! "name", N)] ks :: post'))
  | inside {m : Str} {a : List (Str × Str)} {x x' : Xml} {pre post post' : List Xml} :
    isKnown m = true → m ≠ chars! "description" → m ≠ chars! "Schema" → AllOf NotOldSchema pre → TameAll pre →
    Upgrade N fs x x' → ModernAll N fs post post' →
    Upgrade N fs (.elem m a (pre ++ x :: post)) (.elem m a (pre ++ x' :: post'))

mutual

/-- The element, with the attribute `parent` of every schema left out. -/
def Elem.withoutParent : Elem → Elem
  | .field t s => .field t s
  | .node t a slots mis unk =>
    .node t (if t = Ty.«Schema» then { a with unknown := a.unknown.filter fun e => e.1 ≠ chars! "parent" } else a)
      (fun i => withoutParents (slots i)) (withoutParents mis) unk

/-- The same for a list. -/
def withoutParents : List Elem → List Elem
  | [] => []
  | e :: l => e.withoutParent :: withoutParents l

end

end Kml.Dom
