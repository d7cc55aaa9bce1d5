import Verif.Model.Handler

/-!
# XML documents

An XML document as a tree, the events an XML parser delivers for it, and its text with every tag written
out in full.
-/

namespace Kml.Dom

open Kml

/-- A piece of an XML document: text, an empty-element tag `<name attrs/>`, or an element with a start tag, content
and an end tag. -/
inductive Xml where
  | text (s : Str)
  | empty (name : Str) (attrs : List (Str × Str))
  | elem (name : Str) (attrs : List (Str × Str)) (kids : List Xml)

/-- Character data, one character at a time. -/
def charEvents (s : Str) : List Ev := s.map fun c => Ev.chars [c]

mutual

/-- The events of a piece of a document. -/
def Xml.events : Xml → List Ev
  | .text s => charEvents s
  | .empty n a => [.empty n a]
  | .elem n a ks => .start n a :: eventsOf ks ++ [.stop n]

/-- The events of a sequence of pieces. -/
def eventsOf : List Xml → List Ev
  | [] => []
  | x :: xs => x.events ++ eventsOf xs

end

/-- The text of attributes, each ` name="value"`. -/
def attrsText (a : List (Str × Str)) : Str :=
  a.flatMap fun e => ' ' :: e.1 ++ '=' :: '"' :: e.2 ++ ['"']

mutual

/-- The text of a piece, decoded, with start and end tags written out. -/
def Xml.render : Xml → Str
  | .text s => s
  | .empty n a => '<' :: n ++ attrsText a ++ chars! "></" ++ n ++ ['>']
  | .elem n a ks => '<' :: n ++ attrsText a ++ '>' :: renderAll ks ++ chars! "</" ++ n ++ ['>']

/-- The text of a sequence of pieces. -/
def renderAll : List Xml → Str
  | [] => []
  | x :: xs => x.render ++ renderAll xs

end

mutual

/-- How deeply elements are nested. -/
def Xml.depth : Xml → Nat
  | .text _ => 0
  | .empty _ _ => 1
  | .elem _ _ ks => depthOf ks + 1

/-- The greatest depth of a sequence. -/
def depthOf : List Xml → Nat
  | [] => 0
  | x :: xs => max x.depth (depthOf xs)

end

/-- A tag name that stands for an element: a simple one, or one whose class can be instantiated. -/
def isKnown (name : Str) : Bool :=
  match Xsd.elementType (Xsd.elementId name) with
  | .complex => (classOf (Xsd.elementId name)).isSome
  | .simple => true
  | .unknown => false

mutual

/-- Every element of a piece has a name and attributes with the given property. -/
def Xml.All (P : Str → List (Str × Str) → Prop) : Xml → Prop
  | .text _ => True
  | .empty n a => P n a
  | .elem n a ks => P n a ∧ AllOf P ks

/-- Every element of a sequence has a name and attributes with the given property. -/
def AllOf (P : Str → List (Str × Str) → Prop) : List Xml → Prop
  | [] => True
  | x :: xs => x.All P ∧ AllOf P xs

end

/-- Not the tag of an old-style schema, `<Schema parent="..." name="...">`. -/
def NotOldSchema (name : Str) (attrs : List (Str × Str)) : Prop :=
  name = chars! "Schema" → chars! "parent" ∈ attrs.map (·.1) → chars! "name" ∈ attrs.map (·.1) → False

mutual

/-- A piece in which `description` occurs only inside known elements or other descriptions, not inside
unknown elements. -/
def Xml.Tame : Xml → Prop
  | .text _ => True
  | .empty _ _ => True
  | .elem n _ ks =>
    if n = chars! "description" then True
    else if isKnown n then TameAll ks
    else AllOf (fun m _ => m ≠ chars! "description") ks

/-- The same for a sequence. -/
def TameAll : List Xml → Prop
  | [] => True
  | x :: xs => x.Tame ∧ TameAll xs

end

/-- The character data directly inside an element. -/
def directText : List Xml → Str
  | [] => []
  | .text s :: xs => s ++ directText xs
  | _ :: xs => directText xs

/-- The text of an element of the given name can be read: points in `coordinates`, numbers in `gx:coord` and
`gx:angles`, a colour in the three colour elements.  All other elements take any text. -/
def ReadableText (n : NumLib) (name text : Str) : Prop :=
  (name = chars! "coordinates" → (readPoints n text).Safe) ∧
  (name = chars! "gx:coord" ∨ name = chars! "gx:angles" → (readTriple n text).Safe) ∧
  (name = chars! "color" ∨ name = chars! "bgColor" ∨ name = chars! "textColor" → (readColor text).Safe)

mutual

/-- The text of every element of a piece can be read. -/
def Xml.Readable (n : NumLib) : Xml → Prop
  | .text _ => True
  | .empty name _ => ReadableText n name []
  | .elem name _ ks => ReadableText n name (directText ks) ∧ ReadableAll n ks

/-- The text of every element of a sequence can be read. -/
def ReadableAll (n : NumLib) : List Xml → Prop
  | [] => True
  | x :: xs => x.Readable n ∧ ReadableAll n xs

end

end Kml.Dom
