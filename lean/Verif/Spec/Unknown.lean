import Verif.Spec.Lexer
import Verif.Model.Serializer

/-!
# Unknown content
-/

namespace Kml.Dom

open Kml

/-- The name of a piece that is an element. -/
def Xml.name? : Xml → Option Str
  | .text _ => none
  | .empty n _ => some n
  | .elem n _ _ => some n

/-- The unknown elements among these pieces. -/
def unknownAmong (xs : List Xml) : List Xml := xs.filter fun x => x.name?.any fun n => !isKnown n

/-- The unknown children of an element. -/
def Elem.unknown : Elem → List Str
  | .field _ _ => []
  | .node _ _ _ _ unk => unk

/-- An instance of a class, not a simple element. -/
def Elem.isNode : Elem → Bool
  | .field _ _ => false
  | .node .. => true

mutual

/-- A subtree that is read back from its text: names are XML names, attribute values and texts have no markup
characters. -/
def Xml.Plain : Xml → Prop
  | .text s => ∀ c ∈ s, legalChar c = true ∧ c ≠ '<' ∧ c ≠ '&' ∧ c ≠ '>'
  | .empty n a => XmlName n ∧ PlainAttrs a
  | .elem n a ks => XmlName n ∧ PlainAttrs a ∧ PlainAll ks

/-- The same for a sequence. -/
def PlainAll : List Xml → Prop
  | [] => True
  | x :: xs => x.Plain ∧ PlainAll xs

end

mutual

/-- The same tree with `<a></a>` for `<a/>`. -/
def Xml.full : Xml → Xml
  | .text s => .text s
  | .empty n a => .elem n a []
  | .elem n a ks => .elem n a (fullAll ks)

/-- The same for a sequence. -/
def fullAll : List Xml → List Xml
  | [] => []
  | x :: xs => x.full :: fullAll xs

end

end Kml.Dom
