import Verif.Model.Walk
import Verif.Spec.Held

/-!
# Places in an element tree
-/

namespace Kml.Dom

open Kml

/-- The child one step down. -/
def Elem.child : Elem → Step → Option Elem
  | .field _ _, _ => none
  | .node _ _ slots _ _, .slot m i => (slots m)[i]?
  | .node _ _ _ mis _, .mis i => mis[i]?

/-- The element at a place. -/
def Elem.at (e : Elem) : List Step → Option Elem
  | [] => some e
  | s :: p => (e.child s).bind fun x => x.at p

/-- Not a simple element. -/
def Elem.complex : Elem → Bool
  | .field _ _ => false
  | .node .. => true

/-- The place is that of a child in a member, not that of a misplaced one. -/
def InMember (p : List Step) : Prop := ∃ q m i, p = q ++ [.slot m i]

/-- All misplaced children are simple. -/
def Tidy : Elem → Prop
  | .field _ _ => True
  | .node _ _ _ mis _ => ∀ x ∈ mis, x.complex = false

/-- The start tag of an element, as a call on a serializer. -/
def startCall : Elem → Call
  | .field t s => .field t s
  | .node t a _ _ _ => .beginElem t (if t = Ty.«coordinates» then [] else serializeAttributes (classAt t) a)

/-- Whether a call writes a start tag of a complex element. -/
def Call.isStart : Call → Bool
  | .beginElem _ _ => true
  | _ => false

end Kml.Dom
