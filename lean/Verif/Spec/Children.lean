import Verif.Model.Serializer

/-!
# Children of an element

What an element writes for its children, and handing children to an element one after the other.
-/

namespace Kml.Dom

open Kml

/-- What an element writes for the children in one of its members: one list of calls for each child. -/
def Write.pieces (slots : Mem → List Elem) (w : Write) : List (List Call) :=
  match w.valueCalls slots with
  | some cs => cs.map fun c => [c]
  | none => callsEach (slots w.mem)

/-- What an element writes for its children, in order: one list of calls for each child. -/
def Elem.pieces : Elem → List (List Call)
  | .field _ _ => []
  | .node t _ slots mis _ => ((classAt t).writes.flatMap fun w => w.pieces slots) ++ callsEach mis

/-- Hand children to an element, one after the other. -/
def addAll (n : NumLib) : Elem → List Elem → Outcome Elem
  | e, [] => .ok e
  | e, c :: cs => do
    let e ← addElement n [] e c
    addAll n e cs

/-- The member a branch of `AddElement` changes. -/
def Act.mem : Act → Mem
  | .field m _ | .fields m _ | .one m | .many m | .selfText m | .selfPoints m => m

/-- The branch of `AddElement` of an element of type `t` that takes a child. -/
def taker (t : Ty) (child : Elem) : Option Act :=
  match classOf t with
  | some c => findRule c.rules child
  | none => none

/-- The children an element of type `t` takes into member `m`. -/
def goesTo (t : Ty) (m : Mem) (cs : List Elem) : List Elem :=
  cs.filter fun e => (taker t e).map Act.mem = some m

/-- The children an element of type `t` has no place for. -/
def homeless (t : Ty) (cs : List Elem) : List Elem :=
  cs.filter fun e => (taker t e).isNone

/-- The elements that take the place of their children by their own text: `Snippet`, `linkSnippet`,
`coordinates`, `SimpleData`. -/
def textual (t : Ty) : Bool :=
  t = Ty.«Snippet» || t = Ty.«linkSnippet» || t = Ty.«coordinates» || t = Ty.«SimpleData»

/-- A simple element is of a simple type, any other has a class. -/
def Proper : Elem → Prop
  | .field t _ => Xsd.elementType t = .simple
  | .node t _ _ _ _ => (classOf t).isSome = true

/-- A child is written as `piece` by a parent that takes it with branch `act`: a simple element as the value it
is read as, where `old` is the value it replaces; any other element as it is written itself. -/
def WrittenAs (n : NumLib) (child : Elem) (act : Act) (old : Option Str) (piece : List Call) : Prop :=
  match child, act with
  | .field t text, .field _ k =>
    ∃ s, readValue n k t old text = .ok (some s) ∧ (piece = [.field t s] ∨ piece = [.color t s])
  | .field t text, .fields _ k =>
    ∃ s, readValue n k t none text = .ok (some s) ∧ (piece = [.field t s] ∨ piece = [.color t s])
  | e, _ => piece = calls e

/-- The text of a simple child is understood: it is not an unknown name in an enumeration. -/
def Understood (child : Elem) (act : Act) : Prop :=
  match child, act with
  | .field t text, .field _ .enum => (Xsd.enumId t text).isSome = true
  | .field t text, .fields _ .enum => (Xsd.enumId t text).isSome = true
  | _, _ => True

/-- The member holds any number of children. -/
def Act.isArray : Act → Bool
  | .fields _ _ | .many _ => true
  | _ => false

end Kml.Dom
