import Verif.Model.Serializer

/-!
# Copying an element (src/kml/engine/clone.cc)

`Clone` serializes an element into an `ElementReplicator`, a serializer that builds a new element from the calls.
The new elements come from the factory, and the calls carry only types, texts and attributes: no element of the
original reaches the copy.
-/

namespace Kml.Dom

open Kml
open Kml.Attributes (Attributes)

/-- clone.cc 154-160, the members of `ElementReplicator`: `clone_stack_`, the first item of the list being its top,
and `char_data_`.  `serializing_unknown_` is true exactly for the content that is not to be quoted
(element.cc 66-85 `SerializeUnknown` makes those calls between `BeginElementArray(Type_Unknown)` and its end; all
other content is `SaveContent(..., true)`, and `SaveVec3` is overridden). -/
structure Rep where
  stack : List Elem
  charData : Str

/-- clone.cc 77-85, `child->AddElement(child)`: an element that does not take its own text there becomes its own
child, and every walk over it is endless; this is undefined here. -/
def Rep.parseItself (n : NumLib) (charData : Str) (e : Elem) : Outcome Elem :=
  match e with
  | .field _ _ => .ub
  | .node t _ _ _ _ =>
    match classOf t with
    | none => .ub
    | some c =>
      match findRule c.rules e with
      | some (.selfText _) | some (.selfPoints _) => addElement n charData e e
      | _ => .ub

/-- clone.cc 69-93 `End`: `top()` of an empty stack is undefined. -/
def Rep.endElem (n : NumLib) (r : Rep) : Outcome Rep :=
  match r.stack with
  | [] => .ub
  | child :: rest => do
    let child ← if r.charData = [] then .ok child else Rep.parseItself n r.charData child
    match rest with
    | [] => .ok ⟨[child], []⟩
    | parent :: rest => do
      let parent ← addElement n [] parent child
      .ok ⟨parent :: rest, []⟩

/-- clone.cc 96-101 `SaveStringFieldById`: `top()` of an empty stack is undefined. -/
def Rep.field (n : NumLib) (r : Rep) (t : Ty) (text : Str) : Outcome Rep :=
  match r.stack with
  | [] => .ub
  | parent :: rest => do
    let parent ← addElement n [] parent (.field t text)
    .ok { r with stack := parent :: rest }

/-- One call on an `ElementReplicator`:
 * clone.cc 61-66 `BeginById` (`CreateElementById` gives NULL for a type without a class, and `ParseAttributes` is
   called through it);
 * clone.cc 121-132 `SaveContent`;
 * clone.cc 135-139 `SaveVec3`;
 * clone.cc 142-144 `SaveColor`;
 * serializer.h `Indent`, which does nothing. -/
def Rep.call (n : NumLib) (r : Rep) : Call → Outcome Rep
  | .beginElem t a =>
    match classOf t with
    | none => .ub
    | some c => .ok { r with stack := .node t (parseAttributes n c a) (fun _ => []) [] [] :: r.stack }
  | .endElem => r.endElem n
  | .field t text => r.field n t text
  | .color t text => r.field n t text
  | .content text quote =>
    if quote then .ok { r with charData := r.charData ++ text }
    else
      match r.stack with
      | [] => .ok r
      | top :: rest => .ok { r with stack := addUnknownElement top text :: rest }
  | .vec3 text =>
    match r.stack with
    | [] => .ub
    | .node t a slots mis unk :: rest =>
      if t = Ty.«coordinates» then
        .ok { r with stack := .node t a (setSlot slots M.«coordinates_array»
          (slots M.«coordinates_array» ++ [.field Ty.Unknown text])) mis unk :: rest }
      else .ok r
    | .field _ _ :: _ => .ok r
  | .indent => .ok r

/-- A sequence of calls. -/
def Rep.run (n : NumLib) (r : Rep) : List Call → Outcome Rep
  | [] => .ok r
  | c :: cs => do
    let r ← r.call n c
    r.run n cs

/-- clone.cc 167-174 `Clone` of an element, and 147-152 `root`. -/
def clone (n : NumLib) (e : Elem) : Outcome (Option Elem) := do
  let r ← Rep.run n ⟨[], []⟩ (calls e)
  .ok r.stack.head?

end Kml.Dom
