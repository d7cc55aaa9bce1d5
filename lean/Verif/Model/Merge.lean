import Verif.Model.Clone
import Verif.Model.Walk

/-!
# Merging one element into another (src/kml/engine/merge.cc)

The source and the target are taken to have no element in common.  Merging changes the target in place; here the
changed target is the result.
-/

namespace Kml.Dom

open Kml
open Kml.Attributes (Attributes)

/-! ## Attributes of an element that has some already -/

/-- `readAttr` (Dom.lean) for an attribute whose value was `old`: a blank text leaves a number as it was. -/
def rereadAttr (n : NumLib) (k : AttrKind) (old : Option Str) (text : Str) : Option Str :=
  match k with
  | .str => some text
  | .units => if (Xsd.enumId Ty.«units» text).isSome then some text else none
  | .dbl d => some (readDouble n (old.getD d) text)
  | .int d => some (readInt n (old.getD d) text)

/-- `cutKnown` (Dom.lean) for an element with the known attributes `old`: each `has_` is set anew. -/
def recutKnown (n : NumLib) (old : StdMap Str) :
    List (Str × AttrKind) → StdMap Str → Attributes → StdMap Str × Attributes
  | [], known, m => (known, m)
  | (k, kind) :: r, known, m =>
    match Attributes.cutValue m k with
    | (some text, m') =>
      match rereadAttr n kind (old.get k) text with
      | some v => recutKnown n old r (known.set k v) m'
      | none => recutKnown n old r known m'
    | (none, m') => recutKnown n old r known m'

/-- element.cc 89-116 `AddUnknownAttributes` on an element that may have some: the namespaces are merged into those
that are there; unknown attributes replace all that are there, unless there are none. -/
def readdUnknown (old : Attrs) (m : Attributes) : Attributes × Attributes :=
  let split := Attributes.splitByPrefix m (chars! "xmlns")
  let xmlns :=
    match split.1 with
    | some x => Attributes.mergeAttributes old.xmlns x
    | none => old.xmlns
  match Attributes.cutValue split.2 (chars! "xmlns") with
  | (some v, rest) => (if rest = [] then old.unknown else rest, xmlns.set (chars! "xmlns") v)
  | (none, rest) => (if rest = [] then old.unknown else rest, xmlns)

/-- `ParseAttributes` of a class, on an instance with attributes (`parseAttributes` of Dom.lean is this for a new
one). -/
def reparseAttributes (n : NumLib) (c : Class) (old : Attrs) (m : Attributes) : Attrs :=
  let known := recutKnown n old.known c.reads [] m
  let rest := readdUnknown old known.2
  ⟨known.1, rest.1, rest.2⟩

/-! ## `MergeFields` -/

mutual

/-- The calls an element makes on a serializer whose `SaveElement` does nothing: as `calls` (Serializer.lean), without
the elements in members.  The misplaced children call `Serialize` themselves (element.cc 66-71), so theirs are
there. -/
def shallowCalls : Elem → List Call
  | .field t s => [.field t s]
  | .node t a slots mis unk =>
    if t = Ty.«coordinates» then
      .beginElem t [] :: ((classAt t).writes.flatMap fun w => (w.valueCalls slots).getD []) ++ [.endElem]
    else
      .beginElem t (serializeAttributes (classAt t) a) ::
        ((classAt t).writes.flatMap fun w => (w.valueCalls slots).getD []) ++
        (shallowEach mis).flatten ++ unknownCalls unk ++ [.endElem]

/-- The same for each element of a list. -/
def shallowEach : List Elem → List (List Call)
  | [] => []
  | e :: es => shallowCalls e :: shallowEach es

end

/-- merge.cc 57-74 `FieldMerger::BeginById`: the target's attributes with those of the source, and no points for a
`coordinates`. -/
def mergeBegin (n : NumLib) (target : Elem) (attrs : Attributes) : Elem :=
  match target with
  | .field t s => .field t s
  | .node t a slots mis unk =>
    .node t (reparseAttributes n (classAt t) a
        (Attributes.mergeAttributes (serializeAttributes (classAt t) a) attrs))
      (if t = Ty.«coordinates» then setSlot slots M.«coordinates_array» [] else slots) mis unk

/-- merge.cc 83-87 `FieldMerger::SaveVec3`. -/
def mergePoint (target : Elem) (text : Str) : Elem :=
  match target with
  | .field t s => .field t s
  | .node t a slots mis unk =>
    if t = Ty.«coordinates» then
      .node t a (setSlot slots M.«coordinates_array»
        (slots M.«coordinates_array» ++ [.field Ty.Unknown text])) mis unk
    else .node t a slots mis unk

/-- One call on a `FieldMerger`:
 * merge.cc 90-95 `SaveStringFieldById` (the target's own character data, which `AddElement` of the elements with text
   reads, is taken to be empty; an element of the same type as such a target makes no such call that is taken);
 * merge.cc 98-100 `SaveColor`;
 * `End`, `SaveContent` and `Indent` are those of `Serializer` and do nothing. -/
def mergeCall (n : NumLib) (target : Elem) : Call → Outcome Elem
  | .beginElem _ a => .ok (mergeBegin n target a)
  | .field t s => addElement n [] target (.field t s)
  | .color t s => addElement n [] target (.field t s)
  | .vec3 s => .ok (mergePoint target s)
  | .endElem | .content _ _ | .indent => .ok target

/-- A sequence of calls. -/
def mergeRun (n : NumLib) : Elem → List Call → Outcome Elem
  | e, [] => .ok e
  | e, c :: cs => do
    let e ← mergeCall n e c
    mergeRun n e cs

/-- merge.cc 108-117 `MergeFields` of two elements. -/
def mergeFields (n : NumLib) (source target : Elem) : Outcome Elem := mergeRun n target (shallowCalls source)

/-! ## `MergeElements` -/

/-- Change the element at a place below an element; a place that is not there is no change. -/
def modifyAt (f : Elem → Outcome Elem) : List Step → Elem → Outcome Elem
  | [], e => f e
  | .slot m i :: p, .node t a slots mis unk =>
    match (slots m)[i]? with
    | some x => do
      let x ← modifyAt f p x
      .ok (.node t a (setSlot slots m ((slots m).set i x)) mis unk)
    | none => .ok (.node t a slots mis unk)
  | .mis i :: p, .node t a slots mis unk =>
    match mis[i]? with
    | some x => do
      let x ← modifyAt f p x
      .ok (.node t a slots (mis.set i x) unk)
    | none => .ok (.node t a slots mis unk)
  | _ :: _, .field t s => .ok (.field t s)

/-- The state of the loop of merge.cc 137-153: the target, and which of its former children `target->AddElement` has
replaced.  They are still in `target_children`, but no longer in the target. -/
structure Merging where
  target : Elem
  gone : List Step

/-- merge.cc 151 `target->AddElement(Clone(...))`: a member for one element forgets the one it held. -/
def Merging.add (n : NumLib) (st : Merging) (x : Elem) : Outcome Merging := do
  let copy ← clone n x
  match copy with
  | none => .ok st
  | some y => do
    let e ← addElement n [] st.target y
    .ok ⟨e,
      match st.target with
      | .field _ _ => st.gone
      | .node t _ _ _ _ =>
        match (classOf t).bind fun c => findRule c.rules y with
        | some (.one m) => .slot m 0 :: st.gone
        | _ => st.gone⟩

/-- merge.cc 137-153, one round: `x` is the child of the source, `into` merges it into an element, `kids` are
`target_children`. -/
def Merging.round (n : NumLib) (kids : List (List Step × Elem)) (st : Merging)
    (k : Elem × (Elem → Outcome Elem)) : Outcome Merging :=
  match kids.find? fun r => r.2.ty = k.1.ty with
  | some r =>
    match r.1 with
    | s :: _ =>
      if s ∈ st.gone then do
        let _ ← k.2 r.2
        .ok st
      else do
        let e ← modifyAt k.2 r.1 st.target
        .ok { st with target := e }
    | [] => .ok st
  | none => st.add n k.1

/-- merge.cc 137-153, the loop. -/
def Merging.rounds (n : NumLib) (kids : List (List Step × Elem)) :
    Merging → List (Elem × (Elem → Outcome Elem)) → Outcome Merging
  | st, [] => .ok st
  | st, k :: ks => do
    let st ← st.round n kids k
    st.rounds n kids ks

mutual

/-- merge.cc 123-157 `MergeElements` of two elements.  The children of the source are those of `savedHere` (Walk.lean),
each here with the function that merges it. -/
def mergeElements (n : NumLib) : Elem → Elem → Outcome Elem
  | .field t s => fun target => mergeFields n (.field t s) target
  | .node t a slots mis unk => fun target => do
    let st ← Merging.rounds n (getChildElements target false) ⟨target, []⟩
      (((classAt t).writes.flatMap fun w => if w.saves then mergersEach n (slots w.member) else []) ++
        (if t = Ty.«coordinates» then [] else mergersStray n mis))
    mergeFields n (.node t a slots mis unk) st.target

/-- The items of a member, and the functions that merge them. -/
def mergersEach (n : NumLib) : List Elem → List (Elem × (Elem → Outcome Elem))
  | [] => []
  | x :: xs => (x, mergeElements n x) :: mergersEach n xs

/-- The children of misplaced children, and the functions that merge them. -/
def mergersStray (n : NumLib) : List Elem → List (Elem × (Elem → Outcome Elem))
  | [] => []
  | x :: xs => mergersOf n x ++ mergersStray n xs

/-- The children of one element, and the functions that merge them. -/
def mergersOf (n : NumLib) : Elem → List (Elem × (Elem → Outcome Elem))
  | .field _ _ => []
  | .node t _ slots mis _ =>
    ((classAt t).writes.flatMap fun w => if w.saves then mergersEach n (slots w.member) else []) ++
      (if t = Ty.«coordinates» then [] else mergersStray n mis)

end

end Kml.Dom
