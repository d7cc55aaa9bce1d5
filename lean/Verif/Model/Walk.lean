import Verif.Model.Dom

/-!
# Walks over element trees (src/kml/engine/find.cc, id_mapper.cc, feature_visitor.cc)

These are serializers that do something in `SaveElement` and let the element write itself into them to reach its
children.  A child is identified by where it is: the steps from the element down to it.  They stand for the pointers
the code collects; no element is in two places of a tree.
-/

namespace Kml.Dom

open Kml

/-- One step down: to an item of a member, or to a misplaced child. -/
inductive Step where
  | slot (m : Mem) (i : Nat)
  | mis (i : Nat)
  deriving DecidableEq, Repr

/-- The writes for which `SaveElement` is called, directly or through `SaveElementGroup`, `SaveElementArray` and
`SaveElementGroupArray` (serializer.h 61-72, 115-125, 137-148). -/
def Write.saves : Write → Bool
  | .elem _ | .group _ _ | .array _ | .groupArray _ _ => true
  | _ => false

/-- The member a write writes (as `Write.mem` of Serializer.lean). -/
def Write.member : Write → Mem
  | .field m _ | .enum m _ | .color m _ | .vec3 m _ | .elem m | .group m _ | .array m
  | .groupArray m _ | .content m _ | .points m => m

mutual

/-- The calls of `SaveElement` while an element writes itself into a serializer whose `SaveElement` calls
`Serializer::SaveElement` (serializer.cc 83-88, which calls `Serialize`): what it is called with, and where that is.
Misplaced children are written with `Serialize` directly (element.cc 66-71), so there is no call for them, but there
are the calls they make.  geometry.cc 183-192: `Coordinates` does not write its misplaced children. -/
def saved : Elem → List (List Step × Elem)
  | .field _ _ => []
  | .node t _ slots mis _ =>
    ((classAt t).writes.flatMap fun w => if w.saves then savedEach w.member 0 (slots w.member) else []) ++
      (if t = Ty.«coordinates» then [] else savedStray 0 mis)

/-- The calls for the items of a member, from the `i`-th one. -/
def savedEach (m : Mem) : Nat → List Elem → List (List Step × Elem)
  | _, [] => []
  | i, x :: xs => ([.slot m i], x) :: (saved x).map (fun r => (.slot m i :: r.1, r.2)) ++ savedEach m (i + 1) xs

/-- The calls of misplaced children, from the `i`-th one. -/
def savedStray : Nat → List Elem → List (List Step × Elem)
  | _, [] => []
  | i, x :: xs => (saved x).map (fun r => (.mis i :: r.1, r.2)) ++ savedStray (i + 1) xs

end

mutual

/-- The same for a serializer whose `SaveElement` does not go on to the children. -/
def savedHere : Elem → List (List Step × Elem)
  | .field _ _ => []
  | .node t _ slots mis _ =>
    ((classAt t).writes.flatMap fun w =>
      if w.saves then (slots w.member).mapIdx fun i x => ([.slot w.member i], x) else []) ++
      (if t = Ty.«coordinates» then [] else savedHereStray 0 mis)

/-- The calls of misplaced children, from the `i`-th one. -/
def savedHereStray : Nat → List Elem → List (List Step × Elem)
  | _, [] => []
  | i, x :: xs => (savedHere x).map (fun r => (.mis i :: r.1, r.2)) ++ savedHereStray (i + 1) xs

end

/-- find.cc 89-97 `GetElementsById` with the `ElementTypeFinder` of find.cc 38-59. -/
def getElementsById (e : Elem) (t : Ty) : List (List Step × Elem) := (saved e).filter fun r => r.2.isA t

/-- find.cc 99-107 `GetChildElements` with the `AllElementFinder` of find.cc 61-85; the number it returns is the
length. -/
def getChildElements (e : Elem) (recurse : Bool) : List (List Step × Elem) :=
  if recurse then saved e else savedHere e

/-! ## Ids -/

/-- object.h 52-61: the id of an object that has one. -/
def Elem.objectId : Elem → Option Str
  | .field _ _ => none
  | .node t a slots mis unk =>
    if (Elem.node t a slots mis unk).isA Ty.«Object» then a.known.get (chars! "id") else none

/-- id_mapper.cc 42-60 `IdMapper::SaveElement`, without the call to `Serializer`: the map and the duplicates. -/
def idMapperStep (st : StdMap (List Step) × List (List Step)) (r : List Step × Elem) :
    StdMap (List Step) × List (List Step) :=
  match r.2.objectId with
  | none => st
  | some id =>
    match st.1.get id with
    | some old => (st.1.set id r.1, st.2 ++ [old])
    | none => (st.1.set id r.1, st.2)

/-- id_mapper.cc 63-70 `MapIds` into an empty map: the objects by id, and the vector of duplicates.
`id_mapper.SaveElement(root)` starts with the root itself. -/
def mapIds (root : Elem) : StdMap (List Step) × List (List Step) :=
  (([], root) :: saved root).foldl idMapperStep ([], [])

mutual

/-- Change the attributes of the elements of a tree, each according to where it is. -/
def editAttrs (f : List Step → Attrs → Attrs) : Elem → Elem
  | .field t s => .field t s
  | .node t a slots mis unk =>
    .node t (f [] a) (fun m => editEach (fun i p => f (.slot m i :: p)) 0 (slots m))
      (editEach (fun i p => f (.mis i :: p)) 0 mis) unk

/-- The same for the items of a list, from the `i`-th one. -/
def editEach (f : Nat → List Step → Attrs → Attrs) : Nat → List Elem → List Elem
  | _, [] => []
  | i, x :: xs => editAttrs (f i) x :: editEach f (i + 1) xs

end

/-- object.h 57-60 `clear_id`. -/
def clearId (a : Attrs) : Attrs := { a with known := a.known.erase (chars! "id") }

/-- object.h 53-56 `set_id`. -/
def setId (id : Str) (a : Attrs) : Attrs := { a with known := a.known.set (chars! "id") id }

/-- id_mapper.cc 72-82 `ClearIds`: the tree afterwards. -/
def clearIds (root : Elem) : Elem :=
  editAttrs (fun p a => if p ∈ (mapIds root).1.map (·.2) then clearId a else a) root

/-- id_mapper.cc 84-105 `RemapIds`, with the map `MapIds` gives for a tree: the tree afterwards. -/
def remapIds (root : Elem) (names : StdMap Str) : Elem :=
  editAttrs (fun p a =>
    if p ∈ (mapIds root).1.map (·.2) then
      match (a.known.get (chars! "id")).bind names.get with
      | some id => setId id a
      | none => clearId a
    else a) root

/-- id_mapper.cc 84-105 `RemapIds`, the map it fills: the objects that got a new id, in the order of the ids of the
input map. -/
def remapOutput (root : Elem) (names : StdMap Str) : StdMap (List Step) :=
  (mapIds root).1.foldl (fun out e =>
    match names.get e.1 with
    | some id => out.set id e.2
    | none => out) []

/-- id_mapper.cc 84-105 `RemapIds`, the number it returns. -/
def remapCount (root : Elem) (names : StdMap Str) : Nat :=
  ((mapIds root).1.filter fun e => (names.get e.1).isNone).length

/-! ## Features -/

mutual

/-- feature_visitor.cc 47-59 `VisitFeatureHierarchy`: the features the visitor is called with, and where they are.
`AsContainer` is `IsA(Type_Container)`; the features of a container are its `feature_array_`. -/
def visitFeatures : Elem → List (List Step × Elem)
  | .field t s => [([], .field t s)]
  | .node t a slots mis unk =>
    ([], .node t a slots mis unk) ::
      (if (Elem.node t a slots mis unk).isA Ty.«Container» then visitEach 0 (slots M.«feature_array») else [])

/-- The same for the items of a `feature_array_`, from the `i`-th one. -/
def visitEach : Nat → List Elem → List (List Step × Elem)
  | _, [] => []
  | i, x :: xs => (visitFeatures x).map (fun r => (.slot M.«feature_array» i :: r.1, r.2)) ++ visitEach (i + 1) xs

end

/-- feature_visitor.cc 37-43 `GetRootFeature`: where the feature is. -/
def rootFeature : Elem → Option (List Step × Elem)
  | .field _ _ => none
  | .node t a slots mis unk =>
    match (if t = Ty.«kml» then slots M.«feature» else []) with
    | x :: _ => some ([.slot M.«feature» 0], x)
    | [] => if (Elem.node t a slots mis unk).isA Ty.«Feature» then some ([], .node t a slots mis unk) else none

end Kml.Dom
