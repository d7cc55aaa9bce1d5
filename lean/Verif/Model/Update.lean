import Verif.Model.Style
import Verif.Model.KmlFile

/-!
# Applying an Update to a file (src/kml/engine/update.cc, update_processor.cc)

The `Update` is taken to have no element in common with the file.  Of objects that are no longer in the tree of the file,
but still in its `object_id_map_`, only that they are there is modelled, not what they hold.
-/

namespace Kml.Dom

open Kml

/-- What `object_id_map_` holds for an id (kml_file.h 175).  `parent_` is not reset when an element is taken out
(container.cc 66-78), and not counted as a reference (xml_element.h 104).
 * `place`: an object in the tree of the file.
 * `orphan`: an object that is not in the tree, while its former parent is there.
 * `loose`: an object that is not in the tree, with no parent or with one that is not in the tree either.
 * `dangling`: a feature whose former parent is no more. -/
inductive Ref where
  | place (p : List Step)
  | orphan (parent : List Step)
  | loose
  | dangling
  deriving DecidableEq, Repr

/-- A `KmlFile`, as far as updates look at it: its root and `object_id_map_`. -/
structure UpdateFile where
  root : Elem
  ids : StdMap Ref

/-- kml_file.cc 134-163 `CreateFromImportInternal`, see `importFile`. -/
def openFile (root : Elem) (strict : Bool) : Option UpdateFile :=
  (importFile root strict).map fun m => ⟨root, m.1.map fun e => (e.1, .place e.2)⟩

/-- Do something to what every id refers to. -/
def relocate (f : Ref → Ref) (ids : StdMap Ref) : StdMap Ref := ids.map fun e => (e.1, f e.2)

/-- object.h 62-63 `has_targetid` and `get_targetid`. -/
def Elem.targetId : Elem → Option Str
  | .field _ _ => none
  | .node _ a _ _ _ => a.known.get (chars! "targetId")

/-- object.h 68-71 `clear_targetid`. -/
def Elem.clearTargetId : Elem → Elem
  | .field t s => .field t s
  | .node t a slots mis unk => .node t { a with known := a.known.erase (chars! "targetId") } slots mis unk

/-- update_processor.cc 133-152 `GetTargetId`; `idMap` is `id_map_`, `none` for NULL. -/
def getTargetId (idMap : Option (StdMap Str)) (object : Elem) : Option Str :=
  match object.targetId with
  | none => none
  | some id =>
    match idMap with
    | some m => m.get id
    | none => some id

/-- No text that is read from XML has this character, so no unknown element is this text. -/
def marker : Str := ['\x00']

mutual

/-- Mark an element and all below it, so that they can be told from others. -/
def Elem.mark : Elem → Elem
  | .field t s => .field t s
  | .node t a slots mis unk => .node t a (fun m => Elem.markAll (slots m)) (Elem.markAll mis) (marker :: unk)

/-- The same for a list. -/
def Elem.markAll : List Elem → List Elem
  | [] => []
  | e :: es => e.mark :: Elem.markAll es

end

/-- An element with a mark: `MergeElements` keeps the unknown elements of the target, and what it puts into the target
has those of the source. -/
def Elem.marked : Elem → Bool
  | .field _ _ => false
  | .node _ _ _ _ unk => unk.head? = some marker

/-- Whether the object that was at a place is still there, given the tree with marks after the merge.  `MergeElements`
moves no element. -/
def stays (after : Elem) (p : List Step) : Bool :=
  match after.goto p with
  | some e => e.marked
  | none => false

/-- What an id refers to after `MergeElements`. -/
def Ref.afterMerge (after : Elem) : Ref → Ref
  | .place p => if stays after p then .place p else .loose
  | .orphan p => if stays after p then .orphan p else .loose
  | r => r

/-- update_processor.cc 73-91 `ProcessUpdateChange`, one round, for a target in the tree.  The merge is done a second
time to see which elements are still there. -/
def UpdateFile.change (n : NumLib) (idMap : Option (StdMap Str)) (file : UpdateFile) (source : Elem) : Outcome UpdateFile :=
  match (getTargetId idMap source).bind fun id => file.ids.get id with
  | some (.place p) => do
    let root ← modifyAt (fun target => do
      let e ← mergeElements n source target
      .ok e.clearTargetId) p file.root
    let traced ← modifyAt (mergeElements n source) p file.root.mark
    .ok ⟨root, relocate (Ref.afterMerge traced) file.ids⟩
  | _ => .ok file

/-- container.cc 43-45 `add_feature`. -/
def Elem.addFeature (e x : Elem) : Elem :=
  match e with
  | .field t s => .field t s
  | .node t a slots mis unk => .node t a (setSlot slots M.«feature_array» (slots M.«feature_array» ++ [x])) mis unk

/-- update_processor.cc 154-161 `CopyFeatures`, the loop; a NULL feature is not added. -/
def copyFeatures (n : NumLib) : List Elem → Elem → Outcome Elem
  | [], target => .ok target
  | x :: xs, target => do
    let copy ← clone n x
    match copy with
    | some y => if y.isA Ty.«Feature» then copyFeatures n xs (target.addFeature y) else copyFeatures n xs target
    | none => copyFeatures n xs target

/-- update_processor.cc 93-105 `ProcessUpdateCreate`, one round. -/
def UpdateFile.create (n : NumLib) (idMap : Option (StdMap Str)) (file : UpdateFile) (source : Elem) : Outcome UpdateFile :=
  match (getTargetId idMap source).bind fun id => file.ids.get id with
  | some (.place p) => do
    let root ← modifyAt (fun target =>
      if target.isA Ty.«Container» then copyFeatures n (source.items M.«feature_array») target else .ok target) p file.root
    .ok { file with root := root }
  | _ => .ok file

/-- Where the first feature with an id is in a list (container.cc 66-78). -/
def featureIndex (id : Str) (features : List Elem) : Option Nat := features.findIdx? fun f => f.objectId = some id

/-- Whether some id refers to the element at a place: if it is taken out of the tree, it is not freed. -/
def refersTo (ids : StdMap Ref) (p : List Step) : Bool := ids.any fun e => e.2 = .place p

/-- Whether the element at `top ++ below` is not freed when that at `top` is taken out of the tree. -/
def livesOn (ids : StdMap Ref) (top : List Step) : List Step → Bool
  | [] => refersTo ids top
  | s :: below => refersTo ids top || livesOn ids (top ++ [s]) below

/-- The place of the parent: that of an element in a member; a misplaced one has none (element.cc 52-56). -/
def parentPlace (p : List Step) : Option (List Step) :=
  match p.getLast? with
  | some (.slot _ _) => some p.dropLast
  | _ => none

/-- Where a place is after item `i` of member `m` of the element at `q` was taken out, and if it was in that item, where
in that. -/
def afterErase (q : List Step) (m : Mem) (i : Nat) (p : List Step) : List Step ⊕ List Step :=
  if q.isPrefixOf p then
    match p.drop q.length with
    | .slot m' j :: rest =>
      if m' = m then
        if j = i then .inr rest
        else if i < j then .inl (q ++ .slot m (j - 1) :: rest)
        else .inl p
      else .inl p
    | _ => .inl p
  else .inl p

/-- What an id refers to after item `i` of member `m` of the element at `q` was taken out.  Only of features is the parent
asked for. -/
def Ref.afterErase (root : Elem) (ids : StdMap Ref) (q : List Step) (m : Mem) (i : Nat) : Ref → Ref
  | .place p =>
    match Kml.Dom.afterErase q m i p with
    | .inl p' => .place p'
    | .inr [] => .orphan q
    | .inr (s :: rest) =>
      match parentPlace (s :: rest) with
      | some parent =>
        if livesOn ids (q ++ [.slot m i]) parent || !((root.goto p).any fun x => x.isA Ty.«Feature») then .loose
        else .dangling
      | none => .loose
  | .orphan p =>
    match Kml.Dom.afterErase q m i p with
    | .inl p' => .orphan p'
    | .inr below => if livesOn ids (q ++ [.slot m i]) below then .loose else .dangling
  | r => r

/-- Take item `i` of member `m` out of an element. -/
def Elem.without (m : Mem) (i : Nat) : Elem → Elem
  | .field t s => .field t s
  | .node t a slots mis unk => .node t a (setSlot slots m ((slots m).eraseIdx i)) mis unk

/-- Take item `i` of member `m` out of the element at `q`. -/
def UpdateFile.erase (file : UpdateFile) (q : List Step) (m : Mem) (i : Nat) : Outcome UpdateFile := do
  let root ← modifyAt (fun e => .ok (e.without m i)) q file.root
  .ok ⟨root, relocate (Ref.afterErase file.root file.ids q m i) file.ids⟩

/-- update_processor.cc 120-127: what `DeleteFeatureById` does with the parent of the feature, at `q`:
container.cc 66-78 `Container::DeleteFeatureById`, or kml.h 77-79 `clear_feature`. -/
def UpdateFile.deleteIn (file : UpdateFile) (q : List Step) (id : Str) : Outcome UpdateFile :=
  match file.root.goto q with
  | none => .ok file
  | some parent =>
    if parent.isA Ty.«Container» then
      match featureIndex id (parent.items M.«feature_array») with
      | some i => file.erase q M.«feature_array» i
      | none => .ok file
    else if parent.isA Ty.«kml» then
      if (parent.items M.«feature»).length = 0 then .ok file else file.erase q M.«feature» 0
    else .ok file

/-- update_processor.cc 118-129 `DeleteFeatureById`.  Only features are taken out of a container or a
`kml`.  `GetParent` of an object whose parent was freed gives a pointer to no object.  What is done to an object that is
not in the tree is not modelled. -/
def UpdateFile.deleteById (file : UpdateFile) (id : Str) : Outcome UpdateFile :=
  match file.ids.get id with
  | some (.place p) =>
    match file.root.goto p with
    | none => .ok file
    | some x =>
      if x.isA Ty.«Feature» then
        match parentPlace p with
        | some q => file.deleteIn q id
        | none => .ok file
      else .ok file
  | some (.orphan q) => file.deleteIn q id
  | some .dangling => .ub
  | _ => .ok file

/-- update_processor.cc 107-116 `ProcessUpdateDelete`, one round. -/
def UpdateFile.delete (idMap : Option (StdMap Str)) (file : UpdateFile) (source : Elem) : Outcome UpdateFile :=
  match getTargetId idMap source with
  | some id => file.deleteById id
  | none => .ok file

/-- A loop. -/
def eachDo {α σ : Type} (f : σ → α → Outcome σ) : List α → σ → Outcome σ
  | [], s => .ok s
  | x :: xs, s => do
    let s ← f s x
    eachDo f xs s

/-- update_processor.cc 59-71 `ProcessUpdate`, one round, with the loops of 73-116. -/
def UpdateFile.operation (n : NumLib) (idMap : Option (StdMap Str)) (file : UpdateFile) (op : Elem) : Outcome UpdateFile :=
  if op.ty = Ty.«Change» then eachDo (UpdateFile.change n idMap) (op.items M.«object_array») file
  else if op.ty = Ty.«Create» then eachDo (UpdateFile.create n idMap) (op.items M.«container_array») file
  else if op.ty = Ty.«Delete» then eachDo (UpdateFile.delete idMap) (op.items M.«feature_array») file
  else .ok file

/-- update_processor.cc 59-71 `ProcessUpdate`; update.cc 41-54 `ProcessUpdate` and `ProcessUpdateWithIdMap`. -/
def processUpdate (n : NumLib) (idMap : Option (StdMap Str)) (update : Elem) (file : UpdateFile) : Outcome UpdateFile :=
  eachDo (UpdateFile.operation n idMap) (update.items M.«updateoperation_array») file

end Kml.Dom
