import Verif.Model.Update
import Verif.Spec.Merge

/-!
# What an Update does
-/

namespace Kml.Dom

open Kml

/-- One thing an `Update` asks for. -/
inductive Action where
  | change (source : Elem)
  | create (source : Elem)
  | delete (source : Elem)

/-- The object in the `Update` that names the target. -/
def Action.source : Action → Elem
  | .change s | .create s | .delete s => s

/-- What one `Change`, `Create` or `Delete` asks for. -/
def operationActions (op : Elem) : List Action :=
  if op.ty = Ty.«Change» then (op.inside M.«object_array»).map .change
  else if op.ty = Ty.«Create» then (op.inside M.«container_array»).map .create
  else if op.ty = Ty.«Delete» then (op.inside M.«feature_array»).map .delete
  else []

/-- What an `Update` asks for, in its order. -/
def actionsOf (update : Elem) : List Action := (update.inside M.«updateoperation_array»).flatMap operationActions

/-- What is done for one of them. -/
def UpdateFile.perform (n : NumLib) (idMap : Option (StdMap Str)) (file : UpdateFile) : Action → Outcome UpdateFile
  | .change s => file.change n idMap s
  | .create s => file.create n idMap s
  | .delete s => file.delete idMap s

/-- One step for each item of a list, one after the other. -/
inductive Steps {α σ : Type} (step : α → σ → σ → Prop) : List α → σ → σ → Prop
  | nil {s : σ} : Steps step [] s s
  | cons {a : α} {as : List α} {s s' s'' : σ} : step a s s' → Steps step as s' s'' → Steps step (a :: as) s s''

/-- The id an object of an `Update` stands for: its `targetId`, or what the map has for that. -/
def Names (idMap : Option (StdMap Str)) (source : Elem) (id : Str) : Prop :=
  ∃ target, source.targetId = some target ∧
    match idMap with
    | none => id = target
    | some m => m.get target = some id

/-- The object with an id, if it is in the tree of the file. -/
def UpdateFile.lookup (file : UpdateFile) (id : Str) : Option Elem :=
  match file.ids.get id with
  | some (.place p) => file.root.at p
  | _ => none

/-- An element without its children. -/
def Elem.shell : Elem → Elem
  | .field t s => .field t s
  | .node t a _ _ unk => .node t a (fun _ => []) [] unk

/-- Nothing but the element at `p` is changed: all elements that do not hold it, and are not in it, are the same, and
those that hold it are the same but for what they hold. -/
structure Only (p : List Step) (root root' : Elem) : Prop where
  outside : ∀ q, ¬ p <+: q → ¬ q <+: p → root'.at q = root.at q
  above : ∀ q, q <+: p → q ≠ p → (root'.at q).map Elem.shell = (root.at q).map Elem.shell

/-- What an element holds in member `m` is `l`. -/
def Elem.withItems (m : Mem) (l : List Elem) : Elem → Elem
  | .field t s => .field t s
  | .node t a slots mis unk => .node t a (setSlot slots m l) mis unk

/-- An element that can be copied and merged. -/
structure Source (n : NumLib) (s : Elem) : Prop where
  held : Held n s
  clonable : Everywhere Clonable s
  lossless : Everywhere Lossless s
  tidy : Everywhere Tidy s
  complex : s.complex = true

/-- No unknown text in an element is the one that is used to tell elements apart. -/
def Unmarked (e : Elem) : Prop := e.marked = false

/-- An element that is no object with an id. -/
def NoId (e : Elem) : Prop := e.objectId = none

/-- A file whose ids are in order.
 * The tree is as the parser leaves it, and nothing but simple elements is misplaced.
 * An id refers to the object with that id, and of the items of a member to the first with that id.
 * An id refers to every object with an id that holds an object an id refers to.
 * The parent of an object that was taken out is in the tree, or at least was not freed.
 * If the feature of a `kml` was taken out, there is none in it. -/
structure Sound (n : NumLib) (file : UpdateFile) : Prop where
  held : Held n file.root
  tidy : Everywhere Tidy file.root
  complex : file.root.complex = true
  sorted : StdMap.Sorted file.ids
  ids : ∀ id p, file.ids.get id = some (.place p) → ∃ x, file.root.at p = some x ∧ x.objectId = some id
  first : ∀ id q m i, file.ids.get id = some (.place (q ++ [.slot m i])) → ∀ j < i, ∀ y,
    file.root.at (q ++ [.slot m j]) = some y → y.objectId ≠ some id
  above : ∀ id p, file.ids.get id = some (.place p) ∨ file.ids.get id = some (.orphan p) → ∀ q, q <+: p → ∀ y id',
    file.root.at q = some y → y.objectId = some id' → file.ids.get id' = some (.place q)
  parent : ∀ id p, file.ids.get id = some (.orphan p) → ∃ x, file.root.at p = some x ∧ x.complex = true
  alive : ∀ id, file.ids.get id ≠ some .dangling
  emptied : ∀ id, file.ids.get id = some (.orphan []) → file.root.ty = Ty.«kml» → file.root.inside M.«feature» = []

/-- What the action asks for can be done: the source can be merged and copied, has no mark, a source of a change has no
id, and is of the type of its target, and that of a creation is a container. -/
structure Fit (n : NumLib) (idMap : Option (StdMap Str)) (file : UpdateFile) (a : Action) : Prop where
  source : Source n a.source
  unmarked : Everywhere Unmarked a.source
  noId : ∀ s, a = .change s → Everywhere NoId s
  container : ∀ s, a = .create s → s.isA Ty.«Container» = true
  target : ∀ s, a = .change s → ∀ id p x, Names idMap s id → file.ids.get id = some (.place p) → file.root.at p = some x →
    x.ty = s.ty

/-- `GetObjectById` finds an object. -/
def UpdateFile.finds (file : UpdateFile) (id : Str) : Bool := (file.ids.get id).isSome

/-- The element is the same but that it has no `targetId`. -/
structure Cleared (y z : Elem) : Prop where
  ty : z.ty = y.ty
  targetId : z.targetId = none
  attrs : ∀ k, k ≠ (chars! "targetId") → z.attr k = y.attr k
  items : ∀ m, z.inside m = y.inside m

/-- Ids that refer to an object refer to one of the same type before, and the ids are the same. -/
structure Later (file file' : UpdateFile) : Prop where
  types : ∀ id p' x', file'.ids.get id = some (.place p') → file'.root.at p' = some x' →
    ∃ p x, file.ids.get id = some (.place p) ∧ file.root.at p = some x ∧ x'.ty = x.ty
  found : ∀ id, file'.finds id = file.finds id

end Kml.Dom
