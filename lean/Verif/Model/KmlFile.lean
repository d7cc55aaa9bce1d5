import Verif.Model.Handler
import Verif.Model.Walk

/-!
# KML files (src/kml/engine/kml_file.cc) and the observers they use

An element that is announced while a document is parsed is known by its number in the order of announcements: that
stands for the pointer to it.
-/

namespace Kml.Dom

open Kml

/-- kml_file.h: the members a parse fills, `object_id_map_`, `shared_style_map_` and `link_parent_vector_`.  `count` is
the number of elements announced so far; it is not in the code. -/
structure FileState where
  count : Nat
  ids : StdMap Nat
  styles : StdMap Elem
  linkParents : List Nat

/-- object_id_parser_observer.h 58-71 `ObjectIdParserObserver::NewElement`.  parser_observer.h 45-62: the other methods
answer yes. -/
def objectIdObserver (strict : Bool) : Observer FileState where
  new s e :=
    match e.objectId with
    | none => (true, s)
    | some id =>
      if strict && (s.ids.get id).isSome then (false, s) else (true, { s with ids := s.ids.set id s.count })
  endElement s _ _ := (true, s)
  addChild s _ _ := (true, s)

/-- shared_style_parser_observer.h 54-73 `SharedStyleParserObserver::AddChild`.  object.h 51: the id of an object
without one is empty. -/
def sharedStyleObserver (strict : Bool) : Observer FileState where
  new s _ := (true, s)
  endElement s _ _ := (true, s)
  addChild s p c :=
    if p.isA Ty.«Document» && c.isA Ty.«StyleSelector» then
      match c.objectId with
      | some id =>
        if strict && (s.styles.get id).isSome then (false, s) else (true, { s with styles := s.styles.set id c })
      | none => (true, { s with styles := s.styles.set [] c })
    else (true, s)

/-- get_link_parents.cc 35-57 `IsIconParent` and `IsLinkParent`. -/
def linkParentTypes : List Ty :=
  [Ty.«PhotoOverlay», Ty.«GroundOverlay», Ty.«ScreenOverlay», Ty.«ItemIcon», Ty.«IconStyle», Ty.«NetworkLink», Ty.«Model»]

/-- get_link_parents.h 53-58 `GetLinkParentsParserObserver::NewElement`. -/
def linkParentsObserver : Observer FileState where
  new s e := (true, if e.ty ∈ linkParentTypes then { s with linkParents := s.linkParents ++ [s.count] } else s)
  endElement s _ _ := (true, s)
  addChild s _ _ := (true, s)

/-- Not in the code: the announcements are counted. -/
def counting : Observer FileState where
  new s _ := (true, { s with count := s.count + 1 })
  endElement s _ _ := (true, s)
  addChild s _ _ := (true, s)

/-- kml_file.cc 104-123: the observers of a parse, in the order in which they are added. `strict_parse_` is false for
every file (kml_file.cc 96-100). -/
def fileObservers (strict : Bool) : List (Observer FileState) :=
  [objectIdObserver strict, sharedStyleObserver strict, linkParentsObserver, counting]

/-- kml_file.cc 96-100: a file before the parse. -/
def FileState.init : FileState := ⟨0, [], [], []⟩

/-- kml_file.cc 103-132 `KmlFile::ParseFromString`, on the events of the document: the root and the members. -/
def parseFile (n : NumLib) (evs : List Ev) : Outcome (Option Elem × FileState) :=
  parseEvents n (fileObservers false) .init evs

/-- kml_file.cc 212-215 `KmlFile::GetObjectById`. -/
def FileState.getObjectById (s : FileState) (id : Str) : Option Nat := s.ids.get id

/-- kml_file.cc 217-221 `KmlFile::GetSharedStyleById`. -/
def FileState.getSharedStyleById (s : FileState) (id : Str) : Option Elem := s.styles.get id

/-- The element at a place (as `Elem.at` of Spec/Place.lean). -/
def Elem.goto (e : Elem) : List Step → Option Elem
  | [] => some e
  | s :: p =>
    match e, s with
    | .field _ _, _ => none
    | .node _ _ slots _ _, .slot m i => ((slots m)[i]?).bind fun x => x.goto p
    | .node _ _ _ mis _, .mis i => (mis[i]?).bind fun x => x.goto p

/-- element.h 67 `GetParent` of the element at a place below a root that has no parent. -/
def parentAt (root : Elem) (p : List Step) : Option Elem :=
  if p = [] then none else root.goto p.dropLast

/-- kml_file.cc 134-163 `CreateFromImportInternal`: the objects by id and the shared styles by id, each as its place in
the tree; `none` for a strict import of a tree with a duplicate id. -/
def importFile (root : Elem) (strict : Bool) : Option (StdMap (List Step) × StdMap (List Step)) :=
  if strict && !(mapIds root).2.isEmpty then none
  else some ((mapIds root).1, (mapIds root).1.foldl (fun (m : StdMap (List Step)) e =>
    match root.goto e.2, parentAt root e.2 with
    | some x, some p =>
      if x.isA Ty.«StyleSelector» && p.isA Ty.«Document» then m.set (x.objectId.getD []) e.2 else m
    | _, _ => m) [])

/-- get_links.h 52-82 `GetLinksParserObserver::AddChild`. -/
def linksObserver : Observer (List Str) where
  new s _ := (true, s)
  endElement s _ _ := (true, s)
  addChild s p c :=
    (true, match c with
      | .field t text =>
        if t = Ty.«href» ∨ t = Ty.«styleUrl» ∨ (t = Ty.«targetHref» ∧ p.ty = Ty.«Alias») then s ++ [text] else s
      | .node t a _ _ _ =>
        if t = Ty.«SchemaData» then
          match a.known.get (chars! "schemaUrl") with
          | some url => s ++ [url]
          | none => s
        else s)

/-- get_links.cc 37-45 `GetLinks`: whether the parse gave a root, and the links. -/
def getLinks (n : NumLib) (evs : List Ev) : Outcome (Bool × List Str) := do
  let r ← parseEvents n [linksObserver] [] evs
  .ok (r.1.isSome, r.2)

/-- schema_parser_observer.h 56-67 `SchemaParserObserver::AddChild`: the schemas by name. -/
def schemaObserver : Observer (StdMap Elem) where
  new s _ := (true, s)
  endElement s _ _ := (true, s)
  addChild s p c :=
    (true, match c with
      | .node t a _ _ _ =>
        if p.ty = Ty.«Document» ∧ t = Ty.«Schema» then
          match a.known.get (chars! "name") with
          | some name => s.set name c
          | none => s
        else s
      | .field _ _ => s)

end Kml.Dom
