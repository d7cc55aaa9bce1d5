import Verif.Model.Style
import Verif.Model.StringUtil

/-!
# Entities (src/kml/engine/entity_mapper.cc, feature_balloon.cc)

`SplitUriFragment` of the uriparser library and the file's `GetObjectById` are parameters.
-/

namespace Kml.Dom

open Kml

/-- The value of a member for one simple element, `none` when it is not set. -/
def Elem.simple (e : Elem) (m : Mem) : Option Str :=
  match e with
  | .field _ _ => none
  | .node _ _ slots _ _ => single (slots m)

/-- The value of a known attribute, `none` when it is not set. -/
def Elem.known (e : Elem) (k : Str) : Option Str :=
  match e with
  | .field _ _ => none
  | .node _ a _ _ _ => a.known.get k

/-- entity_mapper.h: an `EntityMapper`.  `map` is what `entity_map_` points to, `alt` what `alt_markup_map_` points to,
`none` for NULL, and `names` is `simplefield_name_map_`. -/
structure EntityMapper where
  map : StdMap Str
  alt : Option (List (Str × Str))
  names : StdMap Str

/-- entity_mapper.cc 48-56, the constructors. -/
def EntityMapper.init (map : StdMap Str) (alt : Option (List (Str × Str))) : EntityMapper := ⟨map, alt, []⟩

/-- `(*entity_map_)[key] = value`. -/
def EntityMapper.put (s : EntityMapper) (key value : Str) : EntityMapper := { s with map := s.map.set key value }

/-- The same, when there is a value. -/
def EntityMapper.putIf (s : EntityMapper) (key : Str) (value : Option Str) : EntityMapper :=
  match value with
  | some v => s.put key v
  | none => s

/-- `if (alt_markup_map_) alt_markup_map_->push_back(...)`. -/
def EntityMapper.push (s : EntityMapper) (name value : Str) : EntityMapper :=
  { s with alt := s.alt.map fun l => l ++ [(name, value)] }

/-- entity_mapper.cc 67-76 `GatherObjectFields`. -/
def EntityMapper.objectFields (s : EntityMapper) (feature : Elem) : EntityMapper :=
  (s.putIf (chars! "id") (feature.known (chars! "id"))).putIf (chars! "targetId") (feature.known (chars! "targetId"))

/-- entity_mapper.cc 82-103 `GatherFeatureFields`. -/
def EntityMapper.featureFields (s : EntityMapper) (feature : Elem) : EntityMapper :=
  (((s.putIf (chars! "name") (feature.simple M.«name»)).putIf
    (chars! "address") (feature.simple M.«address»)).putIf
    (chars! "Snippet") ((feature.only M.«snippet»).map fun p => p.text M.«text»)).putIf
    (chars! "description") (feature.simple M.«description»)

/-- entity_mapper.cc 119-139 `GatherDataFields`. -/
def EntityMapper.dataFields (s : EntityMapper) (data : Elem) : EntityMapper :=
  match data.known (chars! "name") with
  | none => s
  | some name =>
    let s := (s.put name (data.text M.«value»)).putIf (name ++ chars! "/displayName") (data.simple M.«displayname»)
    s.push ((data.simple M.«displayname»).getD name) (data.text M.«value»)

/-- entity_mapper.cc 174-182 `GatherSimpleFieldFields`. -/
def EntityMapper.simpleField (schema : Elem) (s : EntityMapper) (field : Elem) : EntityMapper :=
  match field.known (chars! "name"), field.simple M.«displayname» with
  | some name, some display =>
    s.put ((schema.known (chars! "name")).getD [] ++ ['/'] ++ name ++ chars! "/displayName") display
  | _, _ => s

/-- entity_mapper.cc 208-223 `PopulateSimpleFieldNameMap`, one round. -/
def EntityMapper.fieldName (schema : Elem) (s : EntityMapper) (field : Elem) : EntityMapper :=
  match field.known (chars! "name") with
  | none => s
  | some name =>
    { s with
      names := s.names.set name ((schema.known (chars! "name")).getD [] ++ [':'] ++ (field.simple M.«displayname»).getD name) }

/-- entity_mapper.cc 185-205 `GatherSimpleDataFields`; `operator[]` makes an entry for a name that is not in the map. -/
def EntityMapper.simpleData (pre : Str) (s : EntityMapper) (data : Elem) : EntityMapper :=
  let name := (data.known (chars! "name")).getD []
  let text := data.text M.«text»
  let s := if (data.known (chars! "name")).isSome then s.put (pre ++ name) text else s
  if s.alt.isSome then
    if s.names.isEmpty then s.push name text
    else
      match s.names.get name with
      | some label => s.push label text
      | none => { s with names := s.names.set name [] }.push [] text
  else s

/-- entity_mapper.cc 145-155: the schema a `SchemaData` refers to.  `fragment` is `SplitUriFragment`, `find` is
`GetObjectById`. -/
def schemaOf (fragment : Str → Option Str) (find : Str → Option Elem) (schemadata : Elem) : Option Elem :=
  match schemadata.known (chars! "schemaUrl") with
  | none => none
  | some url =>
    match fragment url with
    | none => none
    | some id =>
      match find id with
      | some e => if e.isA Ty.«Schema» then some e else none
      | none => none

/-- entity_mapper.cc 142-172 `GatherSchemaDataFields`. -/
def EntityMapper.schemaData (fragment : Str → Option Str) (find : Str → Option Elem) (s : EntityMapper) (schemadata : Elem) :
    EntityMapper :=
  match schemaOf fragment find schemadata with
  | none => (schemadata.items M.«simpledata_array»).foldl (EntityMapper.simpleData ['/']) s
  | some schema =>
    let s := (schema.items M.«simplefield_array»).foldl (EntityMapper.simpleField schema) s
    let s := if s.alt.isSome then (schema.items M.«simplefield_array»).foldl (EntityMapper.fieldName schema) s else s
    (schemadata.items M.«simpledata_array»).foldl
      (EntityMapper.simpleData ((schema.known (chars! "name")).getD [] ++ ['/'])) s

/-- entity_mapper.cc 106-116 `GatherExtendedDataFields`. -/
def EntityMapper.extendedData (fragment : Str → Option Str) (find : Str → Option Elem) (s : EntityMapper) (feature : Elem) :
    EntityMapper :=
  match feature.only M.«extendeddata» with
  | none => s
  | some ed =>
    (ed.items M.«schemadata_array»).foldl (EntityMapper.schemaData fragment find)
      ((ed.items M.«data_array»).foldl EntityMapper.dataFields s)

/-- entity_mapper.cc 60-64 `GetEntityFields`. -/
def EntityMapper.getEntityFields (fragment : Str → Option Str) (find : Str → Option Elem) (s : EntityMapper)
    (feature : Elem) : EntityMapper :=
  ((s.objectFields feature).featureFields feature).extendedData fragment find feature

/-- entity_mapper.cc 226-230 `CreateExpandedEntities`; `none` when it does not end (see `createExpandedStrings`). -/
def createExpandedEntities (text : Str) (entities : StdMap Str) : Option Str :=
  StringUtil.createExpandedStrings text entities (chars! "$[") [']']

/-- feature_balloon.cc 43-93 `CreateBalloonText`, given the resolved style. -/
def createBalloonText (fragment : Str → Option Str) (find : Str → Option Elem) (style feature : Elem) : Option Str :=
  let s := (EntityMapper.init [] (some [])).getEntityFields fragment find feature
  match (style.only M.«balloonstyle»).bind fun b => b.simple M.«text» with
  | some text => createExpandedEntities text s.map
  | none => do
    let heading := match feature.simple M.«name» with
      | some name => chars! "<h3>" ++ name ++ chars! "</h3><br/><br/>"
      | none => []
    let description ← match feature.simple M.«description» with
      | some d => createExpandedEntities d s.map
      | none => some []
    let table := match feature.only M.«extendeddata» with
      | some _ => chars! "\n<table border=\"1\">\n" ++
          (s.alt.getD []).flatMap (fun r => chars! "<tr><td>" ++ r.1 ++ chars! "</td><td>" ++ r.2 ++ chars! "</tr>\n") ++
          chars! "</table>\n"
      | none => []
    some (heading ++ description ++ table)

end Kml.Dom
