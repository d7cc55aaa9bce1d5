import Verif.Model.Entity

/-!
# The entities of a feature

Which names stand for which texts in the description of a feature.
-/

namespace Kml.Dom

open Kml

/-- The last value for a key. -/
def lastValue (key : Str) (l : List (Str × Str)) : Option Str := ((l.filter fun e => e.1 = key).getLast?).map (·.2)

/-- A name, if it has a value. -/
def named (name : Str) (value : Option Str) : List (Str × Str) := (value.map fun v => (name, v)).toList

/-- The name of an element, empty if it has none. -/
def Elem.nameOr (e : Elem) : Str := (e.known (chars! "name")).getD []

/-- The entities of the fields of a feature. -/
def fieldEntities (feature : Elem) : List (Str × Str) :=
  named (chars! "id") (feature.known (chars! "id")) ++
  named (chars! "targetId") (feature.known (chars! "targetId")) ++
  named (chars! "name") (feature.simple M.«name») ++
  named (chars! "address") (feature.simple M.«address») ++
  named (chars! "Snippet") ((feature.only M.«snippet»).map fun p => p.text M.«text») ++
  named (chars! "description") (feature.simple M.«description»)

/-- A `Data` with a name stands for its value, and the name with `/displayName` for its display name. -/
def dataEntities (data : Elem) : List (Str × Str) :=
  match data.known (chars! "name") with
  | none => []
  | some name => (name, data.text M.«value») :: named (name ++ chars! "/displayName") (data.simple M.«displayname»)

/-- A `SimpleField` with a name and a display name: `schema/field/displayName`. -/
def simpleFieldEntities (schema field : Elem) : List (Str × Str) :=
  match field.known (chars! "name") with
  | none => []
  | some name => named (schema.nameOr ++ ['/'] ++ name ++ chars! "/displayName") (field.simple M.«displayname»)

/-- A `SimpleData` with a name: `schema/name`, where the name of the schema is empty if there is none. -/
def simpleDataEntities (schema : Option Elem) (data : Elem) : List (Str × Str) :=
  match data.known (chars! "name") with
  | none => []
  | some name => [((schema.map Elem.nameOr).getD [] ++ ['/'] ++ name, data.text M.«text»)]

/-- The entities of a `SchemaData`. -/
def schemaDataEntities (schema : Option Elem) (sd : Elem) : List (Str × Str) :=
  (match schema with
    | some sc => (sc.items M.«simplefield_array»).flatMap (simpleFieldEntities sc)
    | none => []) ++
  (sd.items M.«simpledata_array»).flatMap (simpleDataEntities schema)

/-- The entities of a feature in order; `schema` gives the schema of a `SchemaData`. -/
def entities (schema : Elem → Option Elem) (feature : Elem) : List (Str × Str) :=
  fieldEntities feature ++
  match feature.only M.«extendeddata» with
  | none => []
  | some ed => (ed.items M.«data_array»).flatMap dataEntities ++
      (ed.items M.«schemadata_array»).flatMap fun sd => schemaDataEntities (schema sd) sd

/-- What a schema says is shown for the data of a name: `schema:displayName` or `schema:name`, from the last field of that
name. -/
def labelIn (schema : Elem) (name : Str) : Option Str :=
  lastValue name ((schema.items M.«simplefield_array»).flatMap fun field =>
    (field.known (chars! "name")).toList.map fun f => (f, schema.nameOr ++ [':'] ++ (field.simple M.«displayname»).getD f))

/-- What is shown for a `Data`. -/
def dataRows (data : Elem) : List (Str × Str) :=
  match data.known (chars! "name") with
  | none => []
  | some name => [((data.simple M.«displayname»).getD name, data.text M.«value»)]

/-- What is shown for a `SimpleData`: its text under what its own schema says, or under its name. -/
def simpleDataRow (schema : Option Elem) (data : Elem) : Str × Str :=
  ((schema.bind fun sc => labelIn sc data.nameOr).getD data.nameOr, data.text M.«text»)

/-- The table of the extended data of a feature. -/
def rows (schema : Elem → Option Elem) (feature : Elem) : List (Str × Str) :=
  match feature.only M.«extendeddata» with
  | none => []
  | some ed => (ed.items M.«data_array»).flatMap dataRows ++
      (ed.items M.«schemadata_array»).flatMap fun sd => (sd.items M.«simpledata_array»).map (simpleDataRow (schema sd))

/-- A schema that says what to show for some name. -/
def Labels (schema : Option Elem) : Prop := ∃ sc name label, schema = some sc ∧ labelIn sc name = some label

/-- The `SchemaData` of a feature are in order:
 * those whose schemas say nothing about what to show come first,
 * and the schemas of the others have every name that is used. -/
inductive Orderly (schema : Elem → Option Elem) : List Elem → Prop
  | plain {sd : Elem} {l : List Elem} : ¬ Labels (schema sd) → Orderly schema l → Orderly schema (sd :: l)
  | labelled {l : List Elem} : (∀ sd ∈ l, ∃ sc, schema sd = some sc ∧
      ∀ d ∈ sd.items M.«simpledata_array», (labelIn sc d.nameOr).isSome = true) → Orderly schema l

/-- The balloon of a feature when its style has no text for it: a heading, the description, and the table. -/
def balloonOf (entitiesIn : Str → Option Str) (name description : Option Str) (table : Option (List (Str × Str))) : Option Str :=
  (((description.map entitiesIn).getD (some []))).map fun d =>
    ((name.map fun n => chars! "<h3>" ++ n ++ chars! "</h3><br/><br/>").getD []) ++ d ++
    ((table.map fun l => chars! "\n<table border=\"1\">\n" ++
      l.flatMap (fun r => chars! "<tr><td>" ++ r.1 ++ chars! "</td><td>" ++ r.2 ++ chars! "</tr>\n") ++
      chars! "</table>\n").getD [])

end Kml.Dom
