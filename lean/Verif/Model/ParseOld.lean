import Verif.Model.Feed
import Verif.Model.KmlFile
import Verif.Model.StringUtil

/-!
# Instances of old-style schemas: `/repo/src/kml/engine/parse_old_schema.cc`, `schema_parser_observer.h` and
`old_schema_parser_observer.h`

The XML parser is a parameter: it gives the events of a text, or nothing if the text is not well formed.
-/

namespace Kml.Dom

open Kml

/-- `s.substr(pos, len)` where `len` is `to - pos` in unsigned arithmetic: all the rest if that is less than zero. -/
def substrTo (s : Str) (pos to' : Nat) : Str := if pos ≤ to' then (s.drop pos).take (to' - pos) else s.drop pos

/-- parse_old_schema.cc 36-68 `ConvertOldSchema`: `none` is false.  The output string is given.  The first character of
an empty string reads as zero. -/
def convertOldSchema (input : Str) (schemas : StdMap Elem) : Option Str :=
  if input.head? ≠ some '<' then none
  else
    match findFrom (chars! ">") input with
    | none => none
    | some gt =>
      match findFrom (chars! "</" ++ (input.drop 1).take (gt - 1) ++ chars! ">") input with
      | none => none
      | some endTag =>
        match schemas.get ((input.drop 1).take (gt - 1)) with
        | none => none
        | some _ => some (chars! "<Placemark>" ++ substrTo input (gt + 1) endTag ++ chars! "</Placemark>")

/-- parse_old_schema.cc 70-81 `ParseOldSchema`, with parser.cc 101-104 `Parse` and kml_cast.cc `AsPlacemark`. -/
def parseOldSchema (n : NumLib) (xml : Str → Option (List Ev)) (input : Str) (schemas : StdMap Elem) : Outcome (Option Elem) :=
  match convertOldSchema input schemas with
  | none => .ok none
  | some text =>
    match xml text with
    | none => .ok none
    | some evs => parseEvents n ([] : List (Observer Unit)) () evs >>= fun r =>
        .ok (r.1.bind fun e => if e.ty = Ty.«Placemark» then some e else none)

/-- The loop old_schema_parser_observer.h 61-73. -/
def addOldSchemas (n : NumLib) (xml : Str → Option (List Ev)) (schemas : StdMap Elem) (container : Elem) :
    List Str → Outcome Elem
  | [] => .ok container
  | s :: ss => parseOldSchema n xml s schemas >>= fun r =>
      addOldSchemas n xml schemas
        (match r with
        | none => container
        | some p => addFeature container p) ss

/-- old_schema_parser_observer.h 58-77 `OldSchemaParserObserver::AddChild`: the child afterwards.  (The observers of
Handler.lean cannot change what they are shown; ParseOldIn.lean has the parse with this one.) -/
def oldSchemaAddChild (n : NumLib) (xml : Str → Option (List Ev)) (schemas : StdMap Elem) (child : Elem) : Outcome Elem :=
  if child.isA Ty.«Container» then addOldSchemas n xml schemas child child.unknownTexts else .ok child

/-- A parse with a `SchemaParserObserver` for an empty map. -/
def collectSchemas (n : NumLib) (evs : List Ev) : Outcome (Option Elem × StdMap Elem) :=
  parseEvents n [schemaObserver] [] evs

end Kml.Dom
