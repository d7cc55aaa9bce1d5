import Verif.Model.ParseOld

/-!
# A parse with an `OldSchemaParserObserver` (src/kml/dom/kml_handler.cc, src/kml/engine/old_schema_parser_observer.h)

The observers of Handler.lean only look and object.  This one changes the child it is shown in `AddChild`; it never
objects.
-/

namespace Kml.Dom

open Kml

/-- kml_handler.cc 283-297 (as `Handler.attach`).  The parent holds the child by a pointer, so that what `AddChild`
does to the child shows in the parent: here the parent is given the child as it is after that. -/
def Handler.attachO (n : NumLib) (amend : Elem → Outcome Elem) (h : Handler Unit) (child : Elem) : Outcome (Handler Unit) :=
  match h.stack with
  | _ :: parent :: rest => do
    let child ← amend child
    let parent ← giveChild n true parent child
    .ok { h with stack := parent :: rest }
  | _ :: [] => .ok { h with stack := [child] }
  | [] => .ok h

/-- kml_handler.cc 233-298 (as `Handler.endPlain`). -/
def Handler.endPlainO (n : NumLib) (amend : Elem → Outcome Elem) (h : Handler Unit) (name : Str) : Outcome (Handler Unit) :=
  match h.stack with
  | [] => .ok h
  | top :: _ =>
    match h.chars with
    | [] => .ub
    | s :: chars =>
      match h.inOld && !h.simpleData.isEmpty with
      | true =>
        .ok { h with
          simpleData := h.simpleData.dropLast ++ (h.simpleData.getLast?.map (setText · s)).toList
          chars := chars, inOld := false }
      | false => do
        let e ← finishElement n top s
        let r ← { h with chars := chars }.endOldSchema name e
        r.2.attachO n amend r.1

/-- kml_handler.cc 207-298 `EndElement` (as `Handler.endElement`). -/
def Handler.endElementO (n : NumLib) (amend : Elem → Outcome Elem) (h : Handler Unit) (name : Str) : Outcome (Handler Unit) :=
  let h := { h with nesting := dec h.nesting }.leaveDescription name
  if h.skip > 0 then h.endUnknown name else h.endPlainO n amend name

/-- One event (as `Handler.step`). -/
def Handler.stepO (n : NumLib) (amend : Elem → Outcome Elem) (h : Handler Unit) : Ev → Outcome (Handler Unit)
  | .start name attrs => h.startElement n [] name attrs
  | .stop name => h.endElementO n amend name
  | .empty name attrs => do
    let h ← h.startElement n [] name attrs
    h.endElementO n amend name
  | .chars s => h.charData s

/-- All events, until the parser is stopped (as `Handler.run`). -/
def Handler.runO (n : NumLib) (amend : Elem → Outcome Elem) (h : Handler Unit) : List Ev → Outcome (Handler Unit)
  | [] => .ok h
  | ev :: evs => do
    let h ← h.stepO n amend ev
    if h.stopped then .ok h else h.runO n amend evs

/-- parser.cc 53-60 `Parser::Parse` (as `parseEvents`) with an `OldSchemaParserObserver` for the given schemas. -/
def parseConverting (n : NumLib) (xml : Str → Option (List Ev)) (schemas : StdMap Elem) (evs : List Ev) : Outcome (Option Elem) := do
  let h ← (Handler.init ()).runO n (oldSchemaAddChild n xml schemas) evs
  .ok (if h.stopped then none else h.popRoot)

end Kml.Dom
