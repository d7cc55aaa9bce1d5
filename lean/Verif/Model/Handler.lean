import Verif.Model.Dom

/-!
# The parser (src/kml/dom/kml_handler.cc, src/kml/dom/parser.cc)

The XML parser (expat) is not part of the repository.  It is represented by the events it delivers:
start tags with their attributes, end tags and character data.  For an empty-element tag `<x/>` it calls
the start handler and then, even if the start handler stopped the parse, the end handler
(kml_handler.cc 228-231), so such a tag is one event here.

Observers are functions over a state of their own; they see an element as it is when they are called
and do not change it.
-/

namespace Kml.Dom

open Kml
open Kml.Attributes (Attributes)

/-- An event of the XML parser.  Attributes come in pairs. -/
inductive Ev where
  | start (name : Str) (attrs : List (Str × Str))
  | stop (name : Str)
  | empty (name : Str) (attrs : List (Str × Str))
  | chars (s : Str)
  deriving DecidableEq, Repr

/-- parser_observer.h 41-63 `ParserObserver`: the three methods, each with the observer's new state. -/
structure Observer (σ : Type) where
  new : σ → Elem → Bool × σ
  endElement : σ → Elem → Elem → Bool × σ
  addChild : σ → Elem → Elem → Bool × σ

/-- kml_handler.cc 197-205, 300-309, 312-321: call the observers in turn; the first that answers false
ends the round. -/
def callAll {σ : Type} (f : Observer σ → σ → Bool × σ) : List (Observer σ) → σ → Bool × σ
  | [], s => (true, s)
  | o :: os, s =>
    match f o s with
    | (true, s') => callAll f os s'
    | (false, s') => (false, s')

/-- kml_handler.h 108-126, the members of `KmlHandler`; the first item of a list is the top of the stack.
`taken` is the number of items of `simpledata_vec_` that already have a parent.  `stopped` says that
`XML_StopParser` was called. -/
structure Handler (σ : Type) where
  stack : List Elem
  chars : List Str
  skip : Nat
  inDesc : Nat
  nesting : Nat
  inOld : Bool
  oldName : Str
  fieldNames : List Str
  simpleData : List Elem
  taken : Nat
  stopped : Bool
  obs : σ

/-- kml_handler.cc 58-66, the constructor. -/
def Handler.init {σ : Type} (s : σ) : Handler σ := ⟨[], [], 0, 0, 0, false, [], [], [], 0, false, s⟩

/-- kml_handler.cc 51 `kMaxNestingDepth`. -/
def maxNestingDepth : Nat := 100

/-- The number of values of an `unsigned int`. -/
def uintSize : Nat := 4294967296

/-- `++` on an `unsigned int`. -/
def inc (n : Nat) : Nat := if n + 1 = uintSize then 0 else n + 1

/-- `--` on an `unsigned int`. -/
def dec (n : Nat) : Nat := if n = 0 then uintSize - 1 else n - 1

/-- kml_handler.cc 354-360: the attributes of an unknown start tag. -/
def attrText : List (Str × Str) → Str
  | [] => []
  | (k, v) :: r => ' ' :: k ++ chars! "=\"" ++ v ++ '"' :: attrText r

/-- kml_handler.cc 349-362 `InsertUnknownStartElement`. -/
def startText (name : Str) (attrs : List (Str × Str)) : Str := '<' :: name ++ attrText attrs ++ ['>']

/-- kml_handler.cc 365-370 `InsertUnknownEndElement`. -/
def endText (name : Str) : Str := chars! "</" ++ name ++ ['>']

/-- `char_data_.top().append(s)`: `top()` of an empty stack is undefined. -/
def appendTop (s : Str) : List Str → Outcome (List Str)
  | [] => .ub
  | t :: r => .ok ((t ++ s) :: r)

/-- attributes.cc 45-52 `Attributes::Create` from the pairs of an event. -/
def attrMap (attrs : List (Str × Str)) : Attributes :=
  attrs.foldl (fun (m : Attributes) e => m.set e.1 e.2) []

/-- kml_handler.cc 373-380 `FindOldSchemaParentName`. -/
def findOldSchemaName (attrs : List (Str × Str)) (old : Str) : Str :=
  if ((attrMap attrs).get (chars! "parent")).isSome then
    ((attrMap attrs).get (chars! "name")).getD old
  else old

/-- kml_handler.cc 383-405 `ParseOldSchemaChild`: the `SimpleData` it makes. -/
def oldSchemaChild (name : Str) (fieldNames : List Str) : Option Elem :=
  if name ∈ fieldNames then
    some (.node Ty.«SimpleData» ⟨[(chars! "name", name)], [], []⟩ (fun _ => []) [] [])
  else none

/-- kml_handler.cc 118-124: the type an element name stands for; `oldName` is `old_schema_name_`. -/
def typeOfName (oldName name : Str) : Ty :=
  if oldName ≠ [] ∧ name = oldName then Ty.«Placemark» else Xsd.elementId name

/-- kml_handler.cc 126-143: the element made for a start tag: an instance of a class, an `IconStyleIcon`
for an `Icon` inside an `IconStyle`, or a `Field`; `none` if there is none. `parent` is the type on top of
the stack. -/
def makeElement (n : NumLib) (parent : Option Ty) (t : Ty) (attrs : List (Str × Str)) : Option Elem :=
  match Xsd.elementType t with
  | .complex =>
    match classOf t with
    | none => none
    | some _ =>
      let t' := if t = Ty.«Icon» ∧ parent = some Ty.«IconStyle» then Ty.«IconStyleIcon» else t
      some (.node t' (if attrs = [] then .empty else parseAttributes n (classAt t') (attrMap attrs))
        (fun _ => []) [] [])
  | .simple => some (.field t [])
  | .unknown => none

/-- kml_handler.cc 153-168: a start tag for which no element was made: at the root the parse is stopped,
elsewhere the tag becomes text. -/
def Handler.startUnknown {σ : Type} (h : Handler σ) (name : Str) (attrs : List (Str × Str)) :
    Outcome (Handler σ) :=
  match h.stack with
  | [] => .ok { h with stopped := true }
  | _ :: _ => do
    let c ← appendTop (startText name attrs) h.chars
    .ok { h with chars := c, skip := inc h.skip }

/-- kml_handler.cc 169-194: a start tag for which an element was made. -/
def Handler.startKnown {σ : Type} (os : List (Observer σ)) (h : Handler σ) (e : Elem) : Handler σ :=
  let h := { h with stack := e :: h.stack }
  let h := if e.ty = Ty.«description» then { h with skip := inc h.skip, inDesc := inc h.inDesc } else h
  let r := callAll (fun o s => o.new s e) os h.obs
  { h with obs := r.2, stopped := h.stopped || !r.1 }

/-- kml_handler.cc 98-152: a start tag outside unknown elements. -/
def Handler.startPlain {σ : Type} (n : NumLib) (os : List (Observer σ)) (h : Handler σ) (name : Str)
    (attrs : List (Str × Str)) : Outcome (Handler σ) :=
  let h := if name = chars! "Schema" then
    { h with oldName := findOldSchemaName attrs h.oldName } else h
  let h := { h with chars := [] :: h.chars }
  let t := typeOfName h.oldName name
  match makeElement n (h.stack.head?.map Elem.ty) t attrs with
  | some e => .ok (h.startKnown os e)
  | none =>
    if Xsd.elementType t = .unknown ∧ h.oldName ≠ [] then
      match oldSchemaChild name h.fieldNames with
      | some sd => .ok { h with inOld := true, simpleData := h.simpleData ++ [sd] }
      | none => { h with inOld := false }.startUnknown name attrs
    else h.startUnknown name attrs

/-- kml_handler.cc 72-194 `StartElement`. -/
def Handler.startElement {σ : Type} (n : NumLib) (os : List (Observer σ)) (h : Handler σ) (name : Str)
    (attrs : List (Str × Str)) : Outcome (Handler σ) :=
  let h := { h with nesting := inc h.nesting }
  if h.nesting > maxNestingDepth then .ok { h with stopped := true }
  else
    let h := if h.inDesc > 0 ∧ name = chars! "description" then { h with inDesc := inc h.inDesc } else h
    if h.skip > 0 then do
      let c ← appendTop (startText name attrs) h.chars
      .ok { h with chars := c, skip := inc h.skip }
    else h.startPlain n os name attrs

/-- snippet.h, extendeddata.h `set_text`. -/
def setText (e : Elem) (s : Str) : Elem :=
  match e with
  | .field t x => .field t x
  | .node t a slots mis unk => .node t a (setSlot slots M.«text» [.field Ty.Unknown s]) mis unk

/-- kml_handler.cc 408-425 `HandleOldSchemaEndElement`: give the schema an id and collect the names of its
fields.  Dereferencing the NULL that `AsSchema` gives for anything else is undefined. -/
def oldSchemaEnd (e : Elem) (oldName : Str) : Outcome (Elem × List Str) :=
  match e with
  | .node t a slots mis unk =>
    if t = Ty.«Schema» then
      .ok (.node t { a with known := a.known.set (chars! "id") (oldName ++ chars! "_id") } slots mis unk,
        (slots M.«simplefield_array»).filterMap fun f =>
          match f with
          | .node _ a _ _ _ => a.known.get (chars! "name")
          | .field _ _ => none)
    else .ub
  | .field _ _ => .ub

/-- kml_handler.cc 428-447 `HandleOldSchemaParentEndElement`: all `SimpleData` without a parent go to a new
`ExtendedData` of the placemark; for those that have a parent `AddComplexChild` does nothing. -/
def oldSchemaParentEnd (e : Elem) (oldName : Str) (data : List Elem) : Outcome Elem :=
  match e with
  | .node t a slots mis unk =>
    if t = Ty.«Placemark» then
      let sd := Elem.node Ty.«SchemaData» ⟨[(chars! "schemaUrl", oldName ++ chars! "_id")], [], []⟩
        (fun m => if m = M.«simpledata_array» then data else []) [] []
      let ed := Elem.node Ty.«ExtendedData» .empty
        (fun m => if m = M.«schemadata_array» then [sd] else []) [] []
      .ok (.node t a (setSlot slots M.«extendeddata» [ed]) mis unk)
    else .ub
  | .field _ _ => .ub

/-- kml_handler.cc 247-253: `set_char_data`.  Only a `Field` keeps its character data in this model. -/
def setCharData (e : Elem) (s : Str) : Elem :=
  match e with
  | .field t _ => .field t s
  | .node .. => e

/-- kml_handler.cc 255-261: the elements that take their own character data. -/
def selfParsing (t : Ty) : Bool :=
  t = Ty.«coordinates» || t = Ty.«Snippet» || t = Ty.«linkSnippet» || t = Ty.«SimpleData»

/-- kml_handler.cc 247-261: the end of an element whose character data is complete. -/
def finishElement (n : NumLib) (e : Elem) (s : Str) : Outcome Elem :=
  if selfParsing e.ty then addElement n s (setCharData e s) (setCharData e s) else .ok (setCharData e s)

/-- kml_handler.cc 268-281: the end of an element while an old-style schema is in force. -/
def Handler.endOldSchema {σ : Type} (h : Handler σ) (name : Str) (e : Elem) :
    Outcome (Elem × Handler σ) :=
  if h.oldName = [] then .ok (e, h)
  else if name = chars! "Schema" then do
    let r ← oldSchemaEnd e h.oldName
    .ok (r.1, { h with fieldNames := h.fieldNames ++ r.2 })
  else if name = h.oldName then do
    let r ← oldSchemaParentEnd e h.oldName (h.simpleData.drop h.taken)
    .ok (r, { h with taken := h.simpleData.length })
  else .ok (e, h)

/-- kml_handler.cc 290-292: the parent takes the child if the observers agreed. -/
def giveChild (n : NumLib) (agreed : Bool) (parent child : Elem) : Outcome Elem :=
  if agreed then addElement n [] parent child else .ok parent

/-- kml_handler.cc 283-297: hand the finished element to its parent, if it has one, asking the observers. -/
def Handler.attach {σ : Type} (n : NumLib) (os : List (Observer σ)) (h : Handler σ) (child : Elem) :
    Outcome (Handler σ) :=
  match h.stack with
  | _ :: parent :: rest => do
    let r := callAll (fun o s => o.endElement s parent child) os h.obs
    let parent ← giveChild n r.1 parent child
    let r' := callAll (fun o s => o.addChild s parent child) os r.2
    .ok { h with stack := parent :: rest, obs := r'.2, stopped := h.stopped || !r'.1 }
  | _ :: [] => .ok { h with stack := [child] }
  | [] => .ok h

/-- kml_handler.cc 233-298: an end tag outside unknown elements. -/
def Handler.endPlain {σ : Type} (n : NumLib) (os : List (Observer σ)) (h : Handler σ) (name : Str) :
    Outcome (Handler σ) :=
  match h.stack with
  | [] => .ok h
  | top :: _ =>
    match h.chars with
    | [] => .ub
    | s :: chars =>
      match h.inOld && !h.simpleData.isEmpty with
      | true =>
        .ok { h with
          simpleData := h.simpleData.dropLast ++ (h.simpleData.getLast?.map (setText · s)).toList
          chars := chars, inOld := false }
      | false => do
        let e ← finishElement n top s
        let r ← { h with chars := chars }.endOldSchema name e
        r.2.attach n os r.1

/-- kml_handler.cc 219-227: an end tag inside an unknown element.  `top()` of an empty stack is undefined. -/
def Handler.endUnknown {σ : Type} (h : Handler σ) (name : Str) : Outcome (Handler σ) := do
  let chars ← appendTop (endText name) h.chars
  let h := { h with chars := chars, skip := dec h.skip }
  if h.skip = 0 then
    match h.stack, h.chars with
    | top :: rest, s :: chars =>
      .ok { h with stack := addUnknownElement top (s ++ ['\n']) :: rest, chars := chars }
    | _, _ => .ub
  else .ok h

/-- kml_handler.cc 213-215: leaving a `description`. -/
def Handler.leaveDescription {σ : Type} (h : Handler σ) (name : Str) : Handler σ :=
  if name = chars! "description" then
    if dec h.inDesc = 0 then { h with inDesc := 0, skip := dec h.skip }
    else { h with inDesc := dec h.inDesc }
  else h

/-- kml_handler.cc 207-298 `EndElement`. -/
def Handler.endElement {σ : Type} (n : NumLib) (os : List (Observer σ)) (h : Handler σ) (name : Str) :
    Outcome (Handler σ) :=
  let h := { h with nesting := dec h.nesting }.leaveDescription name
  if h.skip > 0 then h.endUnknown name else h.endPlain n os name

/-- kml_handler.cc 330-332 `CharData`. -/
def Handler.charData {σ : Type} (h : Handler σ) (s : Str) : Outcome (Handler σ) := do
  let c ← appendTop s h.chars
  .ok { h with chars := c }

/-- One event. -/
def Handler.step {σ : Type} (n : NumLib) (os : List (Observer σ)) (h : Handler σ) :
    Ev → Outcome (Handler σ)
  | .start name attrs => h.startElement n os name attrs
  | .stop name => h.endElement n os name
  | .empty name attrs => do
    let h ← h.startElement n os name attrs
    h.endElement n os name
  | .chars s => h.charData s

/-- All events, until the parser is stopped. -/
def Handler.run {σ : Type} (n : NumLib) (os : List (Observer σ)) (h : Handler σ) :
    List Ev → Outcome (Handler σ)
  | [] => .ok h
  | ev :: evs => do
    let h ← h.step n os ev
    if h.stopped then .ok h else h.run n os evs

/-- kml_handler.cc 339-346 `PopRoot`. -/
def Handler.popRoot {σ : Type} (h : Handler σ) : Option Elem :=
  match h.stack with
  | [e] => some e
  | _ => none

/-- parser.cc 53-60 `Parser::Parse` on a document that the XML parser accepts: `none` (NULL) when the parser
was stopped, otherwise the root; with the state of the observers. -/
def parseEvents {σ : Type} (n : NumLib) (os : List (Observer σ)) (s : σ) (evs : List Ev) :
    Outcome (Option Elem × σ) := do
  let h ← (Handler.init s).run n os evs
  .ok (if h.stopped then none else h.popRoot, h.obs)

end Kml.Dom
