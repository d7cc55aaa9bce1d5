import Verif.Model.Dom

/-!
# Writing elements (src/kml/dom/serializer.cc, xml_serializer.h, the `Serialize` methods)
-/

namespace Kml.Dom

open Kml
open Kml.Attributes (Attributes)

/-! ## Quoting -/

/-- serializer.cc 39-47 `EnityEscapeXml`: the map, in the order `std::map` keeps its keys. -/
def escapeMap : List (Str × Str) :=
  [(chars! "\"", chars! "&quot;"), (chars! "&", chars! "&amp;"), (chars! "'", chars! "&apos;"),
   (chars! "<", chars! "&lt;"), (chars! ">", chars! "&gt;")]

/-- serializer.cc 39-47 `EnityEscapeXml`. `CreateExpandedStrings` always ends
(`C04_terminates`), so the default is never used. -/
def entityEscape (s : Str) : Str :=
  (StringUtil.createExpandedStrings s escapeMap [] []).getD s

/-- serializer.cc 56-69 `Serializer::MaybeQuoteString`. -/
def maybeQuote (s : Str) : Str :=
  if (findFrom (chars! "<![CDATA[") s).isSome then entityEscape s
  else if s.any (fun c => c ∈ chars! "&'<>\"") then chars! "<![CDATA[" ++ s ++ chars! "]]>"
  else s

/-! ## The calls an element makes on a serializer -/

/-- A call on `Serializer`.  `BeginElementArray`, `EndElementArray` and their group versions do nothing in
`XmlSerializer` and are left out; `SaveElement` and `SaveElementGroup` call `Serialize`. -/
inductive Call where
  /-- `BeginById` -/
  | beginElem (t : Ty) (attrs : Attributes)
  /-- `End` -/
  | endElem
  /-- `SaveStringFieldById`, also through `SaveFieldById`, `SaveEnum` and `SaveSimpleVec3` -/
  | field (t : Ty) (text : Str)
  /-- `SaveColor` -/
  | color (t : Ty) (text : Str)
  /-- `SaveContent` -/
  | content (text : Str) (quote : Bool)
  /-- `SaveVec3`; the text is the point's `lon,lat,alt` -/
  | vec3 (text : Str)
  /-- `Indent` -/
  | indent
  deriving DecidableEq, Repr

/-- The texts of the simple items of a member. -/
def texts (l : List Elem) : List Str :=
  l.filterMap fun e =>
    match e with
    | .field _ s => some s
    | .node .. => none

/-- The calls for one member that holds values: `field`, `enum` (serializer.cc 74-79: nothing for an empty
name), `color`, `vec3` (geometry.cc 526-531), `content` (snippet.cc, extendeddata.cc: always, with an empty
text if not set, or only if set), `points` (geometry.cc 183-192).  `none` for a member that holds
elements. -/
def Write.valueCalls (slots : Mem → List Elem) : Write → Option (List Call)
  | .field m t => some ((texts (slots m)).map (Call.field t))
  | .enum m t => some (((texts (slots m)).filter (· ≠ [])).map (Call.field t))
  | .color m t => some ((texts (slots m)).map (Call.color t))
  | .vec3 m t => some ((texts (slots m)).map (Call.field t))
  | .content m always =>
    some (match texts (slots m), always with
      | [], true => [Call.content [] true]
      | l, _ => l.map (Call.content · true))
  | .points m => some ((texts (slots m)).map Call.vec3)
  | .elem _ | .group _ _ | .array _ | .groupArray _ _ => none

/-- The member a write writes. -/
def Write.mem : Write → Mem
  | .field m _ | .enum m _ | .color m _ | .vec3 m _ | .elem m | .group m _ | .array m
  | .groupArray m _ | .content m _ | .points m => m

/-- element.cc 66-85 `SerializeUnknown`, second half: the unknown children, as raw text. -/
def unknownCalls (unk : List Str) : List Call :=
  unk.flatMap fun s => [Call.indent, Call.content s false]

mutual

/-- `Serialize` of an element: element.cc 174-176 `Field::Serialize`; geometry.cc 183-192
`Coordinates::Serialize`, which writes neither attributes nor misplaced or unknown children; and for all
other classes `ElementSerializer` (element.cc 153-165) around the class's own writes: the attributes and the
start tag before them; the misplaced children, the unknown ones and the end tag after them. -/
def calls : Elem → List Call
  | .field t s => [.field t s]
  | .node t a slots mis unk =>
    if t = Ty.«coordinates» then
      .beginElem t [] :: ((classAt t).writes.flatMap fun w =>
        match w.valueCalls slots with
        | some cs => cs
        | none => (callsEach (slots w.mem)).flatten) ++ [.endElem]
    else
      .beginElem t (serializeAttributes (classAt t) a) ::
        ((classAt t).writes.flatMap fun w =>
          match w.valueCalls slots with
          | some cs => cs
          | none => (callsEach (slots w.mem)).flatten) ++
        (callsEach mis).flatten ++ unknownCalls unk ++ [.endElem]

/-- `Serialize` of each element of a list. -/
def callsEach : List Elem → List (List Call)
  | [] => []
  | e :: es => calls e :: callsEach es

end

/-! ## `XmlSerializer` -/

/-- The members of `XmlSerializer` (xml_serializer.h 236-241) and the text written so far. -/
structure Ser where
  newline : Str
  indent : Str
  tags : List Ty
  pending : Bool
  attrs : Str
  out : Str
  deriving DecidableEq, Repr

/-- xml_serializer.h 87-92, the constructor. -/
def Ser.new (newline indent : Str) : Ser := ⟨newline, indent, [], false, [], []⟩

/-- Write a text. -/
def Ser.put (s : Ser) (t : Str) : Ser := { s with out := s.out ++ t }

/-- xml_serializer.h 191-198 `Indent`. -/
def Ser.doIndent (s : Ser) : Ser := s.put (List.replicate s.tags.length s.indent).flatten

/-- xml_serializer.h 214-234 `EmitStart`: the result says whether a start tag was pending.  `top()` of an
empty stack is undefined. -/
def Ser.emitStart (s : Ser) (nil : Bool) : Outcome (Bool × Ser) :=
  if !s.pending then .ok (false, s)
  else
    match s.tags with
    | [] => .ub
    | t :: _ =>
      .ok (true, { s.put ('<' :: Xsd.elementName t ++ s.attrs ++ (if nil then chars! "/>" else ['>']) ++
        s.newline) with pending := false, attrs := [] })

/-- xml_serializer.h 98-110 `BeginById`. -/
def Ser.beginById (s : Ser) (t : Ty) (a : Attributes) : Outcome Ser := do
  let r ← s.emitStart false
  let s := r.2.doIndent
  .ok { s with
    tags := t :: s.tags
    attrs := if Attributes.getSize a > 0 then s.attrs ++ Attributes.serialize a else s.attrs
    pending := true }

/-- xml_serializer.h 113-127 `End`: `top()` of an empty stack is undefined. -/
def Ser.endTag (s : Ser) : Outcome Ser :=
  match s.tags with
  | [] => .ub
  | t :: ts => do
    let r ← s.emitStart true
    if r.1 then .ok { r.2 with tags := ts }
    else .ok ({ r.2 with tags := ts }.doIndent.put (chars! "</" ++ Xsd.elementName t ++ ['>'] ++ s.newline))

/-- xml_serializer.h 131-147 `SaveStringFieldById`. -/
def Ser.saveField (s : Ser) (t : Ty) (text : Str) : Outcome Ser := do
  let r ← s.emitStart false
  let name := Xsd.elementName t
  .ok (r.2.doIndent.put ('<' :: name ++
    (if text = [] then ['/'] else '>' :: maybeQuote text ++ chars! "</" ++ name) ++ ['>'] ++ s.newline))

/-- xml_serializer.h 150-157 `SaveContent`. -/
def Ser.saveContent (s : Ser) (text : Str) (quote : Bool) : Outcome Ser := do
  let r ← s.emitStart false
  .ok (r.2.put (if quote then maybeQuote text else text))

/-- xml_serializer.h 160-183 `SaveVec3`. -/
def Ser.saveVec3 (s : Ser) (text : Str) : Outcome Ser := do
  let r ← s.emitStart false
  .ok (r.2.doIndent.put (text ++ (if s.newline = [] then ['\n'] else s.newline)))

/-- xml_serializer.h 185-188 `SaveColor`. -/
def Ser.saveColor (s : Ser) (t : Ty) (text : Str) : Outcome Ser := do
  let r ← s.emitStart false
  r.2.saveField t text

/-- One call. -/
def Ser.call (s : Ser) : Call → Outcome Ser
  | .beginElem t a => s.beginById t a
  | .endElem => s.endTag
  | .field t x => s.saveField t x
  | .color t x => s.saveColor t x
  | .content x q => s.saveContent x q
  | .vec3 x => s.saveVec3 x
  | .indent => .ok s.doIndent

/-- A sequence of calls. -/
def Ser.run (s : Ser) : List Call → Outcome Ser
  | [] => .ok s
  | c :: cs => do
    let s ← s.call c
    s.run cs

/-- xml_serializer.h 71-80 `Serialize` and xml_serializer.cc 46-72: `SerializePretty` is this with a
line break and two blanks, `SerializeRaw` with two empty strings. -/
def serialize (newline indent : Str) (e : Elem) : Outcome Str := do
  let s ← (Ser.new newline indent).run (calls e)
  .ok s.out

/-- xml_serializer.cc 46-56 `SerializePretty`. -/
def serializePretty (e : Elem) : Outcome Str := serialize ['\n'] (chars! "  ") e

/-- xml_serializer.cc 61-70 `SerializeRaw`. -/
def serializeRaw (e : Elem) : Outcome Str := serialize [] [] e

end Kml.Dom
