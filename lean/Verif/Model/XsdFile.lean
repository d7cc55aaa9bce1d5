import Verif.Model.Handler
import Verif.Model.StringUtil

/-!
# Processing of XSD files

Model of `src/kml/xsd/`.  Pointers to types are modelled by the types: `XsdFile` keeps each type under its own name, so two
types of a file are the same object exactly when they have the same name (see `searchTypeHierarchy`).
-/

namespace Kml.XsdDoc

open Kml Kml.Attributes Kml.StringUtil

/-- xsd_primitive_type.cc 31-56: the table, without the leading NULL of `XSD_INVALID`; the ids start at 1. -/
def primitiveNames : List Str :=
  [chars! "string", chars! "boolean", chars! "decimal", chars! "float", chars! "double", chars! "duration",
   chars! "dateTime", chars! "time", chars! "date", chars! "gYearMonth", chars! "gYear", chars! "gMonthDay",
   chars! "gDay", chars! "gMonth", chars! "hexBinary", chars! "base64Binary", chars! "anyURI", chars! "QNAME",
   chars! "NOTATION", chars! "integer", chars! "long", chars! "int"]

/-- xsd_primitive_type.cc 58-60 `GetTypeName`: `string(NULL)` for `XSD_INVALID`, no bounds check. -/
def getTypeName (id : Nat) : Outcome Str :=
  match id with
  | 0 => .ub
  | i + 1 =>
    match primitiveNames[i]? with
    | some s => .ok s
    | none => .ub

/-- The loop of `GetTypeId`, xsd_primitive_type.cc 66-70. -/
def typeIdFrom (name : Str) : Nat → List Str → Nat
  | _, [] => 0
  | i, s :: r => if name = s then i else typeIdFrom name (i + 1) r

/-- xsd_primitive_type.cc 62-72 `GetTypeId`: 0 is `XSD_INVALID`. -/
def getTypeId (name : Str) : Nat := typeIdFrom name 1 primitiveNames

/-- xsd_element.h 99-106: the members of `XsdElement`. -/
structure Element where
  abstract_ : Bool := false
  ref_ : Bool := false
  default_ : Str := []
  name_ : Str := []
  type_ : Str := []
  typeId : Nat := 0
  substitutionGroup : Str := []
  deriving DecidableEq, Repr

/-- xsd_element.cc 42-59 `Create` and `ParseAttributes`. -/
def Element.create (a : Attributes) : Option Element :=
  match getValue a (chars! "name") with
  | some name =>
    some
      { abstract_ := ((getValue a (chars! "abstract")).map boolFromString).getD false
        ref_ := false
        default_ := (getValue a (chars! "default")).getD []
        name_ := name
        type_ := (getValue a (chars! "type")).getD []
        typeId := getTypeId ((getValue a (chars! "type")).getD [])
        substitutionGroup := (getValue a (chars! "substitutionGroup")).getD [] }
  | none =>
    match getValue a (chars! "ref") with
    | some name => some { ref_ := true, name_ := name }
    | none => none

/-- xsd_element.h 82-84 `is_primitive`. -/
def Element.isPrimitive (e : Element) : Bool := e.typeId != 0

/-- xsd_complex_type.h 118-120, the members of `XsdComplexType`. -/
structure Complex where
  name : Str
  base : Str := []
  sequence : List Element := []
  deriving DecidableEq, Repr

/-- xsd_simple_type.h 109-111, the members of `XsdSimpleType`. -/
structure Simple where
  name : Str
  base : Str := []
  enumeration : List Str := []
  deriving DecidableEq, Repr

/-- The subclasses of `XsdType` (xsd_type.h 34-66). -/
inductive XType where
  | primitive (id : Nat)
  | simple (s : Simple)
  | complex (c : Complex)
  deriving DecidableEq, Repr

/-- xsd_complex_type.h 60-65 `AsComplexType`, of a pointer that may be NULL. -/
def asComplex : Option XType → Option Complex
  | some (.complex c) => some c
  | _ => none

/-- xsd_simple_type.h 51-56 `AsSimpleType`. -/
def asSimple : Option XType → Option Simple
  | some (.simple s) => some s
  | _ => none

/-- `get_name`, of the types that are kept in a file. -/
def XType.name : XType → Str
  | .primitive _ => []
  | .simple s => s.name
  | .complex c => c.name

/-- xsd_schema.h 103-104, the members of `XsdSchema` that are read. -/
structure Schema where
  targetNamespace : Str
  pre : Str
  deriving DecidableEq, Repr

/-- xsd_schema.h 45-52, 86-101 `Create` and `Parse`. -/
def Schema.create (a : Attributes) : Option Schema :=
  if (getValue a (chars! "targetNamespace")).getD [] = [] then none
  else
    match Xmlns.create a with
    | none => none
    | some x =>
      if x.getKey ((getValue a (chars! "targetNamespace")).getD []) = [] then none
      else some ⟨(getValue a (chars! "targetNamespace")).getD [], x.getKey ((getValue a (chars! "targetNamespace")).getD [])⟩

/-- xsd_schema.h 69-80 `SplitNsName`. -/
def Schema.splitNsName (s : Schema) (nsName : Str) : Option Str :=
  if nsName.length > s.pre.length + 1 ∧ nsName.take (s.pre.length + 1) = s.pre ++ [':'] then
    some (nsName.drop (s.pre.length + 1))
  else none

/-- xsd_file.h 175-178, the members of `XsdFile`. -/
structure File where
  schema : Option Schema := none
  elements : StdMap Element := []
  types : StdMap XType := []
  aliases : StdMap Str := []

/-- xsd_file.h 74-76 `add_element`. -/
def File.addElement (f : File) (e : Element) : File := { f with elements := f.elements.set e.name_ e }

/-- xsd_file.h 79-81 `add_type`: `xsd_type->get_name()` of a pointer that may be NULL. -/
def File.addType (f : File) : Option XType → Outcome File
  | none => .ub
  | some t => .ok { f with types := f.types.set t.name t }

/-- xsd_file.h 91-94 `set_alias`. -/
def File.setAlias (f : File) (real_ alias_ : Str) : File := { f with aliases := f.aliases.set real_ alias_ }

/-- xsd_file.h 99-102 `get_alias`. -/
def File.getAlias (f : File) (real_ : Str) : Str := (f.aliases.get real_).getD []

/-- xsd_file.cc 66-69 `GetAllElements`. -/
def File.getAllElements (f : File) : List Element := f.elements.map (·.2)

/-- xsd_file.cc 71-78 `GetAllTypes`. -/
def File.getAllTypes (f : File) : List XType := f.types.map (·.2)

/-- xsd_file.cc 80-83 `FindType`. -/
def File.findType (f : File) (name : Str) : Option XType := f.types.get name

/-- xsd_file.cc 85-89 `FindElement`. -/
def File.findElement (f : File) (name : Str) : Option Element := f.elements.get name

/-- xsd_file.cc 91-108 `FindElementType`. -/
def File.findElementType (f : File) : Option Element → Option XType
  | none => none
  | some e =>
    if e.type_ = [] then none
    else if e.isPrimitive then (if getTypeId e.type_ = 0 then none else some (.primitive (getTypeId e.type_)))
    else
      match f.schema with
      | none => none
      | some s =>
        match s.splitNsName e.type_ with
        | none => none
        | some name => f.findType name

/-- xsd_file.cc 136-144 `ResolveRef`. -/
def File.resolveRef (f : File) (ref : Str) : Option Element :=
  match f.schema with
  | none => none
  | some s =>
    match s.splitNsName ref with
    | none => none
    | some name => f.findElement name

/-- xsd_file.cc 110-124 `FindChildElements`: the pointers appended, NULL for a reference that is not resolved. -/
def File.findChildElements (f : File) : Option Complex → List (Option Element)
  | none => []
  | some c => c.sequence.map fun e => if e.ref_ then f.resolveRef e.name_ else some e

/-- xsd_file.cc 126-134 `GetChildElements`. -/
def File.getChildElements (f : File) (name : Str) : List (Option Element) :=
  f.findChildElements (asComplex (f.findElementType (f.findElement name)))

/-- xsd_file.cc 146-154 `GetBaseType`, of a file with a schema (the callers below check it). -/
def File.getBaseType (f : File) (s : Schema) (c : Complex) : Option Complex :=
  match s.splitNsName c.base with
  | none => none
  | some name => asComplex (f.findType name)

/-- The loop of `GetTypeHierarchy`, xsd_file.cc 161-171: `none` if it has not ended after `fuel` rounds. -/
def File.hierarchyLoop (f : File) (s : Schema) : Nat → Complex → Option (Bool × List Complex)
  | 0, _ => none
  | fuel + 1, c =>
    if c.base = [] then some (true, [])
    else
      match f.getBaseType s c with
      | none => some (false, [])
      | some b => (f.hierarchyLoop s fuel b).map fun r => (r.1, b :: r.2)

/-- xsd_file.cc 156-173 `GetTypeHierarchy`: the value returned and the types appended. -/
def File.getTypeHierarchy (f : File) (fuel : Nat) (c : Complex) : Option (Bool × List Complex) :=
  match f.schema with
  | none => some (false, [])
  | some s => f.hierarchyLoop s fuel c

/-- xsd_file.cc 234-246 `SearchTypeHierarchy`: `none` if the recursion has not ended after `fuel` calls.  The pointers are
compared by the names of the types: in a file there is one type of each name. -/
def File.searchTypeHierarchy (f : File) : Nat → Complex → Complex → Option Bool
  | 0, _, _ => none
  | fuel + 1, c, find =>
    match f.schema with
    | none => some false
    | some s =>
      if find.name = c.name then some true
      else
        match f.getBaseType s c with
        | some b => f.searchTypeHierarchy fuel b find
        | none => some false

/-- xsd_file.cc 177-186 `GetAbstractElements`. -/
def File.getAbstractElements (f : File) : List Element := f.getAllElements.filter (·.abstract_)

/-- xsd_file.cc 188-199 `GetComplexElements`. -/
def File.getComplexElements (f : File) : List Element :=
  f.getAllElements.filter fun e => !e.abstract_ && (asComplex (f.findElementType (some e))).isSome

/-- xsd_file.cc 201-212 `GetSimpleElements`. -/
def File.getSimpleElements (f : File) : List Element :=
  f.getAllElements.filter fun e => !e.abstract_ && (e.isPrimitive || (asSimple (f.findElementType (some e))).isSome)

/-- xsd_file.cc 215-232 `GenerateElementIdVector`: the vector given, with what is appended, and the two indices. -/
def File.generateElementIdVector (f : File) (v : List Element) : List Element × Nat × Nat :=
  (v ++ f.getAbstractElements ++ f.getComplexElements ++ f.getSimpleElements,
   (v ++ f.getAbstractElements).length, (v ++ f.getAbstractElements ++ f.getComplexElements).length)

/-- The loop of `GetElementsOfType`, xsd_file.cc 254-262. -/
def File.elementsOfTypeLoop (f : File) (fuel : Nat) (t : Complex) : List Element → Option (List Element)
  | [] => some []
  | e :: r =>
    match asComplex (f.findElementType (some e)) with
    | none => f.elementsOfTypeLoop fuel t r
    | some c => do
      let hit ← f.searchTypeHierarchy fuel c t
      let rest ← f.elementsOfTypeLoop fuel t r
      some (if hit then e :: rest else rest)

/-- xsd_file.cc 248-263 `GetElementsOfType`: `none` if some search has not ended. -/
def File.getElementsOfType (f : File) (fuel : Nat) (t : Complex) : Option (List Element) :=
  f.elementsOfTypeLoop fuel t f.getAllElements

/-! ## The handler -/

/-- xsd_handler.h 70-87, the members of `XsdHandler`; the stack has its top first. -/
structure State where
  file : File := {}
  current : Option XType := none
  stack : List Str := []

/-- xsd_complex_type.h 50-56 and xsd_simple_type.h 43-49 `Create`. -/
def createType (mk : Str → XType) (a : Attributes) : Option XType := (getValue a (chars! "name")).map mk

/-- xsd_handler.cc 42-46, 67-71 `StartComplexType` and `StartSimpleType`. -/
def startType (mk : Str → XType) (a : Attributes) (st : State) : State :=
  match st.current with
  | none => { st with current := createType mk a }
  | some _ => st

/-- xsd_handler.cc 50-53 `EndType`. -/
def endType (st : State) : Outcome State := do
  let f ← st.file.addType st.current
  .ok { st with file := f, current := none }

/-- xsd_handler.cc 56-64 `StartExtension`. -/
def startExtension (a : Attributes) (st : State) : State :=
  match st.current with
  | some (.complex c) =>
    match getValue a (chars! "base") with
    | some b => { st with current := some (.complex { c with base := b }) }
    | none => st
  | _ => st

/-- xsd_handler.cc 74-82 `StartRestriction`. -/
def startRestriction (a : Attributes) (st : State) : State :=
  match st.current with
  | some (.simple s) =>
    match getValue a (chars! "base") with
    | some b => { st with current := some (.simple { s with base := b }) }
    | none => st
  | _ => st

/-- xsd_handler.cc 85-93 `StartEnumeration`. -/
def startEnumeration (a : Attributes) (st : State) : State :=
  match st.current with
  | some (.simple s) =>
    match getValue a (chars! "value") with
    | some v => { st with current := some (.simple { s with enumeration := s.enumeration ++ [v] }) }
    | none => st
  | _ => st

/-- xsd_handler.cc 97-111 `StartXsElement`: `parse_.top()` of an empty stack is undefined. -/
def startXsElement (a : Attributes) (st : State) : Outcome State :=
  match Element.create a with
  | none => .ok st
  | some e =>
    match st.stack with
    | [] => .ub
    | p :: _ =>
      if p = chars! "schema" then .ok { st with file := st.file.addElement e }
      else
        match st.current with
        | some (.complex c) => .ok { st with current := some (.complex { c with sequence := c.sequence ++ [e] }) }
        | _ => .ok st

/-- xsd_handler.cc 118-132, the dispatch of `StartElement`. -/
def dispatch (name : Str) (a : Attributes) (st : State) : Outcome State :=
  if name = chars! "schema" then .ok { st with file := { st.file with schema := Schema.create a } }
  else if name = chars! "element" then startXsElement a st
  else if name = chars! "complexType" then .ok (startType (fun n => .complex { name := n }) a st)
  else if name = chars! "extension" then .ok (startExtension a st)
  else if name = chars! "simpleType" then .ok (startType (fun n => .simple { name := n }) a st)
  else if name = chars! "restriction" then .ok (startRestriction a st)
  else if name = chars! "enumeration" then .ok (startEnumeration a st)
  else .ok st

/-- xsd_handler.cc 114-136 `StartElement`. -/
def startElement (name : Str) (attrs : List (Str × Str)) (st : State) : Outcome State := do
  let st ← dispatch name (Dom.attrMap attrs) st
  .ok { st with stack := name :: st.stack }

/-- xsd_handler.cc 139-147 `EndElement`: `pop` of an empty stack is undefined. -/
def endElement (name : Str) (st : State) : Outcome State :=
  match st.stack with
  | [] => .ub
  | _ :: stack =>
    if name = chars! "complexType" then endType { st with stack := stack }
    else if name = chars! "simpleType" then endType { st with stack := stack }
    else .ok { st with stack := stack }

/-- One event: an empty-element tag is a start and an end, text is ignored (xsd_handler.h 65). -/
def step (st : State) : Dom.Ev → Outcome State
  | .start n a => startElement n a st
  | .stop n => endElement n st
  | .empty n a => do
    let st ← startElement n a st
    endElement n st
  | .chars _ => .ok st

/-- The events of a document, one after the other. -/
def run (st : State) : List Dom.Ev → Outcome State
  | [] => .ok st
  | e :: r => do
    let st ← step st e
    run st r

/-- xsd_file.cc 40-49 `CreateFromParse`, of a well-formed document, given by its events. -/
def createFromParse (evs : List Dom.Ev) : Outcome File := do
  let st ← run {} evs
  .ok st.file

/-! ## Aliases -/

/-- xst_parser.cc 37-42 `ParseXstAlias`. -/
def parseXstAlias (f : File) : List Str → File
  | [_, r, a] => f.setAlias r a
  | _ => f

/-- xst_parser.cc 44-57, one line of `ParseXst`, split at spaces. -/
def parseXstLine (f : File) (line : List Str) : File :=
  match line with
  | [] => f
  | w :: _ => if w = chars! "alias" then parseXstAlias f line else f

end Kml.XsdDoc
