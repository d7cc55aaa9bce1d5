import Verif.Model.Kml22
import Verif.Model.StdMap

/-! The element and enumeration lookups of xsd.cc. -/

namespace Kml.Xsd

/-- xsd.cc 43-47: the constructor fills `tag_to_id`, row by row, for every row before `Type_Invalid`.
`rows` are the rows not yet entered, `i` the index of the first of them. -/
def fillTags : List (Str × XsdKind) → Nat → StdMap Nat → StdMap Nat
  | [], _, m => m
  | (name, _) :: rows, i, m => if i < Ty.Invalid then fillTags rows (i + 1) (m.set name i) else m

/-- xsd.cc 43-47: `tag_to_id`. -/
def tagToId : StdMap Nat := fillTags kml22Elements 0 []

/-- xsd.cc 49-55: `Xsd::ElementId`. -/
def elementId (name : Str) : Ty :=
  match tagToId.get name with
  | none => Ty.Unknown
  | some i => i

/-- xsd.cc 57-59: `is_valid`.  (Ids are never negative here; the C++ `int` may be.) -/
def isValid (id : Ty) : Bool := Ty.Unknown < id && id < Ty.Invalid

/-- xsd.cc 61-72: `Xsd::ElementName`. -/
def elementName (id : Ty) : Str :=
  if isValid id then
    if id = Ty.IconStyleIcon then chars! "Icon"
    else match kml22Elements[id]? with
      | some row => row.1
      | none => []
  else []

/-- xsd.cc 74-80: `Xsd::ElementType`. -/
def elementType (id : Ty) : XsdKind :=
  if isValid id then
    match kml22Elements[id]? with
    | some row => row.2
    | none => .unknown
  else .unknown

/-- xsd.cc 86-93: the search of one value list, counting from `i`. -/
def valueIndex (v : Str) : List Str → Nat → Option Nat
  | [], _ => none
  | w :: ws, i => if w = v then some i else valueIndex v ws (i + 1)

/-- xsd.cc 84-95: the search of the rows of `kKml22Enums`; `none` stands for -1. -/
def enumIdIn (t : Ty) (v : Str) : List (Ty × List Str) → Option Nat
  | [] => none
  | (t', vs) :: rows =>
    if t' = t then
      match valueIndex v vs 0 with
      | some i => some i
      | none => enumIdIn t v rows
    else enumIdIn t v rows

/-- xsd.cc 82-101: `Xsd::EnumId`; `none` stands for -1. -/
def enumId (t : Ty) (v : Str) : Option Nat := enumIdIn t v kml22Enums

/-- xsd.cc 108-114: the search of the rows.  Reading the terminating NULL as a string, or reading
past it, is undefined. -/
def enumValueIn (t : Ty) (n : Nat) : List (Ty × List Str) → Outcome Str
  | [] => .ok []
  | (t', vs) :: rows =>
    if t' = t then
      match vs[n]? with
      | some v => .ok v
      | none => .ub
    else enumValueIn t n rows

/-- xsd.cc 103-115: `Xsd::EnumValue`. -/
def enumValue (t : Ty) (n : Int) : Outcome Str :=
  if n < 0 then .ok [] else enumValueIn t n.toNat kml22Enums

/-- kml22.h 276-503: `kmlDomTypeToString`; an index past the table is undefined. -/
def kmlDomTypeToString (t : Ty) : Outcome Str :=
  match domTypeStrings[t]? with
  | some s => .ok s
  | none => .ub

end Kml.Xsd
