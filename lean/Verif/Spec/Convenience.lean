import Verif.Model.Convenience
import Verif.Spec.StringUtil

/-!
# What the conveniences are for

Reading a feature, and what a line of CSV data says.
-/

namespace Kml.Dom

open Kml

/-! ## Reading a feature -/

/-- The names and values of the `Data` of a feature. -/
def Elem.dataPairs (e : Elem) : List (Option Str × Str) :=
  match e.only M.«extendeddata» with
  | none => []
  | some ed => (ed.items M.«data_array»).map fun d => (d.known (chars! "name"), d.text M.«value»)

/-- The element is a feature with one point, at a longitude and a latitude, without altitude. -/
def Elem.IsAt (e : Elem) (lat lon : Str) : Prop :=
  ∃ g c, e.only M.«geometry» = some g ∧ g.ty = Ty.«Point» ∧ g.only M.«coordinates» = some c ∧ c.ty = Ty.«coordinates» ∧
    c.items M.«coordinates_array» = [.field Ty.Unknown (lon ++ [','] ++ lat ++ [',', '0'])]

/-- Two elements have the same type, attributes and children, except for one member. -/
def SameBut (m : Mem) (e e' : Elem) : Prop :=
  match e, e' with
  | .node t a slots mis unk, .node t' a' slots' mis' unk' =>
    t = t' ∧ a = a' ∧ mis = mis' ∧ unk = unk' ∧ ∀ i, i ≠ m → slots' i = slots i
  | _, _ => False

/-! ## CSV -/

/-- The last column with a name, ignoring the case of letters. -/
def columnOf (header : List Str) (name : Str) : Option Nat :=
  ((header.zipIdx.filter fun e => e.1.map toLower = name).getLast?).map (·.2)

/-- The columns that are not extended data. -/
def reserved : List Str :=
  [chars! "name", chars! "description", chars! "latitude", chars! "longitude", chars! "feature-id", chars! "style-id"]

/-- What a line has in a column. -/
def cell (header line : List Str) (name : Str) : Option Str := (columnOf header name).map fun i => line.getD i []

/-- The other columns of a line, with their names. -/
def extraCells (header line : List Str) : List (Option Str × Str) :=
  ((header.zip line).filter fun e => !(reserved.contains (e.1.map toLower))).map fun e => (some e.1, e.2)

/-- A text that begins with a number: a minus sign or not, a point or not, and a digit. -/
def beginsNumber (s : Str) : Bool :=
  match s with
  | '-' :: '.' :: d :: _ => isDigit d
  | '-' :: d :: _ => isDigit d
  | '.' :: d :: _ => isDigit d
  | d :: _ => isDigit d
  | [] => false

/-- The status of a line. -/
def csvStatus (header line : List Str) : CsvStatus :=
  if (line.head?.bind List.head?) = some '#' then .comment
  else if line.length ≠ header.length then .invalidData
  else if ((cell header line (chars! "latitude")).any beginsNumber && (cell header line (chars! "longitude")).any beginsNumber) = true then .ok
  else .badLatLon

/-- A placemark shows what a line says. -/
structure Shows (n : NumLib) (header line : List Str) (p : Elem) : Prop where
  ty : p.ty = Ty.«Placemark»
  position : ∀ lat lon, cell header line (chars! "latitude") = some lat → cell header line (chars! "longitude") = some lon →
    p.IsAt (n.num lat) (n.num lon)
  name : p.simple M.«name» = cell header line (chars! "name")
  description : p.simple M.«description» = cell header line (chars! "description")
  id : p.known (chars! "id") =
    ((cell header line (chars! "feature-id")).filter (fun v => v ≠ [])).map (chars! "feature-" ++ ·)
  style : p.simple M.«styleurl» =
    ((cell header line (chars! "style-id")).filter (fun v => v ≠ [])).map (chars! "style.kml#style-" ++ ·)
  data : p.dataPairs = extraCells header line

/-- Hand calls to a handler, until it does not want more. -/
def feed {σ : Type} (h : CsvHandler σ) : σ → List (Nat × CsvStatus × Elem) → Bool × σ
  | s, [] => (true, s)
  | s, c :: l =>
    if (h s c.1 c.2.1 (some c.2.2)).1 = true then feed h (h s c.1 c.2.1 (some c.2.2)).2 l
    else (false, (h s c.1 c.2.1 (some c.2.2)).2)

/-- The columns of a line. -/
def csvColumns (line : Str) : List Str := StringUtil.splitQuotedUsing line ','

end Kml.Dom
