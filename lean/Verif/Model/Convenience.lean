import Verif.Model.Entity
import Verif.Model.FeatureList

/-!
# Conveniences (src/kml/convenience/convenience.cc, feature_list.cc, csv_parser.cc, csv_file.cc)

The setters of the DOM are written as changes of the members of an element.  The elements that are put into others here
were just created, so that they have no parent.
-/

namespace Kml.Dom

open Kml

/-- A setter for a member with a value, such as `set_name`: the value and the `has` flag. -/
def Elem.setSimple (e : Elem) (m : Mem) (t : Ty) (v : Str) : Elem :=
  match e with
  | .field _ _ => e
  | .node t' a slots mis unk => .node t' a (setSlot slots m [.field t v]) mis unk

/-- element.h 187-197 `SetComplexChild`, for a child without a parent. -/
def Elem.setOne (e : Elem) (m : Mem) (child : Elem) : Elem :=
  match e with
  | .field _ _ => e
  | .node t a slots mis unk => .node t a (setSlot slots m [child]) mis unk

/-- element.h 201-208 `AddComplexChild`, for a child without a parent. -/
def Elem.addItem (e : Elem) (m : Mem) (child : Elem) : Elem :=
  match e with
  | .field _ _ => e
  | .node t a slots mis unk => .node t a (setSlot slots m (slots m ++ [child])) mis unk

/-- A setter for a member that is written as an attribute, such as `set_id`. -/
def Elem.setKnown (e : Elem) (k v : Str) : Elem :=
  match e with
  | .field _ _ => e
  | .node t a slots mis unk => .node t { a with known := a.known.set k v } slots mis unk

/-! ## Extended data -/

/-- convenience.cc 127-132 `CreateDataNameValue`. -/
def createDataNameValue (name value : Str) : Elem :=
  ((newNode Ty.«Data»).setKnown (chars! "name") name).setSimple M.«value» Ty.«value» value

/-- convenience.cc 63-72 `AddExtendedDataValue`. -/
def addExtendedDataValue (name value : Str) (feature : Elem) : Elem :=
  feature.setOne M.«extendeddata»
    (((feature.only M.«extendeddata»).getD (newNode Ty.«ExtendedData»)).addItem M.«data_array» (createDataNameValue name value))

/-- convenience.cc 239-253 `GetExtendedDataValue`, the loop. -/
def findData (name : Str) : List Elem → Option Str
  | [] => none
  | data :: l => if data.known (chars! "name") = some name then some (data.text M.«value») else findData name l

/-- convenience.cc 239-253 `GetExtendedDataValue`; `none` is the return value `false`. -/
def getExtendedDataValue (feature : Elem) (name : Str) : Option Str :=
  match feature.only M.«extendeddata» with
  | none => none
  | some ed => findData name (ed.items M.«data_array»)

/-- convenience.cc 255-262 `SetExtendedDataValue`. -/
def setExtendedDataValue (name value : Str) (feature : Elem) : Elem :=
  addExtendedDataValue name value (feature.setOne M.«extendeddata» (newNode Ty.«ExtendedData»))

/-- feature_list.cc 53-59 `GetFeatureScore`. -/
def getFeatureScore (feature : Elem) : Int :=
  match getExtendedDataValue feature Geo.scoreName with
  | some score => Geo.atoi score
  | none => 0

/-- feature_list.cc 61-63 `SetFeatureScore`. -/
def setFeatureScore (score : Str) (feature : Elem) : Elem := setExtendedDataValue Geo.scoreName score feature

/-! ## Simplifying coordinates -/

/-- convenience.cc 292-313, the loop of `SimplifyCoordinates` after the first point, with `last_vec`.  `dist` is
`DistanceBetweenPoints3d` (math_util.cc) on the positions of two points, whose values are taken to be linearly ordered, so
that NaN is left out. -/
def simplifyFrom {V K : Type} [Zero K] [LT K] [LE K] [DecidableLT K] [DecidableLE K] (dist : V → V → K) (tolerance : K) :
    V → List V → List V
  | _, [] => []
  | last, v :: l =>
    if 0 < tolerance then
      if dist last v ≤ tolerance then simplifyFrom dist tolerance v l else v :: simplifyFrom dist tolerance v l
    else v :: simplifyFrom dist tolerance v l

/-- convenience.cc 285-314 `SimplifyCoordinates`, for a source and a destination that are not the same object: the new
points of the destination. -/
def simplifyCoordinates {V K : Type} [Zero K] [LT K] [LE K] [DecidableLT K] [DecidableLE K] (dist : V → V → K) (tolerance : K)
    (src dest : List V) : List V :=
  match src with
  | [] => dest
  | v :: l => dest ++ v :: simplifyFrom dist tolerance v l

/-! ## CSV -/

/-- convenience.cc 175-182 `CreatePointLatLon`; the point has no altitude (vec3.h 44-49), which is written as 0. -/
def createPointLatLon (lat lon : Str) : Elem :=
  (newNode Ty.«Point»).setOne M.«coordinates»
    ((newNode Ty.«coordinates»).addItem M.«coordinates_array» (.field Ty.Unknown (pointText ⟨lon, lat, ['0'], false⟩)))

/-- convenience.cc 184-191 `CreatePointPlacemark`. -/
def createPointPlacemark (name lat lon : Str) : Elem :=
  ((newNode Ty.«Placemark»).setSimple M.«name» Ty.«name» name).setOne M.«geometry» (createPointLatLon lat lon)

/-- csv_parser.h 40-47 `CsvParserStatus`. -/
inductive CsvStatus where
  | ok
  | blankLine
  | noLatLon
  | badLatLon
  | invalidData
  | comment
  deriving DecidableEq, Repr

/-- csv_parser.h: the members that `SetSchema` sets.  `none` is `npos`; `others` is `csv_schema_`. -/
structure CsvSchema where
  size : Nat
  name : Option Nat
  description : Option Nat
  lat : Option Nat
  lon : Option Nat
  featureId : Option Nat
  styleId : Option Nat
  others : List (Nat × Str)
  deriving DecidableEq, Repr

/-- csv_parser.cc 73-87, the constructor. -/
def CsvSchema.init : CsvSchema := ⟨0, none, none, none, none, none, none, []⟩

/-- csv_parser.cc 95-113, one round of the loop of `SetSchema`. -/
def CsvSchema.column (s : CsvSchema) (i : Nat) (col : Str) : CsvSchema :=
  if StringUtil.stringCaseEqual col (chars! "name") then { s with name := some i }
  else if StringUtil.stringCaseEqual col (chars! "description") then { s with description := some i }
  else if StringUtil.stringCaseEqual col (chars! "latitude") then { s with lat := some i }
  else if StringUtil.stringCaseEqual col (chars! "longitude") then { s with lon := some i }
  else if StringUtil.stringCaseEqual col (chars! "feature-id") then { s with featureId := some i }
  else if StringUtil.stringCaseEqual col (chars! "style-id") then { s with styleId := some i }
  else { s with others := s.others ++ [(i, col)] }

/-- csv_parser.cc 95-113, the loop of `SetSchema`. -/
def CsvSchema.columns (s : CsvSchema) : Nat → List Str → CsvSchema
  | _, [] => s
  | i, col :: l => (s.column i col).columns (i + 1) l

/-- csv_parser.cc 90-117 `SetSchema` of a new parser. -/
def setSchema (cols : List Str) : CsvStatus × CsvSchema :=
  if cols = [] then (.blankLine, .init)
  else
    match { CsvSchema.init with size := cols.length }.columns 0 cols with
    | s => (if s.lat = none ∨ s.lon = none then .noLatLon else .ok, s)

/-- string_util.cc 167-177 `StringToDouble`; `none` is the return value `false`. -/
def stringToDouble (n : NumLib) (s : Str) : Option Str :=
  if StringUtil.isDecimalDoubleString s then some (n.num s) else none

/-- csv_parser.cc 151-157, the loop over the columns of a line. -/
def csvData (s : CsvSchema) (placemark : Elem) : Nat → List Str → Elem
  | _, [] => placemark
  | i, value :: l =>
    match s.others.lookup i with
    | some name => csvData s (addExtendedDataValue name value placemark) (i + 1) l
    | none => csvData s placemark (i + 1) l

/-- A setter that is called when there is such a column. -/
def whenColumn (col : Option Nat) (line : List Str) (set : Str → Elem → Elem) (p : Elem) : Elem :=
  match col with
  | some i => set (line.getD i []) p
  | none => p

/-- csv_parser.cc 119-160 `CsvLineToPlacemark`: the status and the placemark. -/
def csvLineToPlacemark (n : NumLib) (s : CsvSchema) (line : List Str) (placemark : Elem) : CsvStatus × Elem :=
  if (line.head?.bind List.head?) = some '#' then (.comment, placemark)
  else if line.length ≠ s.size then (.invalidData, placemark)
  else
    match s.lat, s.lon with
    | some lat, some lon =>
      if lat < line.length ∧ lon < line.length then
        match stringToDouble n (line.getD lat []), stringToDouble n (line.getD lon []) with
        | some lat, some lon =>
          (.ok, csvData s
            (whenColumn s.styleId line (fun v p => if v = [] then p
                else p.setSimple M.«styleurl» Ty.«styleUrl» (chars! "style.kml" ++ ['#'] ++ chars! "style-" ++ v))
              (whenColumn s.featureId line (fun v p => if v = [] then p else p.setKnown (chars! "id") (chars! "feature-" ++ v))
                (whenColumn s.description line (fun v p => p.setSimple M.«description» Ty.«description» v)
                  (whenColumn s.name line (fun v p => p.setSimple M.«name» Ty.«name» v)
                    (placemark.setOne M.«geometry» (createPointLatLon lat lon)))))) 0 line)
        | _, _ => (.badLatLon, placemark)
      else (.badLatLon, placemark)
    | _, _ => (.badLatLon, placemark)

/-- csv_parser.h 56-75 `CsvParserHandler`: `HandleLine` with the state of the handler. -/
abbrev CsvHandler (σ : Type) := σ → Nat → CsvStatus → Option Elem → Bool × σ

/-- csv_parser.cc 162-175 `ParseCsvData`, the loop.  `cols` holds what the loop before left in it.  `line_number` is an
`int`, here without bounds.  The member function `CreatePlacemark` is called through a pointer that is NULL
(csv_parser.cc 85); it does not look at it, and is taken to work. -/
def parseCsvData {σ : Type} (n : NumLib) (schema : CsvSchema) (h : CsvHandler σ) :
    (fuel : Nat) → StringUtil.CsvSplitter → List Str → Nat → σ → Option (Bool × σ)
  | 0, _, _, _, _ => none
  | fuel + 1, c, cols, line, s =>
    match StringUtil.splitCurrentLine c with
    | none => some (true, s)
    | some (text, c) =>
      match csvLineToPlacemark n schema (cols ++ StringUtil.splitQuotedUsing text ',') (newNode Ty.«Placemark») with
      | (status, p) =>
        match h s line status (some p) with
        | (false, s) => some (false, s)
        | (true, s) => parseCsvData n schema h fuel c [] (line + 1) s

/-- csv_parser.cc 52-70 `ParseCsv`, for a splitter and a handler. -/
def parseCsv {σ : Type} (n : NumLib) (h : CsvHandler σ) (fuel : Nat) (c : StringUtil.CsvSplitter) (s : σ) : Option (Bool × σ) :=
  match StringUtil.splitCurrentLine c with
  | none => some (false, s)
  | some (text, c) =>
    match setSchema (StringUtil.splitQuotedUsing text ',') with
    | (.ok, schema) => parseCsvData n schema h fuel c [] 2 s
    | (status, _) => some (false, (h s 1 status none).2)

/-- csv_file.cc 47-66 `ParseCsvLine`: the features of the list; `none` stands for a call that does not end or throws,
which C05 rules out. -/
def parseCsvLine (n : NumLib) (line : Str) (features : List Elem) : Option (List Elem) :=
  match StringUtil.splitStringUsing line ['|'] with
  | some (.ok parts) =>
    if parts.length < 5 then some features
    else
      match (createPointPlacemark (parts.getD 3 []) ((stringToDouble n (parts.getD 1 [])).getD ['0'])
          ((stringToDouble n (parts.getD 2 [])).getD ['0'])).setSimple M.«description» Ty.«description» (parts.getD 4 []) with
      | p => some (features ++ [setFeatureScore (parts.getD 0 [])
          (if 5 < parts.length then p.setSimple M.«styleurl» Ty.«styleUrl» (parts.getD 5 []) else p)])
  | _ => none

/-- csv_file.cc 69-80 `ParseCsvFile`, given the lines `getline` reads: it ends at the first empty one. -/
def parseCsvFile (n : NumLib) : List Str → List Elem → Option (List Elem)
  | [], features => some features
  | line :: lines, features =>
    if line = [] then some features
    else
      match parseCsvLine n line features with
      | none => none
      | some features => parseCsvFile n lines features

end Kml.Dom
