import Verif.Model.StdMap
/-! Model of `src/kml/base/attributes.{h,cc}` and `src/kml/base/xmlns.h`.  Values are kept as text, as in
the code; the conversions of `SetValue<T>`/`GetValue<T>` are those of `Verif/Model/StringUtil.lean`. -/
namespace Kml.Attributes
open Kml

/-- attributes.h 131: `StringMap attributes_map_`. -/
abbrev Attributes := StdMap Str

/-- attributes.cc 54-61 `Parse(const char**)`: an unpaired last item is ignored. -/
def parsePairs (m : Attributes) : List Str → Attributes
  | k :: v :: r => parsePairs (m.set k v) r
  | _ => m

/-- attributes.cc 63-72 `Parse(const StringVector&)`: `attrs.at(i+1)` throws for an odd number of items.
(The guard on line 65 can never hold inside the loop.) -/
def parseVector (m : Attributes) : List Str → Outcome Attributes
  | [] => .ok m
  | [_] => .throws
  | k :: v :: r => parseVector (m.set k v) r

/-- attributes.cc 45-52 `Attributes::Create(const StringVector&)`. -/
def create (attrs : List Str) : Outcome Attributes := parseVector [] attrs

/-- attributes.h 106-108 `SetValue<string>`. -/
def setValue (m : Attributes) (k v : Str) : Attributes := m.set k v

/-- attributes.h 78-88 `GetValue<string>` (with `FindValue`, attributes.cc 100-109). -/
def getValue (m : Attributes) (k : Str) : Option Str := m.get k

/-- attributes.h 92-99 `CutValue`. -/
def cutValue (m : Attributes) (k : Str) : Option Str × Attributes :=
  match m.get k with
  | some v => (some v, m.erase k)
  | none => (none, m)

/-- attributes.cc 93-98 `MergeAttributes`. -/
def mergeAttributes (m input : Attributes) : Attributes :=
  input.foldl (fun (acc : Attributes) e => acc.set e.1 e.2) m

/-- attributes.cc 87-91 `Clone`. -/
def clone (m : Attributes) : Attributes := m

/-- attributes.h 57-59 `GetSize`. -/
def getSize (m : Attributes) : Nat := m.length

/-- attributes.cc 111-122 `FindKey`. -/
def findKey : Attributes → Str → Option Str
  | [], _ => none
  | (k, v) :: m, value => if value = v then some k else findKey m value

/-- attributes.cc 74-85 `Serialize`: nothing is escaped. -/
def serialize : Attributes → Str
  | [] => []
  | (k, v) :: m => " ".toList ++ k ++ "=\"".toList ++ v ++ "\"".toList ++ serialize m

/-- attributes.cc 140: `key.compare(0, prefix_size, prefix + ":") == 0`. -/
def hasPrefix (pre k : Str) : Bool := k.take (pre.length + 1) = pre ++ [':']

/-- attributes.cc 133-156 `SplitByPrefix`: the new object (or NULL) and what is left. -/
def splitByPrefix (m : Attributes) (pre : Str) : Option Attributes × Attributes :=
  let hit := m.filter fun e => hasPrefix pre e.1
  let split := hit.foldl (fun (acc : Attributes) e => acc.set (e.1.drop (pre.length + 1)) e.2) []
  if split.isEmpty then (none, m)
  else (some split, hit.foldl (fun (acc : Attributes) e => acc.erase e.1) m)

/-- xmlns.h 113-116: the members of `Xmlns`. -/
structure Xmlns where
  default_ : Str
  prefixMap : Option Attributes

/-- xmlns.h 57-64, 103-112 `Xmlns::Create` and `Parse`. -/
def Xmlns.create (a : Attributes) : Option Xmlns :=
  let x : Xmlns := ⟨(getValue a "xmlns".toList).getD [], (splitByPrefix (clone a) "xmlns".toList).1⟩
  if x.default_ ≠ [] ∨ x.prefixMap.isSome then some x else none

/-- xmlns.h 77-83 `GetNamespace`. -/
def Xmlns.getNamespace (x : Xmlns) (pre : Str) : Str :=
  match x.prefixMap with
  | some m => (getValue m pre).getD []
  | none => []

/-- xmlns.h 88-94 `GetKey`. -/
def Xmlns.getKey (x : Xmlns) (value : Str) : Str :=
  match x.prefixMap with
  | some m => (findKey m value).getD []
  | none => []

/-- expat_handler_ns.cc 37-58 `TranslatePrefixedName`; `kExpatNsSeparator` is '|' (expat_parser.h). -/
def translatePrefixedName (x : Xmlns) (sep : Char) (name : Str) : Str :=
  match findFrom [sep] name with
  | none => name
  | some i =>
    if x.default_ = name.take i then name.drop (i + 1)
    else
      let pre := x.getKey (name.take i)
      if pre ≠ [] then pre ++ [':'] ++ name.drop (i + 1) else name

end Kml.Attributes
