import Verif.Model.Regionator
/-! Model of `src/kml/convenience/feature_list.cc` and `src/kml/regionator/feature_list_region_handler.cc`. -/
namespace Kml.Geo

/-- A feature in a list: its identity, the result of `GetFeatureLatLon` (location_util.cc 86-97) on it, and the
names and values of its `ExtendedData`, if it has one. -/
structure Item (K : Type u) where
  uid : Nat
  pos : Option (Pos K)
  data : Option (List (Str × Str)) := none
  deriving DecidableEq

variable {K : Type u} [LinearOrder K] {A L : Type}

/-- C `atoi`: white space, a sign, digits.  (Overflow, which is undefined, is not modelled.) -/
def atoi (s : Str) : Int :=
  let digits (t : Str) : Int := (t.takeWhile isDigit).foldl (fun (n : Int) c => 10 * n + (c.toNat - 48)) 0
  match s.dropWhile isSpace with
  | '-' :: t => -digits t
  | '+' :: t => digits t
  | t => digits t

/-- "kml.FeatureScore" (feature_list.cc 51). -/
def scoreName : Str := "kml.FeatureScore".toList

/-- feature_list.cc 53-59 `GetFeatureScore`, with convenience.cc 239-253 `GetExtendedDataValue`. -/
def Item.score (i : Item K) : Int :=
  match (i.data.getD []).find? fun d => d.1 = scoreName with
  | some d => atoi d.2
  | none => 0

/-- feature_list.cc 61-63 `SetFeatureScore` with the text of the score, and convenience.cc 255-262
`SetExtendedDataValue`, which replaces the whole `ExtendedData`. -/
def Item.setScore (i : Item K) (text : Str) : Item K := { i with data := some [(scoreName, text)] }

/-- feature_list.cc 92-93: the feature has a position and the box contains it. -/
def Item.inside (b : Bbox K) (i : Item K) : Bool :=
  match i.pos with
  | some p => b.contains p.1 p.2
  | none => false

/-- feature_list.cc 91-107, the loop of `BboxSplit`: the features moved out and those kept. -/
def splitLoop (b : Bbox K) : List (Item K) → Nat → List (Item K) × List (Item K)
  | [], _ => ([], [])
  | i :: is, max =>
    if i.inside b then
      if max - 1 = 0 then ([i], is)
      else
        let r := splitLoop b is (max - 1)
        (i :: r.1, r.2)
    else
      let r := splitLoop b is max
      (r.1, i :: r.2)

/-- feature_list.cc 81-109 `BboxSplit`: `max = 0` means all.  The count returned is the length of the first list. -/
def bboxSplit (l : List (Item K)) (b : Bbox K) (max : Nat) : List (Item K) × List (Item K) :=
  splitLoop b l (if max = 0 then l.length else max)

/-- feature_list.cc 111-120 `RegionSplit`. -/
def regionSplit (l : List (Item K)) (r : Region K A L) (max : Nat) : List (Item K) × List (Item K) :=
  match r.box with
  | some ba => bboxSplit l ba.1 max
  | none => ([], l)

/-- feature_list.cc 122-138 `Sort`: `std::list::sort`, a stable merge sort, by descending score. -/
def sortByScore (l : List (Item K)) : List (Item K) := l.mergeSort fun a b => decide (b.score ≤ a.score)

/-- feature_list.cc 71-79 `Save` into a new container: the container takes the features that have no parent yet
(`attached` are those that have one); the count returned is the number of features of the list. -/
def save : List (Item K) → List Nat → List (Item K) × List Nat
  | [], attached => ([], attached)
  | i :: is, attached =>
    if i.uid ∈ attached then save is attached
    else
      let r := save is (i.uid :: attached)
      (i :: r.1, r.2)

/-- feature_list.cc 146-157 `ComputeBoundingBox`. -/
def computeBoundingBox (l : List (Item K)) (b : Bbox K) : Bbox K :=
  l.foldl (fun b i => match i.pos with | some p => b.expandLatLon p.1 p.2 | none => b) b

/-- feature_list_region_handler.h 55-58: the feature list and the folders by region id, with the features that have
a parent. -/
structure FlState (K : Type u) where
  list : List (Item K)
  map : Str → Option (List (Item K)) := fun _ => none
  attached : List Nat := []

/-- feature_list_region_handler.cc 50-76: `HasData`, `GetFeature`, `SaveKml`; `kMaxPer` is 10. -/
def featureListHandler : Handler K A L (FlState K) (List (Item K)) where
  hasData s r :=
    let split := regionSplit s.list r 10
    if split.1.length > 0 then
      let folder := save split.1 s.attached
      (true, { list := split.2, attached := folder.2, map := fun k => if k = r.id then some folder.1 else s.map k })
    else (false, { s with list := split.2 })
  getFeature s r := (s.map r.id, s)
  saveKml s _ := s

end Kml.Geo
