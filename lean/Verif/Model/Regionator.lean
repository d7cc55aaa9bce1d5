import Verif.Model.Location
/-! Model of `src/kml/regionator/` (regionator_qid.h, regionator_util.cc, regionator.cc) with an arbitrary
region handler. -/
namespace Kml.Geo

/-- regionator_qid.h 37-42. -/
inductive Quadrant where
  | nw | ne | sw | se
  deriving DecidableEq

/-- The digit `ss << quadrant` prints (regionator_qid.h 56-57). -/
def Quadrant.digit : Quadrant → Char
  | .nw => '0' | .ne => '1' | .sw => '2' | .se => '3'

/-- regionator_qid.h 44, 52-54 `Qid::CreateRoot`. -/
def rootQid : Str := ['q', '0']

/-- regionator_qid.h 55-59 `Qid::CreateChild`. -/
def childQid (qid : Str) (q : Quadrant) : Str := qid ++ [q.digit]

/-- regionator_qid.h 60-62 `Qid::depth` (for a non-empty id; `size() - 1` of an empty one wraps). -/
def qidDepth (qid : Str) : Nat := qid.length - 1

/-- regionator_qid.h 66-68 `Qid::IsRoot`. -/
def isRootQid (qid : Str) : Bool := qid = rootQid

/-- A `Region`: id, the box with its altitude fields `A`, and the `Lod`. -/
structure Region (K : Type u) (A L : Type) where
  id : Str
  box : Option (Bbox K × A)
  lod : Option L

variable {K : Type u} [LinearOrder K] {A L : Type}

/-- regionator_util.cc 93-116: the box of a quadrant (center as in location_util.cc 191-201). -/
def childBox (mid : K → K → K) (b : Bbox K) : Quadrant → Bbox K
  | .nw => { b with south := mid b.north b.south, east := mid b.east b.west }
  | .ne => { b with south := mid b.north b.south, west := mid b.east b.west }
  | .sw => { b with north := mid b.north b.south, east := mid b.east b.west }
  | .se => { b with north := mid b.north b.south, west := mid b.east b.west }

/-- regionator_util.cc 89-122 `CreateChildRegion`; the new region has no id. -/
def createChildRegion (mid : K → K → K) (parent : Region K A L) (q : Quadrant) : Region K A L :=
  { id := [], box := parent.box.map fun ba => (childBox mid ba.1 q, ba.2), lod := parent.lod }

/-- A file handed to the region handler: the id of its region, its name, the hrefs of its network links in order and
the feature of the handler.  The region copied into the document, the atom:link and the LookAt of the root
(regionator.cc 117-119, 142-148) are left out. -/
structure File (F : Type v) where
  id : Str
  name : Str
  links : List Str
  feature : F

/-- src/kml/regionator/region_handler.h 40-70: the three callbacks, on a state `H`. -/
structure Handler (K : Type u) (A L : Type) (H : Type w) (F : Type v) where
  hasData : H → Region K A L → Bool × H
  getFeature : H → Region K A L → Option F × H
  saveKml : H → File F → H

/-- The state of a regionation. -/
structure RState (H : Type w) (F : Type v) where
  h : H
  /-- regionator.h 107 `region_count_`. -/
  count : Nat := 0
  /-- regionator.h 108 `qid_map_`; `operator[]` yields 0 for a missing key. -/
  map : Str → Nat := fun _ => 0
  /-- The files saved so far, in order. -/
  saved : List (File F) := []
  /-- How often the handler gave no feature (not part of the code; for stating theorems). -/
  nulls : Nat := 0

/-- `str << n` and `+ ".kml"` (regionator.cc 72-74). -/
def numName (n : Nat) : Str := Nat.toDigits 10 n ++ ['.', 'k', 'm', 'l']

/-- regionator.cc 67-75 `RegionFilename`. -/
def regionFilename (root : Option Str) (map : Str → Nat) (id : Str) : Str :=
  match root with
  | some name => if isRootQid id then name else numName (map id)
  | none => numName (map id)

variable {H : Type w} {F : Type v}

/-- regionator.cc 79-87 `Recurse` on a list of quadrants; `run` is `_Regionate`.  The result lists the children with
data. -/
def recurseAll (mid : K → K → K) (run : RState H F → Region K A L → Option (Bool × RState H F)) (parent : Region K A L) :
    List Quadrant → RState H F → Option (List (Region K A L) × RState H F)
  | [], st => some ([], st)
  | q :: qs, st =>
    match run st { createChildRegion mid parent q with id := childQid parent.id q } with
    | none => none
    | some (b, st') =>
      match recurseAll mid run parent qs st' with
      | none => none
      | some (cs, st'') =>
        some (if b then { createChildRegion mid parent q with id := childQid parent.id q } :: cs else cs, st'')

/-- regionator.cc 92-156 `_Regionate`; `none` means that the fuel, the depth of recursion, is used up.
The output directory (line 153) is left out: it is put before every name. -/
def regionate (mid : K → K → K) (hd : Handler K A L H F) (root : Option Str) :
    Nat → RState H F → Region K A L → Option (Bool × RState H F)
  | 0, _, _ => none
  | n + 1, st, r =>
    let d := hd.hasData st.h r
    if d.1 = false then some (false, { st with h := d.2 })
    else
      let st := { st with h := d.2, count := st.count + 1,
                          map := fun k => if k = r.id then st.count + 1 else st.map k }
      match recurseAll mid (regionate mid hd root n) r [.nw, .ne, .sw, .se] st with
      | none => none
      | some (children, st) =>
        let links := children.map fun c => regionFilename root st.map c.id
        match hd.getFeature st.h r with
        | (none, h) => some (false, { st with h := h, nulls := st.nulls + 1 })
        | (some f, h) =>
          let file : File F := ⟨r.id, regionFilename root st.map r.id, links, f⟩
          some (true, { st with h := hd.saveKml h file, saved := st.saved ++ [file] })

/-- regionator.cc 51-59, 160-164: the constructor and `Regionate`. -/
def regionateRoot (mid : K → K → K) (hd : Handler K A L H F) (root : Option Str) (fuel : Nat) (h : H)
    (r : Region K A L) : Option (Bool × RState H F) :=
  regionate mid hd root fuel { h := h } { r with id := rootQid }

end Kml.Geo
