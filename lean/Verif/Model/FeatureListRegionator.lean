import Verif.Model.FeatureList
/-! Model of `src/kml/regionator/feature_list_regionator.h`: a feature list made into a hierarchy of files, with a
progress monitor, and of `Regionator::RegionateAligned`. -/
namespace Kml.Geo
variable {K : Type u} [LinearOrder K] {A L : Type} {M : Type}

/-- feature_list_regionator.h 141-146: the members that change, and the state of the progress monitor. -/
structure FlrState (K : Type u) (M : Type) where
  fl : FlState K
  mon : M

/-- feature_list_regionator.h 67-96: `HasData`, `GetFeature` and `SaveKml`.  `ask` is `RegionatorProgress` of the
monitor, if there is one, with the count and the total; `total` is `feature_list_size_`, taken to fit an
`unsigned int`. -/
def flrHandler (max total : Nat) (ask : Option (M → Nat → Nat → Bool × M)) :
    Handler K A L (FlrState K M) (List (Item K)) where
  hasData s r :=
    let split := regionSplit s.fl.list r max
    if split.1.length > 0 then
      let folder := save split.1 s.fl.attached
      let fl : FlState K :=
        { list := split.2, attached := folder.2, map := fun k => if k = r.id then some folder.1 else s.fl.map k }
      match ask with
      | some ask =>
        let a := ask s.mon (total - split.2.length) total
        (a.1, ⟨fl, a.2⟩)
      | none => (true, ⟨fl, s.mon⟩)
    else (false, { s with fl := { s.fl with list := split.2 } })
  getFeature s r := (s.fl.map r.id, s)
  saveKml s _ := s

/-- regionator.cc 167-183 `RegionateAligned`; `lo` and `hi` stand for -180 and 180, and `none` means that the fuel is
used up.  (The natural region, which only adds a `LookAt` to the root, is left out.) -/
def regionateAligned {H : Type w} {F : Type v} (mid : K → K → K) (lo hi : K) (hd : Handler K A L H F) (fuel : Nat) (h : H)
    (r : Region K A L) : Option (Bool × RState H F) :=
  match r.box.bind fun ba => (createAligned mid lo hi ba.1).map fun b => (b, ba.2) with
  | none => some (false, { h := h })
  | some box => (regionateRoot mid hd none fuel h { id := [], box := some box, lod := r.lod }).map fun res => (true, res.2)

/-- src/kml/convenience/convenience.cc 194-209 `CreateRegion2d`: a region without id and altitudes. -/
def createRegion2d (b : Bbox K) (lod : L) : Region K Unit L := { id := [], box := some (b, ()), lod := some lod }

/-- feature_list_regionator.h 103-131 `Regionate`: the result, the caller's list afterwards, and the state of the
regionation, which works on a copy of that list (line 137).  `attached` are the features that have a parent. -/
def flrRegionate (mid : K → K → K) (lo hi : K) (max : Nat) (ask : Option (M → Nat → Nat → Bool × M)) (mon : M)
    (attached : List Nat) (fuel : Nat) (list : Option (List (Item K))) :
    Option (Bool × Option (List (Item K)) × RState (FlrState K M) (List (Item K))) :=
  match list with
  | none => some (false, none, { h := ⟨{ list := [], attached := attached }, mon⟩ })
  | some items =>
    (regionateAligned mid lo hi (flrHandler max items.length ask) fuel
      ⟨{ list := sortByScore items, attached := attached }, mon⟩
      (createRegion2d (L := Int × Int) (computeBoundingBox items (.init lo hi)) (256, -1))).map
      fun r => (r.1, some (sortByScore items), r.2)

end Kml.Geo
