import Mathlib.Order.Defs.LinearOrder
import Verif.Model.Basic
/-! Model of `src/kml/engine/bbox.h`.  `double` is any linear order `K`: the code only compares, except for the
midpoint `(a + b)/2.0`, which is a parameter `mid`.  NaN is outside the model. -/
namespace Kml.Geo

/-- bbox.h 50-187, the members (line 186). -/
structure Bbox (K : Type u) where
  north : K
  south : K
  east : K
  west : K
  deriving DecidableEq

variable {K : Type u} [LinearOrder K]

/-- bbox.h 54, the default constructor; `lo` and `hi` are the constants -180 and 180 of lines 33-36. -/
def Bbox.init (lo hi : K) : Bbox K := ⟨lo, hi, lo, hi⟩

/-- bbox.h 97-100 `ContainedByBox`. -/
def Bbox.containedByBox (b : Bbox K) (north south east west : K) : Bool :=
  decide (b.north ≤ north) && decide (south ≤ b.south) && decide (b.east ≤ east) && decide (west ≤ b.west)

/-- bbox.h 91-94 `ContainedByBbox`. -/
def Bbox.containedByBbox (b c : Bbox K) : Bool := b.containedByBox c.north c.south c.east c.west

/-- bbox.h 103-106 `Contains`. -/
def Bbox.contains (b : Bbox K) (lat lon : K) : Bool :=
  decide (lat ≤ b.north) && decide (b.south ≤ lat) && decide (lon ≤ b.east) && decide (b.west ≤ lon)

/-- bbox.h 117-124 `ExpandLatitude`. -/
def Bbox.expandLatitude (b : Bbox K) (lat : K) : Bbox K :=
  let b := if b.north < lat then { b with north := lat } else b
  if lat < b.south then { b with south := lat } else b

/-- bbox.h 127-134 `ExpandLongitude`. -/
def Bbox.expandLongitude (b : Bbox K) (lon : K) : Bbox K :=
  let b := if b.east < lon then { b with east := lon } else b
  if lon < b.west then { b with west := lon } else b

/-- bbox.h 137-140 `ExpandLatLon`. -/
def Bbox.expandLatLon (b : Bbox K) (lat lon : K) : Bbox K := (b.expandLatitude lat).expandLongitude lon

/-- bbox.h 109-114 `ExpandFromBbox`. -/
def Bbox.expandFromBbox (b c : Bbox K) : Bbox K :=
  (((b.expandLatitude c.north).expandLatitude c.south).expandLongitude c.east).expandLongitude c.west

/-- bbox.h 165-171 `GetCenterLat`, `GetCenterLon`. -/
def Bbox.center (mid : K → K → K) (b : Bbox K) : K × K := (mid b.north b.south, mid b.east b.west)

/-- bbox.h 69-83: the child quadrant `AlignBbox` descends to, if there is one. -/
def Bbox.alignStep (mid : K → K → K) (r qt : Bbox K) : Option (Bbox K) :=
  let lat := mid qt.north qt.south
  let lon := mid qt.east qt.west
  if r.containedByBox qt.north lat qt.east lon then some { qt with south := lat, west := lon }
  else if r.containedByBox qt.north lat lon qt.west then some { qt with south := lat, east := lon }
  else if r.containedByBox lat qt.south qt.east lon then some { qt with north := lat, west := lon }
  else if r.containedByBox lat qt.south lon qt.west then some { qt with north := lat, east := lon }
  else none

/-- bbox.h 63-88 `AlignBbox`: `r` is aligned within the quadtree `qt`. -/
def Bbox.align (mid : K → K → K) (r : Bbox K) : Bbox K → Nat → Bbox K
  | qt, depth =>
    match r.alignStep mid qt with
    | none => qt
    | some q => match depth with
      | 0 => q
      | d + 1 => r.align mid q d

/-- src/kml/regionator/regionator_util.cc 68-84 `CreateAlignedAbstractLatLonBox`; `none` is the result `false`. -/
def createAligned (mid : K → K → K) (lo hi : K) (r : Bbox K) : Option (Bbox K) :=
  if r.containedByBbox ⟨hi, lo, hi, lo⟩ then some (r.align mid ⟨hi, lo, hi, lo⟩ 24) else none

end Kml.Geo
