import Verif.Model.Handler

/-!
# Track points of GPX data (src/kml/convenience/gpx_trk_pt_handler.h)
-/

namespace Kml.Dom

open Kml

/-- gpx_trk_pt_handler.h 122-126: the members of `GpxTrkPtHandler`.  `points` is not in the code: the calls of
`HandlePoint`. -/
structure Gpx where
  vec3 : Option Coords.Vec3
  time : Str
  gather : Bool
  charData : Str
  points : List (Coords.Vec3 × Str)

/-- gpx_trk_pt_handler.h 52-58, the constructor. -/
def Gpx.init : Gpx := ⟨none, [], false, [], []⟩

/-- gpx_trk_pt_handler.h 61-85 `StartElement`.  A latitude or longitude that is blank is not read (string_util.cc 84-91),
and an uninitialised number is used. -/
def Gpx.start (n : NumLib) (g : Gpx) (name : Str) (attrs : List (Str × Str)) : Outcome Gpx :=
  if name = chars! "trkpt" then
    match (attrMap attrs).get (chars! "lat"), (attrMap attrs).get (chars! "lon") with
    | some lat, some lon =>
      if blank lat || blank lon then .ub
      else .ok { g with vec3 := some ⟨n.num lon, n.num lat, ['0'], false⟩, time := [] }
    | _, _ => .ok { g with time := [] }
  else if name = chars! "time" ∨ name = chars! "ele" then .ok { g with gather := true, charData := [] }
  else .ok g

/-- gpx_trk_pt_handler.h 88-106 `EndElement`.  An elevation that is blank is not read, and an uninitialised number is
used. -/
def Gpx.stop (n : NumLib) (g : Gpx) (name : Str) : Outcome Gpx :=
  if name = chars! "trkpt" then
    match g.vec3 with
    | some v => .ok { g with points := g.points ++ [(v, g.time)] }
    | none => .ok g
  else if name = chars! "time" then .ok { g with time := g.charData }
  else if name = chars! "ele" then
    match g.vec3 with
    | some v =>
      if blank g.charData then .ub
      else .ok { g with vec3 := some { v with alt := n.num g.charData, hasAlt := true } }
    | none => .ok g
  else .ok g

/-- gpx_trk_pt_handler.h 109-113 `CharData`. -/
def Gpx.chars (g : Gpx) (s : Str) : Gpx := if g.gather then { g with charData := g.charData ++ s } else g

/-- One event of the XML parser. -/
def Gpx.event (n : NumLib) (g : Gpx) : Ev → Outcome Gpx
  | .start name attrs => g.start n name attrs
  | .stop name => g.stop n name
  | .empty name attrs =>
    match g.start n name attrs with
    | .ok g => g.stop n name
    | .throws => .throws
    | .ub => .ub
  | .chars s => .ok (g.chars s)

/-- The events of a document. -/
def Gpx.run (n : NumLib) (g : Gpx) : List Ev → Outcome Gpx
  | [] => .ok g
  | e :: es =>
    match g.event n e with
    | .ok g => g.run n es
    | .throws => .throws
    | .ub => .ub

end Kml.Dom
