import Verif.Model.Gpx
import Verif.Spec.File
import Verif.Spec.XmlTree

/-!
# The track points of a document
-/

namespace Kml.Dom

open Kml

/-- The text directly in an element. -/
def textIn : List Xml → Str
  | [] => []
  | .text s :: l => s ++ textIn l
  | _ :: l => textIn l

mutual

/-- The texts of the elements of a name, in document order. -/
def Xml.textsOf (name : Str) : Xml → List Str
  | .text _ => []
  | .empty m _ => if m = name then [[]] else []
  | .elem m _ ks => if m = name then [textIn ks] else textsIn name ks

/-- The same for a sequence of pieces. -/
def textsIn (name : Str) : List Xml → List Str
  | [] => []
  | x :: l => x.textsOf name ++ textsIn name l

end

mutual

/-- The track points of a document: the attributes and the content of each `trkpt`. -/
def Xml.trackPoints : Xml → List (List (Str × Str) × List Xml)
  | .text _ => []
  | .empty m a => if m = chars! "trkpt" then [(a, [])] else []
  | .elem m a ks => if m = chars! "trkpt" then [(a, ks)] else trackPointsIn ks

/-- The same for a sequence of pieces. -/
def trackPointsIn : List Xml → List (List (Str × Str) × List Xml)
  | [] => []
  | x :: l => x.trackPoints ++ trackPointsIn l

end

/-- A track point has a latitude and a longitude. -/
def Located (p : List (Str × Str) × List Xml) : Prop :=
  attrValue (chars! "lat") p.1 ≠ none ∧ attrValue (chars! "lon") p.1 ≠ none

/-- What should be reported for a track point: its position, its elevation and its time. -/
def report (n : NumLib) (p : List (Str × Str) × List Xml) : Option (Coords.Vec3 × Str) :=
  match attrValue (chars! "lat") p.1, attrValue (chars! "lon") p.1 with
  | some lat, some lon =>
    some (match (textsIn (chars! "ele") p.2).getLast? with
      | some ele => ⟨n.num lon, n.num lat, n.num ele, true⟩
      | none => ⟨n.num lon, n.num lat, ['0'], false⟩,
      (textsIn (chars! "time") p.2).getLast?.getD [])
  | _, _ => none

/-- Pieces of text. -/
def OnlyText (l : List Xml) : Prop := ∀ x ∈ l, ∃ s, x = Xml.text s

/-- The content of a track point is as it should be: no track point is in another one, times and elevations have only text in
them, and no elevation is blank. -/
inductive PointContent : Xml → Prop
  | text {s : Str} : PointContent (.text s)
  | empty {m : Str} {a : List (Str × Str)} : m ≠ chars! "trkpt" → m ≠ chars! "ele" → PointContent (.empty m a)
  | time {a : List (Str × Str)} {ks : List Xml} : OnlyText ks → PointContent (.elem (chars! "time") a ks)
  | ele {a : List (Str × Str)} {ks : List Xml} : OnlyText ks → blank (textIn ks) = false →
    PointContent (.elem (chars! "ele") a ks)
  | other {m : Str} {a : List (Str × Str)} {ks : List Xml} : m ≠ chars! "trkpt" → m ≠ chars! "time" → m ≠ chars! "ele" →
    (∀ x ∈ ks, PointContent x) → PointContent (.elem m a ks)

/-- A document is as it should be: so is the content of the track points, and no latitude or longitude of them is blank. -/
inductive Track : Xml → Prop
  | content {x : Xml} : PointContent x → Track x
  | point {a : List (Str × Str)} {ks : List Xml} : (∀ v, attrValue (chars! "lat") a = some v → blank v = false) →
    (∀ v, attrValue (chars! "lon") a = some v → blank v = false) → (∀ x ∈ ks, PointContent x) →
    Track (.elem (chars! "trkpt") a ks)
  | other {m : Str} {a : List (Str × Str)} {ks : List Xml} : m ≠ chars! "trkpt" → m ≠ chars! "time" → m ≠ chars! "ele" →
    (∀ x ∈ ks, Track x) → Track (.elem m a ks)

end Kml.Dom
