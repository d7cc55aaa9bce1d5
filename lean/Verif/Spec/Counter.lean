import Verif.Model.Serializer
import Verif.Spec.Place

/-!
# What is counted
-/

namespace Kml.Dom

open Kml

/-- The number of simple values of an element that one of its members has: the values that are set, without names of
enumerations that are empty. -/
def simpleIn (slots : Mem → List Elem) : Write → Nat
  | .field m _ | .vec3 m _ => (texts (slots m)).length
  | .enum m _ => ((texts (slots m)).filter (· ≠ [])).length
  | _ => 0

/-- The number of simple values in an element itself, other than colours: those of its members and those out of place.
`coordinates` has none. -/
def simpleOf : Elem → Nat
  | .field _ _ => 1
  | .node t _ slots mis _ =>
    ((classAt t).writes.map (simpleIn slots)).sum + if t = Ty.«coordinates» then 0 else mis.length

/-- The number of pieces of text of an element that one of its members has: the points of `coordinates`, and the text of a snippet,
which is there even if it is not set, or of simple data. -/
def piecesIn (slots : Mem → List Elem) : Write → Nat
  | .content m always => if texts (slots m) = [] ∧ always = true then 1 else (texts (slots m)).length
  | .points m => (texts (slots m)).length
  | _ => 0

/-- The number of pieces of text in an element itself: those of its members, and its unknown children. -/
def piecesOf : Elem → Nat
  | .field _ _ => 0
  | .node t _ slots _ unk =>
    ((classAt t).writes.map (piecesIn slots)).sum + if t = Ty.«coordinates» then 0 else unk.length

end Kml.Dom
