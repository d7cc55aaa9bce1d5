import Verif.Model.KmlFile
import Verif.Model.Serializer
import Verif.Model.Walk

/-!
# Counting elements

`/repo/src/kml/convenience/element_counter.h` and `/repo/src/kml/dom/stats_serializer.h`.
-/

namespace Kml.Dom

open Kml

/-! ## While parsing -/

/-- element_counter.h 35 `ElementCountMap`, as a list of pairs in no given order.  The C++ `int` is a natural number
here: more than 2³¹ - 1 elements of a type are not modelled. -/
abbrev CountMap := List (Ty × Nat)

/-- The number for a type, if there is one. -/
def CountMap.find (m : CountMap) (t : Ty) : Option Nat := (List.find? (fun q => q.1 = t) m).map (·.2)

/-- Change the number for a type that has one. -/
def CountMap.change (m : CountMap) (t : Ty) (f : Nat → Nat) : CountMap :=
  m.map fun q => if q.1 = t then (q.1, f q.2) else q

/-- element_counter.h 46-53 `ElementCounter::NewElement`; the other methods are those of `ParserObserver`
(parser_observer.h), which do nothing. -/
def elementCounter : Observer CountMap where
  new m e :=
    (true,
      match m.find e.ty with
      | none => (e.ty, 1) :: m
      | some _ => m.change e.ty (· + 1))
  endElement m _ _ := (true, m)
  addChild m _ _ := (true, m)

/-- A parse with an `ElementCounter` for a map. -/
def countElements (n : NumLib) (m : CountMap) (evs : List Ev) : Outcome (Option Elem × CountMap) :=
  parseEvents n [elementCounter] m evs

/-! ## While writing -/

/-- stats_serializer.h 99-106, the members of `StatsSerializer`, without `element_group_count_`. -/
structure Stats where
  begins : Nat
  ends : Nat
  fields : Nat
  elements : Nat
  contents : Nat
  deriving DecidableEq, Repr

/-- stats_serializer.h 46-52, the constructor. -/
def Stats.init : Stats := ⟨0, 0, 0, 0, 0⟩

/-- stats_serializer.h 53-64; `SaveColor` and `Indent` are those of `Serializer` (serializer.h 91, 94), which do nothing,
and `SaveVec3` (serializer.cc 90-97) calls `SaveContent`. -/
def Stats.call (s : Stats) : Call → Stats
  | .beginElem _ _ => { s with begins := s.begins + 1 }
  | .endElem => { s with ends := s.ends + 1 }
  | .field _ _ => { s with fields := s.fields + 1 }
  | .content _ _ => { s with contents := s.contents + 1 }
  | .vec3 _ => { s with contents := s.contents + 1 }
  | .color _ _ => s
  | .indent => s

/-- stats_serializer.h 65-72 `SaveElement` of an element, on a new `StatsSerializer`: `saved` (Walk.lean) lists the calls of
`SaveElement` that follow from it, `calls` (Serializer.lean) the others. -/
def statsOf (e : Elem) : Stats :=
  { (calls e).foldl Stats.call Stats.init with
    elements := 1 + (saved e).length }

end Kml.Dom
