import Verif.Model.ExpatCalls

/-!
# What is to happen to texts that declare entities, and what is to be said of failures
-/

namespace Kml.Dom

open Kml

/-- There is a declaration of an entity among the calls. -/
def Declares (calls : List (XmlCall × Nat × Nat)) : Prop := ∃ q ∈ calls, q.1 = .entity

/-- The events in front of the first declaration of an entity. -/
def eventsBefore : List (XmlCall × Nat × Nat) → List Ev
  | [] => []
  | (.entity, _) :: _ => []
  | (.ev e, _) :: r => e :: eventsBefore r

/-- Where the first declaration of an entity is. -/
def firstDeclaration : List (XmlCall × Nat × Nat) → Option (Nat × Nat)
  | [] => none
  | (.entity, at_) :: _ => some at_
  | (.ev _, _) :: r => firstDeclaration r

/-- The XML parser as Stream.lean has it: one that knows no entities, and refuses texts that declare any. -/
def FullExpat.plain (x : FullExpat) : Expat where
  State := x.State
  init := x.init
  feed p s final := (eventsBefore (x.feed p s final).1,
    if (firstDeclaration (x.feed p s final).1).isSome then none else (x.feed p s final).2.toOption)

/-- A text in pieces without declarations of entities, in all of which the XML parser finds no error. -/
def FullExpat.Clean (x : FullExpat) (p : x.State) : List Str → Str → Prop
  | [], last => ¬ Declares (x.feed p last true).1 ∧ ∃ p', (x.feed p last true).2 = .ok p'
  | c :: cs, last => ¬ Declares (x.feed p c false).1 ∧ ∃ p', (x.feed p c false).2 = .ok p' ∧ x.Clean p' cs last

/-- What is said of an error. -/
def XmlError.message (e : XmlError) : Str :=
  e.what ++ chars! " on line " ++ Nat.toDigits 10 e.line ++ chars! " at offset " ++ Nat.toDigits 10 e.column

end Kml.Dom
