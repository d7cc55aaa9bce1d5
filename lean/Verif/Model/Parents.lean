import Verif.Model.Referent
/-! Model of elements that hold their children by smart pointers and know their parents by plain ones:
`src/kml/base/xml_element.h` and `src/kml/dom/element.h` over the reference counts of `Model/Referent.lean`.
Files (`SetXmlFile`) are left out here: no element is in one; `Model/XmlElement.lean` has them. -/
namespace Kml.Parents
open Kml

/-- The smart pointers, and the member `parent_` of each element (xml_element.h 104), which counts nothing. -/
structure State where
  ref : Referent.State := {}
  parent : Nat → Option Nat := fun _ => none

/-- The client has a smart pointer to the element, and so can call its methods. -/
def handle (s : State) (o : Nat) : Bool :=
  s.ref.ptrs.any fun q => decide (q.2 = o) && match q.1 with | .client _ => true | .member _ => false

/-- element.cc 142-144 and xml_element.h 51-53 `GetParent`: the plain pointer becomes a smart one, and `AsElement` asks the
element for its type, which is undefined if it is gone. -/
def getParent (s : State) (e : Nat) : Outcome (Option Nat) :=
  match s.parent e with
  | none => .ok none
  | some p => if s.ref.alive p then .ok (some p) else .ub

/-- What client code does with elements. -/
inductive Op where
  /-- `KmlFactory::CreateX` into a variable -/
  | create (v : Nat)
  /-- the pointer to `e` in one variable copied to another -/
  | share (w e v : Nat)
  /-- a variable goes out of scope -/
  | forget (v e : Nat)
  /-- `get_x` and `get_x_array_at`: the child `e` of `p` into a variable -/
  | child (p e v : Nat)
  /-- `add_x` (`old` is none) and `set_x` (`old` is what the field held) of `p` with the element `e` in a variable -/
  | add (p w e : Nat) (old : Option Nat)
  /-- `DeleteXAt`: the child `e` of `p` into a variable -/
  | take (p e v : Nat)
  /-- `clear_x` of the field of `p` that holds `e` -/
  | clear (p e : Nat)
  /-- `GetParent` of `e` into a variable -/
  | parent (e v : Nat)

/-- element.h 188-197 `SetComplexChild`, the assignment: the old pointer of the field is released. -/
def dropOld (r : Referent.State) (p : Nat) : Option Nat → Referent.State
  | none => r
  | some o => Referent.step r (.drop (.member p) o)

/-- One step; one that the client could not write, having no pointer to the element, changes nothing.
element.h 188-197 `SetComplexChild`, 201-208 `AddComplexChild`, 220-231 `DeleteFromArrayAt`; xml_element.h 94-100
`SetParent` (all in the same file, which is none). -/
def step (s : State) : Op → Outcome State
  | .create v => .ok { s with ref := Referent.step s.ref (.new (.client v)) }
  | .share w e v => .ok { s with ref := Referent.step s.ref (.copy (.client w) e (.client v)) }
  | .forget v e => .ok { s with ref := Referent.step s.ref (.drop (.client v) e) }
  | .child p e v =>
      if handle s p then .ok { s with ref := Referent.step s.ref (.copy (.member p) e (.client v)) } else .ok s
  | .add p w e old =>
      if handle s p ∧ (.client w, e) ∈ s.ref.ptrs ∧ s.parent e = none then
        .ok ⟨dropOld (Referent.step s.ref (.copy (.client w) e (.member p))) p old,
          fun x => if x = e then some p else s.parent x⟩
      else .ok s
  | .take p e v =>
      if handle s p then
        .ok { s with ref := Referent.step (Referent.step s.ref (.copy (.member p) e (.client v))) (.drop (.member p) e) }
      else .ok s
  | .clear p e => if handle s p then .ok { s with ref := Referent.step s.ref (.drop (.member p) e) } else .ok s
  | .parent e v =>
      if handle s e then
        getParent s e >>= fun
          | none => .ok s
          | some p => .ok { s with ref := Referent.addRef { s.ref with ptrs := (.client v, p) :: s.ref.ptrs } p }
      else .ok s

/-- A history.  Not in the code: the caller. -/
def run (s : State) : List Op → Outcome State
  | [] => .ok s
  | op :: ops => step s op >>= fun s => run s ops

end Kml.Parents
