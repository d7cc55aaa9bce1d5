import Verif.Model.Basic
/-! Model of the parent and file links of `src/kml/base/xml_element.h` and `src/kml/base/xml_file.h`,
with the child containers of `src/kml/dom/element.h`. -/
namespace Kml.XmlElement

/-- xml_element.h 103-105: the links of one element, and the children it holds (element.h 183-231). -/
structure Node where
  parent : Option Nat := none
  file : Option Nat := none
  children : List Nat := []
  deriving DecidableEq

/-- All elements, by identity. -/
abbrev Heap := Nat → Node

def Heap.upd (h : Heap) (e : Nat) (n : Node) : Heap := fun x => if x = e then n else h x

/-- xml_element.h 75-81 `SetXmlFile`. -/
def setXmlFile (h : Heap) (e : Nat) (file : Option Nat) : Bool × Heap :=
  match (h e).file, file with
  | none, some f => (true, h.upd e { h e with file := some f })
  | _, _ => (false, h)

/-- xml_element.h 94-100 `SetParent` (with `InSameXmlFile`, 67-69); `parent = none` is a null pointer. -/
def setParent (h : Heap) (e : Nat) (parent : Option Nat) : Bool × Heap :=
  match (h e).parent, parent with
  | none, some p => if (h e).file = (h p).file then (true, h.upd e { h e with parent := some p }) else (false, h)
  | _, _ => (false, h)

/-- element.h 200-208 `AddComplexChild` on a non-null child. -/
def addComplexChild (h : Heap) (p e : Nat) : Bool × Heap :=
  let r := setParent h e (some p)
  if r.1 then (true, r.2.upd p { r.2 p with children := (r.2 p).children ++ [e] }) else (false, h)

/-- element.h 220-231 `DeleteFromArrayAt`: the child keeps its parent link (the TODO of line 229). -/
def deleteAt (h : Heap) (p i : Nat) : Option Nat × Heap :=
  match (h p).children[i]? with
  | none => (none, h)
  | some e => (some e, h.upd p { h p with children := (h p).children.eraseIdx i })

/-- What client code can do. -/
inductive Op where
  | setFile (e f : Nat)
  | add (p e : Nat)
  | delete (p i : Nat)

def step (h : Heap) : Op → Heap
  | .setFile e f => (setXmlFile h e (some f)).2
  | .add p e => (addComplexChild h p e).2
  | .delete p i => (deleteAt h p i).2

def run (h : Heap) (ops : List Op) : Heap := ops.foldl step h

/-- New elements have no parent, no file and no children. -/
def fresh : Heap := fun _ => {}

end Kml.XmlElement
