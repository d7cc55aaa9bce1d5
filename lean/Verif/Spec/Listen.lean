import Verif.Spec.Observers

/-!
# Observers that listen

What observers are told while a document is parsed, with the elements as they are at that time; and what in the
document each of these is about.
-/

namespace Kml.Dom

open Kml

/-- A new element, before its content is read; or a finished child and its parent. -/
inductive Notice where
  | new (e : Elem)
  | add (parent child : Elem)

/-- An observer that writes down what it is told and never objects. -/
def recorder : Observer (List Notice) where
  new l e := (true, l ++ [.new e])
  endElement l _ _ := (true, l)
  addChild l p c := (true, l ++ [.add p c])

/-- The tag of an element, or an element in an element. -/
inductive Told where
  | start (t : Ty) (attrs : List (Str × Str))
  | attach (parent : Ty) (x : Xml)

mutual

/-- What there is to tell about a piece of the content of an element of type `p`, in document order: a known element
starts, then comes its content, then it is attached.  Nothing is told of the inside of a `description` or of an
unknown element. -/
def Xml.tells (p : Ty) : Xml → List Told
  | .text _ => []
  | .empty name attrs =>
    if isKnown name then [.start (tyIn p name) attrs, .attach p (.empty name attrs)] else []
  | .elem name attrs ks =>
    if isKnown name then
      .start (tyIn p name) attrs :: (if name = chars! "description" then [] else tellsOf (tyIn p name) ks) ++
        [.attach p (.elem name attrs ks)]
    else []

/-- The same for the content of an element of type `p`. -/
def tellsOf (p : Ty) : List Xml → List Told
  | [] => []
  | x :: xs => x.tells p ++ tellsOf p xs

end

/-- The same for a whole document. -/
def docTells (name : Str) (attrs : List (Str × Str)) (ks : List Xml) : List Told :=
  .start (Xsd.elementId name) attrs ::
    (if name = chars! "description" then [] else tellsOf (Xsd.elementId name) ks)

/-- The element `c` is what the piece `x` of the content of an element of type `p` stands for. -/
def StandsFor (n : NumLib) (p : Ty) (x : Xml) (c : Elem) : Prop :=
  ∃ name attrs ks d e, (x = .empty name attrs ∧ ks = [] ∨ x = .elem name attrs ks) ∧
    makeElement n (some p) (Xsd.elementId name) attrs = some e ∧
    buildKnown n ([] : List (Observer Unit)) (d + 1) e () (renderAll ks) (depthOf ks)
      (fun e s => buildKids n [] (d + 1) e [] s ks) = .ok (some (c, ()))

/-- What was told is about this. -/
def About (n : NumLib) : Told → Notice → Prop
  | .start t attrs, .new e => e.ty = t ∧ ∃ p name, makeElement n p (Xsd.elementId name) attrs = some e
  | .attach p x, .add parent c => parent.ty = p ∧ StandsFor n p x c
  | _, _ => False

end Kml.Dom
