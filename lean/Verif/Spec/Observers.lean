import Verif.Spec.Build

/-!
# What observers are told

A note of what an observer was told, the notes a document should give rise to, observers that write down what
they are told, and a document without the elements that were vetoed.
-/

namespace Kml.Dom

open Kml

/-- A known element of the given type started; or one was offered to its parent. -/
inductive Note where
  | start (t : Ty)
  | attach (parent child : Ty)
  deriving DecidableEq, Repr

/-- The type of a known element inside an element of type `parent`: an `Icon` inside an `IconStyle` is of
a type of its own. -/
def tyIn (parent : Ty) (name : Str) : Ty :=
  if Xsd.elementId name = Ty.«Icon» ∧ parent = Ty.«IconStyle» then Ty.«IconStyleIcon» else Xsd.elementId name

mutual

/-- The notes for a piece of the content of an element of type `p`: a known element starts, then
come the notes of its content, then it is attached.  Nothing is noted inside a `description` or an unknown
element. -/
def Xml.notes (p : Ty) : Xml → List Note
  | .text _ => []
  | .empty name _ => if isKnown name then [.start (tyIn p name), .attach p (tyIn p name)] else []
  | .elem name _ ks =>
    if isKnown name then
      .start (tyIn p name) :: (if name = chars! "description" then [] else notesOf (tyIn p name) ks) ++
        [.attach p (tyIn p name)]
    else []

/-- The notes for the content of an element of type `p`. -/
def notesOf (p : Ty) : List Xml → List Note
  | [] => []
  | x :: xs => x.notes p ++ notesOf p xs

end

/-- The notes for a whole document: the root starts, then comes its content. -/
def docNotes (name : Str) (ks : List Xml) : List Note :=
  .start (Xsd.elementId name) ::
    (if name = chars! "description" then [] else notesOf (Xsd.elementId name) ks)

/-- The observer `o`, number `i`, which also writes down the starts and attachments it is told of. -/
def recording {σ : Type} (i : Nat) (o : Observer σ) : Observer (σ × List (Nat × Note)) where
  new s e := ((o.new s.1 e).1, (o.new s.1 e).2, s.2 ++ [(i, .start e.ty)])
  endElement s p c := ((o.endElement s.1 p c).1, (o.endElement s.1 p c).2, s.2)
  addChild s p c := ((o.addChild s.1 p c).1, (o.addChild s.1 p c).2, s.2 ++ [(i, .attach p.ty c.ty)])

/-- All observers recording, numbered from `i`. -/
def recordingAll {σ : Type} (i : Nat) : List (Observer σ) → List (Observer (σ × List (Nat × Note)))
  | [] => []
  | o :: os => recording i o :: recordingAll (i + 1) os

/-- All observers together as one, which also writes down, each time an element ends, whether they all
agreed. -/
def together {σ : Type} (os : List (Observer σ)) : Observer (σ × List Bool) where
  new s e := ((callAll (fun o s => o.new s e) os s.1).1, (callAll (fun o s => o.new s e) os s.1).2, s.2)
  endElement s p c :=
    ((callAll (fun o s => o.endElement s p c) os s.1).1, (callAll (fun o s => o.endElement s p c) os s.1).2,
      s.2 ++ [(callAll (fun o s => o.endElement s p c) os s.1).1])
  addChild s p c :=
    ((callAll (fun o s => o.addChild s p c) os s.1).1, (callAll (fun o s => o.addChild s p c) os s.1).2, s.2)

/-- Keep `x` if the next decision is yes; without a decision, keep it. -/
def keepIf (x : Xml) : List Bool → List Xml × List Bool
  | [] => ([x], [])
  | true :: ds => ([x], ds)
  | false :: ds => ([], ds)

mutual

/-- A piece of content without the known elements vetoed, and the decisions left over.  There is one decision
for each known element, in the order in which they end; there is none for an unknown element or inside one,
nor inside a `description`. -/
def Xml.prune : Xml → List Bool → List Xml × List Bool
  | .text t, ds => ([.text t], ds)
  | .empty name attrs, ds => if isKnown name then keepIf (.empty name attrs) ds else ([.empty name attrs], ds)
  | .elem name attrs ks, ds =>
    if isKnown name then
      if name = chars! "description" then keepIf (.elem name attrs ks) ds
      else keepIf (.elem name attrs (pruneOf ks ds).1) (pruneOf ks ds).2
    else ([.elem name attrs ks], ds)

/-- A sequence without the known elements vetoed, and the decisions left over. -/
def pruneOf : List Xml → List Bool → List Xml × List Bool
  | [], ds => ([], ds)
  | x :: xs, ds => ((x.prune ds).1 ++ (pruneOf xs (x.prune ds).2).1, (pruneOf xs (x.prune ds).2).2)

end

/-- The content of a root without the elements vetoed; the root itself cannot be. -/
def pruneRoot (name : Str) (ks : List Xml) (ds : List Bool) : List Xml :=
  if name = chars! "description" then ks else (pruneOf ks ds).1

end Kml.Dom
