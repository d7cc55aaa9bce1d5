import Verif.Spec.Listen
import Verif.Spec.Clone
import Verif.Spec.Place
import Verif.Spec.Held
import Verif.Model.StyleSplit

/-!
# A document with its inline styles replaced by references

Told on the text of the document: inside features other than documents, once a `Document` has started and outside
`Update`, a `Style` or `StyleMap` in a feature without a `styleUrl` so far is replaced by
`<styleUrl>#_0</styleUrl>`, `<styleUrl>#_1</styleUrl>` and so on.
-/

namespace Kml.Dom

open Kml

/-- The features other than `Document`. -/
def featureTypes : List Ty :=
  [Ty.«Folder», Ty.«GroundOverlay», Ty.«NetworkLink», Ty.«PhotoOverlay», Ty.«Placemark», Ty.«ScreenOverlay»,
    Ty.«GxTour»]

/-- How far the document was rewritten: whether a `Document` has started, whether an `Update` has started and not ended,
and the styles taken out, each with the type of the feature it was in. -/
structure Moved where
  doc : Bool
  update : Bool
  styles : List (Ty × Xml)

/-- Before the document. -/
def Moved.init : Moved := ⟨false, false, []⟩

/-- A known element of that name starts. -/
def Moved.start (m : Moved) (name : Str) : Moved :=
  { m with doc := m.doc || name == chars! "Document", update := m.update || name == chars! "Update" }

/-- `<styleUrl>#_k</styleUrl>` -/
def styleRef (k : Nat) : Xml := .elem (chars! "styleUrl") [] [.text ('#' :: uniqueId k)]

/-- The element `x` of that name ends, in an element of type `p`; `has` is whether there was a `styleUrl` before. -/
def Moved.finish (m : Moved) (p : Ty) (has : Bool) (name : Str) (x : Xml) : Xml × Moved :=
  if (name == chars! "Style" || name == chars! "StyleMap") && m.doc && !m.update && featureTypes.contains p && !has then
    (styleRef m.styles.length, { m with styles := m.styles ++ [(p, x)] })
  else (x, if name = chars! "Update" then { m with update := false } else m)

/-- Whether the piece is an element of that name. -/
def Xml.named (name : Str) : Xml → Bool
  | .text _ => false
  | .empty m _ => m = name
  | .elem m _ _ => m = name

mutual

/-- A piece of the content of an element of type `p`, rewritten. -/
def Xml.split (p : Ty) (has : Bool) (m : Moved) : Xml → Xml × Moved
  | .text t => (.text t, m)
  | .empty name attrs =>
    if isKnown name then (m.start name).finish p has name (.empty name attrs) else (.empty name attrs, m)
  | .elem name attrs ks =>
    if isKnown name && name != chars! "description" then
      (splitOf (tyIn p name) false (m.start name) ks).2.finish p has name
        (.elem name attrs (splitOf (tyIn p name) false (m.start name) ks).1)
    else (.elem name attrs ks, m)

/-- The content of an element of type `p`, rewritten. -/
def splitOf (p : Ty) (has : Bool) (m : Moved) : List Xml → List Xml × Moved
  | [] => ([], m)
  | x :: xs =>
    ((x.split p has m).1 ::
        (splitOf p (has || (x.split p has m).1.named (chars! "styleUrl")) (x.split p has m).2 xs).1,
      (splitOf p (has || (x.split p has m).1.named (chars! "styleUrl")) (x.split p has m).2 xs).2)

end

/-- The content of the root, rewritten. -/
def splitRoot (name : Str) (ks : List Xml) : List Xml × Moved :=
  if name = chars! "description" then (ks, Moved.init.start name)
  else splitOf (Xsd.elementId name) false (Moved.init.start name) ks

/-- A style with the given id, and without the unknown elements directly in it. -/
def sharedStyle (id : Str) : Elem → Elem
  | .field t s => .field t s
  | .node t a slots mis _ => .node t (setId id a) slots mis []

/-- The attributes of an element. -/
def Xml.attributes : Xml → List (Str × Str)
  | .text _ => []
  | .empty _ a => a
  | .elem _ a _ => a

/-- A style that can be moved whole: it has no id, and what it stands for can be copied. -/
def Movable (n : NumLib) (p : Ty) (x : Xml) : Prop :=
  chars! "id" ∉ x.attributes.map (·.1) ∧
  ∀ c, StandsFor n p x c → Everywhere Clonable c ∧ Everywhere Lossless c ∧ Everywhere Tidy c

/-- All styles taken out can be moved. -/
def AllMovable (n : NumLib) (styles : List (Ty × Xml)) : Prop := ∀ s ∈ styles, Movable n s.1 s.2

/-- The styles given to the document are those taken out. -/
def Taken (n : NumLib) (styles : List (Ty × Xml)) (added : List Elem) : Prop :=
  added.length = styles.length ∧ ∀ (k : Nat) (p : Ty) (x : Xml), styles[k]? = some (p, x) →
    ∃ c, StandsFor n p x c ∧ (c.ty = Ty.«Style» ∨ c.ty = Ty.«StyleMap») ∧ added[k]? = some (sharedStyle (uniqueId k) c)

end Kml.Dom
