import Verif.Spec.Held

/-!
# The copy of an element
-/

namespace Kml.Dom

open Kml

mutual

/-- The copy of an element: the element, without what it holds but never writes (the attributes and the unknown
children of `coordinates`, the `LocalityName` of a `Locality`, and whether an empty text is set). -/
def copyOf : Elem → Elem
  | .field t s => .field t s
  | .node t a slots mis unk =>
    if t = Ty.«coordinates» then
      .node t .empty (fun m => if m = M.«coordinates_array» then copyAll (slots m) else []) [] []
    else
      .node t a (fun m =>
        if t = Ty.«XalLocality» ∧ m = M.«localityname» then []
        else if textual t = true ∧ texts (slots m) = [[]] then []
        else copyAll (slots m)) (copyAll mis) unk

/-- The copies of elements. -/
def copyAll : List Elem → List Elem
  | [] => []
  | e :: es => copyOf e :: copyAll es

end

/-- What the copying needs of an element: an address (`href` and the like) does not begin with a CDATA mark, and a
`SimpleData` with a text has a text that is not empty and no children but simple ones. -/
def Clonable : Elem → Prop
  | .field _ _ => True
  | .node t _ slots mis _ =>
    (∀ m, ∀ x ∈ slots m, ∀ act t' s, taker t x = some act → act.isCdata = true → x = .field t' s →
      ¬ chars! "<![CDATA[" <+: s) ∧
    (t = Ty.«SimpleData» → slots M.«text» = [] ∨
      texts (slots M.«text») ≠ [[]] ∧ ∀ x ∈ mis, ∃ t' s, x = .field t' s)

/-- The element holds nothing that its copy does not: see `copyOf`. -/
def Lossless : Elem → Prop
  | .field _ _ => True
  | .node t a slots _ unk =>
    (t = Ty.«coordinates» → a = .empty ∧ unk = []) ∧ (t = Ty.«XalLocality» → slots M.«localityname» = []) ∧
    (textual t = true → texts (slots M.«text») ≠ [[]])

end Kml.Dom
