import Verif.Spec.Children

/-!
# Elements as the parser and the factory leave them

`Held` says how an element can look: every child is in the member that takes it, a member for one child holds at
most one, a simple child holds a value as the library writes it, the misplaced children are those no member takes.
Nothing is said about texts and names: they can be any.
-/

namespace Kml.Dom

open Kml

/-- The attributes of an element: each map is sorted; a known attribute holds a value as the library writes it; an
unknown attribute is neither a known one nor a namespace. -/
structure Attrs.Held (n : NumLib) (c : Class) (a : Attrs) : Prop where
  known_sorted : StdMap.Sorted a.known
  unknown_sorted : StdMap.Sorted a.unknown
  xmlns_sorted : StdMap.Sorted a.xmlns
  known : ∀ e ∈ a.known, ∃ kind, (e.1, kind) ∈ c.reads ∧ readAttr n kind e.2 = some e.2
  unknown : ∀ e ∈ a.unknown, e.1 ∉ c.reads.map (·.1) ∧ e.1 ≠ chars! "xmlns" ∧ ∀ r, e.1 ≠ chars! "xmlns:" ++ r

/-- A child in its member: a simple one holds a value as the library writes it. -/
def Settled (n : NumLib) : Act → Elem → Prop
  | .field _ k, .field t s => readValue n k t none s = .ok (some s)
  | .fields _ k, .field t s => readValue n k t none s = .ok (some s)
  | .one _, _ => True
  | .many _, _ => True
  | _, _ => False

/-- A value that may begin with a CDATA mark: those of `href` and the like. -/
def Act.isCdata : Act → Bool
  | .field _ .cdata | .fields _ .cdata => true
  | _ => false

/-- The members of an element with text: its text only. -/
def textSlots (s : Str) : Mem → List Elem := setSlot (fun _ => []) M.«text» [.field Ty.Unknown s]

/-- The members of a coordinates element: the texts of its points. -/
def pointTextSlots (pts : List Str) : Mem → List Elem :=
  setSlot (fun _ => []) M.«coordinates_array» (pts.map (Elem.field Ty.Unknown))

/-- How an element can look.  The elements with text hold their text or nothing. -/
inductive Held (n : NumLib) : Elem → Prop
  | field {t : Ty} {s : Str} : Xsd.elementType t = .simple → Held n (.field t s)
  | node {t : Ty} {a : Attrs} {slots : Mem → List Elem} {mis : List Elem} {unk : List Str} :
    (classOf t).isSome = true → textual t = false → a.Held n (classAt t) →
    (∀ m, ∀ x ∈ slots m, ∃ act, taker t x = some act ∧ act.mem = m ∧
      (act.isCdata = true ∧ (∃ t' s, x = .field t' s) ∨ Settled n act x) ∧
      (act.isArray = false → slots m = [x])) →
    (∀ x ∈ mis, taker t x = none) →
    (∀ m, ∀ x ∈ slots m, Held n x) → (∀ x ∈ mis, Held n x) → Held n (.node t a slots mis unk)
  | text {t : Ty} {a : Attrs} {slots : Mem → List Elem} {mis : List Elem} {unk : List Str} :
    t = Ty.«Snippet» ∨ t = Ty.«linkSnippet» ∨ t = Ty.«SimpleData» → a.Held n (classAt t) →
    (slots = fun _ => []) ∨ (∃ s, slots = textSlots s) →
    (∀ x ∈ mis, taker t x = none) → (∀ x ∈ mis, Held n x) → Held n (.node t a slots mis unk)
  | points {a : Attrs} {pts : List Str} {unk : List Str} :
    a.Held n (classAt Ty.«coordinates») →
    Held n (.node Ty.«coordinates» a (pointTextSlots pts) [] unk)

/-- A property of an element and of all elements below it. -/
inductive Everywhere (P : Elem → Prop) : Elem → Prop
  | field {t : Ty} {s : Str} : P (.field t s) → Everywhere P (.field t s)
  | node {t : Ty} {a : Attrs} {slots : Mem → List Elem} {mis : List Elem} {unk : List Str} :
    P (.node t a slots mis unk) → (∀ m, ∀ x ∈ slots m, Everywhere P x) → (∀ x ∈ mis, Everywhere P x) →
    Everywhere P (.node t a slots mis unk)

end Kml.Dom
