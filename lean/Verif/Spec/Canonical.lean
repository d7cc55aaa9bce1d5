import Verif.Spec.Held
import Verif.Spec.Print
import Verif.Spec.Unknown
import Verif.Props.Coordinates

/-!
# Elements that are read back as they are

What an element has to look like so that writing it and reading the text gives the same element.  Every
condition is about one element and its members: nothing is written or parsed here, except single values.
-/

namespace Kml.Dom

open Kml

/-- The attributes of an element: each map is sorted; a known attribute holds a value as the library writes it;
an unknown attribute is neither a known one nor a namespace; names and values can be written as they are. -/
structure Attrs.Canonical (n : NumLib) (c : Class) (a : Attrs) : Prop where
  known_sorted : StdMap.Sorted a.known
  unknown_sorted : StdMap.Sorted a.unknown
  xmlns_sorted : StdMap.Sorted a.xmlns
  known : ∀ e ∈ a.known, PlainAttr e.2 ∧ ∃ kind, (e.1, kind) ∈ c.reads ∧ readAttr n kind e.2 = some e.2
  unknown : ∀ e ∈ a.unknown, PlainAttr e.2 ∧ XmlName e.1 ∧ e.1 ∉ c.reads.map (·.1) ∧
    e.1 ≠ chars! "xmlns" ∧ ∀ r, e.1 ≠ chars! "xmlns:" ++ r
  xmlns : ∀ e ∈ a.xmlns, PlainAttr e.2 ∧ (e.1 ≠ chars! "xmlns" → XmlName (chars! "xmlns:" ++ e.1))

/-- The text kept for an unknown child: that of an unknown element without markup characters in its texts and
values, nested at most `k` deep, followed by a line break. -/
def KeptUnknown (k : Nat) (s : Str) : Prop :=
  ∃ x : Xml, s = x.render ++ ['\n'] ∧ x.Plain ∧ (x.name?.any fun m => !isKnown m) = true ∧ x.depth ≤ k ∧
    x.All fun m a => m ≠ chars! "description" ∧ NotOldSchema m a

/-- The members of a coordinates element: its points. -/
def pointSlots (pts : List Coords.Vec3) : Mem → List Elem :=
  setSlot (fun _ => []) M.«coordinates_array» (pts.map fun v => .field Ty.Unknown (pointText v))

/-- The type of an element in a parent: the icon of an icon style has a type of its own. -/
def HomeType (parent : Option Ty) (t : Ty) : Prop :=
  (t = Ty.«IconStyleIcon» → parent = some Ty.«IconStyle») ∧
  (t = Ty.«Icon» → parent ≠ some Ty.«IconStyle»)

/-- An element in a parent, nested at most `k` deep, that is read back as it is; `pretty` says with which
serializer.  Every child is in the member that takes it, a member for one child holds at most one, and the
misplaced children are those no member takes. -/
inductive Canonical (n : NumLib) (pretty : Bool) : Nat → Option Ty → Elem → Prop
  | field {k : Nat} {p : Option Ty} {t : Ty} {s : Str} :
    Xsd.elementType t = .simple → Quotable s → Canonical n pretty (k + 1) p (.field t s)
  | node {k : Nat} {p : Option Ty} {t : Ty} {a : Attrs} {slots : Mem → List Elem} {mis : List Elem}
    {unk : List Str} :
    (classOf t).isSome = true → textual t = false → HomeType p t →
    a.Canonical n (classAt t) → (t = Ty.«Schema» → a.unknown.get (chars! "parent") = none) →
    (∀ m, ∀ x ∈ slots m, ∃ act, taker t x = some act ∧ act.mem = m ∧ Settled n act x ∧
      (act.isArray = false → slots m = [x])) →
    (t = Ty.«XalLocality» → slots M.«localityname» = []) →
    (∀ x ∈ mis, taker t x = none) →
    (∀ m, ∀ x ∈ slots m, Canonical n pretty k (some t) x) →
    (∀ x ∈ mis, Canonical n pretty k (some t) x) →
    (∀ s ∈ unk, KeptUnknown k s) →
    Canonical n pretty (k + 1) p (.node t a slots mis unk)
  | text {k : Nat} {p : Option Ty} {t : Ty} {a : Attrs} {s : Str} :
    t = Ty.«Snippet» ∨ t = Ty.«linkSnippet» ∨ t = Ty.«SimpleData» → pretty = false →
    a.Canonical n (classAt t) → Quotable s →
    Canonical n pretty (k + 1) p (.node t a (textSlots s) [] [])
  | points {k : Nat} {p : Option Ty} {pts : List Coords.Vec3} :
    (∀ v ∈ pts, Coords.IsPoint n v) → (pretty = true ∨ pts.length ≤ 1) →
    Canonical n pretty (k + 1) p (.node Ty.«coordinates» .empty (pointSlots pts) [] [])

/-! ## Writing and reading -/

/-- White space. -/
def Ev.isSpace : Ev → Bool
  | .chars s => s.all xmlSpace
  | _ => false

/-- The root of a document, without the white space before and after it. -/
def rootEvents (evs : List Ev) : List Ev :=
  ((evs.dropWhile Ev.isSpace).reverse.dropWhile Ev.isSpace).reverse

/-- Write an element, read the text as XML, and parse the document: `none` if it is not well-formed or the parser
stopped. -/
def reread (n : NumLib) (newline indent : Str) (e : Elem) : Outcome (Option Elem) := do
  let out ← serialize newline indent e
  match readXml out with
  | none => .ok none
  | some evs => do
    let r ← parseEvents n [] () (rootEvents evs)
    .ok r.1

end Kml.Dom
