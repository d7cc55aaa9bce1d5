import Verif.Spec.StyleSplit
import Verif.Spec.File
import Verif.Lemmas.Clone
import Verif.Model.StyleInline

/-!
# A document with its shared styles moved into the features

`Elem.inlined` says what becomes of the elements of a document, given what a reference gives.  `marks` lists the shared
styles of a text and the references to styles, in document order.
-/

namespace Kml.Dom

open Kml

/-- `resolve` is `CreateResolvedStyleSelector`, run with enough fuel. -/
def Resolves (n : NumLib) (split : Str → Option (Str × Str)) (resolve : StdMap Elem → Str → Outcome Elem) : Prop :=
  ∀ shared url, ∃ enough, ∀ fuel, enough ≤ fuel →
    createResolvedSelector n split fuel shared url = some (resolve shared url)

/-- The style a reference gives: that of a shared style in the document, if it is a reference to one. -/
def localStyle (split : Str → Option (Str × Str)) (resolve : StdMap Elem → Str → Outcome Elem) (shared : StdMap Elem)
    (url : Str) : Option Elem :=
  match split url with
  | some ([], id) =>
    if (shared.get id).isSome then
      match resolve shared url with
      | .ok style => some style
      | _ => none
    else none
  | _ => none

/-- Member `m` of an element of type `t` afterwards; `v` are its elements.
 * A `Document` keeps the styles without an id.
 * A feature other than a `Document`, with a reference that gives a style, has that style instead of the reference. -/
def slotInlined (gives : Str → Option Elem) (t : Ty) (slots : Mem → List Elem) (m : Mem) (v : List Elem) : List Elem :=
  if t = Ty.«Document» ∧ m = M.«styleselector_array» then v.filter fun x => x.objectId.isNone
  else if featureTypes.contains t then
    match (single (slots M.«styleurl»)).bind gives with
    | some style => if m = M.«styleurl» then [] else if m = M.«styleselector» then [style] else v
    | none => v
  else v

mutual

/-- An element afterwards.  An `Update` is left as it is. -/
def Elem.inlined (gives : Str → Option Elem) : Elem → Elem
  | .field t s => .field t s
  | .node t a slots mis unk =>
    if t = Ty.«Update» then .node t a slots mis unk
    else .node t a (fun m => slotInlined gives t slots m (inlinedAll gives (slots m))) (inlinedAll gives mis) unk

/-- The same for several. -/
def inlinedAll (gives : Str → Option Elem) : List Elem → List Elem
  | [] => []
  | e :: es => e.inlined gives :: inlinedAll gives es

end

/-- Whether the piece `x` of the content of an element of type `p` is a shared style (`some x`) or a reference to one
(`none`). -/
def markOf (p : Ty) (name : Str) (attrs : List (Str × Str)) (x : Xml) : List (Option Xml) :=
  if p = Ty.«Document» ∧ (name = chars! "Style" ∨ name = chars! "StyleMap") ∧ (attrValue (chars! "id") attrs).isSome then
    [some x]
  else if featureTypes.contains p ∧ name = chars! "styleUrl" then [none]
  else []

mutual

/-- The shared styles in a piece of the content of an element of type `p`, and the references of features, in document
order; those in an `Update` do not count. -/
def Xml.marks (p : Ty) : Xml → List (Option Xml)
  | .text _ => []
  | .empty name attrs => if isKnown name then markOf p name attrs (.empty name attrs) else []
  | .elem name attrs ks =>
    if isKnown name then
      (if name = chars! "description" ∨ name = chars! "Update" then [] else marksOf (tyIn p name) ks) ++
        markOf p name attrs (.elem name attrs ks)
    else []

/-- The same for the content of an element of type `p`. -/
def marksOf (p : Ty) : List Xml → List (Option Xml)
  | [] => []
  | x :: xs => x.marks p ++ marksOf p xs

end

/-- The same for a document. -/
def docMarks (name : Str) (ks : List Xml) : List (Option Xml) :=
  if name = chars! "description" ∨ name = chars! "Update" then [] else marksOf (Xsd.elementId name) ks

/-- No shared style comes after a reference. -/
def StylesFirst (marks : List (Option Xml)) : Prop := marks.Pairwise fun a b => a = none → b = none

/-- Whether the piece is a `styleUrl` or a style. -/
def Xml.styling (x : Xml) : Bool := x.named (chars! "styleUrl") || x.named (chars! "Style") || x.named (chars! "StyleMap")

mutual

/-- No `Update` is in an `Update`, and in a feature a `styleUrl` is not followed by another or by a style. -/
def Xml.Neat : Xml → Prop
  | .text _ => True
  | .empty _ _ => True
  | .elem name _ ks =>
    (name = chars! "Update" → AllOf (fun m _ => m ≠ chars! "Update") ks) ∧
    (featureTypes.contains (Xsd.elementId name) = true →
      ks.Pairwise fun x y => x.named (chars! "styleUrl") = true → y.styling = false) ∧ NeatAll ks

/-- The same for several pieces. -/
def NeatAll : List Xml → Prop
  | [] => True
  | x :: xs => x.Neat ∧ NeatAll xs

end

/-- `x` is in the element, though not in an `Update`, nor among the styles of a feature. -/
inductive OutsideUpdate : Elem → Elem → Prop
  | here (e : Elem) : OutsideUpdate e e
  | slot {t : Ty} {a : Attrs} {slots : Mem → List Elem} {mis : List Elem} {unk : List Str} {m : Mem} {y x : Elem} :
      t ≠ Ty.«Update» → m ≠ M.«styleurl» → m ≠ M.«styleselector» → m ≠ M.«styleselector_array» → y ∈ slots m →
      OutsideUpdate y x → OutsideUpdate (.node t a slots mis unk) x
  | misplaced {t : Ty} {a : Attrs} {slots : Mem → List Elem} {mis : List Elem} {unk : List Str} {y x : Elem} :
      t ≠ Ty.«Update» → y ∈ mis → OutsideUpdate y x → OutsideUpdate (.node t a slots mis unk) x

/-- The shared styles under their ids, a later one in place of an earlier one with the same id. -/
def sharedMap (gives : Str → Option Elem) (styles : List Elem) : StdMap Elem :=
  styles.foldl (fun m c => m.set (c.objectId.getD []) (c.inlined gives)) []

end Kml.Dom
