import Verif.Model.Meddle
import Verif.Model.Style
import Verif.Model.Walk

/-!
# Moving styles out of features and back (src/kml/engine/style_splitter.cc, style_inliner.cc)
-/

namespace Kml.Dom

open Kml

/-- style_splitter.cc 53-59, style_inliner.cc 54-60 `AsNonDocumentFeature`: whether it gives one. -/
def Elem.plainFeature (e : Elem) : Bool := e.isA Ty.«Feature» && !e.isA Ty.«Document»

/-- feature.h 196 `has_styleurl`. -/
def Elem.hasStyleUrl : Elem → Bool
  | .field _ _ => false
  | .node _ _ slots _ _ => !(slots M.«styleurl»).isEmpty

/-- feature.h 197-200 `set_styleurl`. -/
def Elem.setStyleUrl (e : Elem) (url : Str) : Elem :=
  match e with
  | .field t s => .field t s
  | .node t a slots mis unk => .node t a (setSlot slots M.«styleurl» [.field Ty.«styleUrl» url]) mis unk

/-- feature.h 209-211 `set_styleselector`. -/
def Elem.setStyleSelector (e style : Elem) : Elem :=
  match e with
  | .field t s => .field t s
  | .node t a slots mis unk => .node t a (setSlot slots M.«styleselector» [style]) mis unk

/-- object.h 53-56 `set_id`. -/
def Elem.withId (e : Elem) (id : Str) : Elem :=
  match e with
  | .field t s => .field t s
  | .node t a slots mis unk => .node t (setId id a) slots mis unk

/-- style_splitter_internal.h 44-97, the members of a `StyleSplitter`:
 * `doc` is whether `document_` is set;
 * `inUpdate` is `in_update_`;
 * `counter` is `id_counter_`, an `unsigned int`, here without bounds;
 * `shared` is `*shared_style_map_`;
 * `added` are the styles given to `document_`, in that order.  They are kept apart here: a `Document` has them in its
   array of styles, among those it was read with. -/
structure Splitter where
  doc : Bool
  inUpdate : Bool
  counter : Nat
  shared : StdMap Elem
  added : List Elem

/-- style_splitter_internal.h 48-51, the constructor; style_splitter.cc 113, an empty map. -/
def Splitter.init : Splitter := ⟨false, false, 0, [], []⟩

/-- style_splitter.cc 40-50 `NewElement`. -/
def Splitter.new (s : Splitter) (e : Elem) : Splitter :=
  { s with doc := s.doc || e.isA Ty.«Document», inUpdate := s.inUpdate || e.isA Ty.«Update» }

/-- style_splitter_internal.h 70-74 `CreateUniqueId`. -/
def uniqueId (counter : Nat) : Str := '_' :: Nat.toDigits 10 counter

/-- style_splitter.cc 62-71 `CreateStyleSelector`; `none` is NULL. -/
def createStyleSelector (t : Ty) : Option Elem :=
  if t = Ty.«Style» ∨ t = Ty.«StyleMap» then some (newNode t) else none

/-- style_splitter.cc 85-97: the style is moved under the given id. -/
def Splitter.move (n : NumLib) (s : Splitter) (parent child : Elem) (id : Str) : Outcome (Bool × Elem × Splitter) :=
  match createStyleSelector child.ty with
  | none => .ub
  | some e => do
    let shared ← mergeElements n child (e.withId id)
    .ok (false, parent.setStyleUrl ('#' :: id),
      { s with
        counter := s.counter + 1
        shared := s.shared.set (shared.objectId.getD []) shared
        added := s.added ++ [shared] })

/-- style_splitter.cc 73-109 `EndElement`. -/
def Splitter.finish (n : NumLib) (s : Splitter) (parent child : Elem) : Outcome (Bool × Elem × Splitter) :=
  if !s.inUpdate && s.doc && child.isA Ty.«StyleSelector» && parent.plainFeature && !parent.hasStyleUrl &&
      (s.shared.get (uniqueId s.counter)).isNone then
    s.move n parent child (uniqueId s.counter)
  else .ok (true, parent, if child.isA Ty.«Update» then { s with inUpdate := false } else s)

/-- The `StyleSplitter` as an observer; it has no `AddChild` of its own. -/
def splitter (n : NumLib) : Meddler Splitter where
  new := Splitter.new
  finish := Splitter.finish n
  added s _ _ := s

/-- style_splitter.cc 111-118 `SplitStyles`, given the events of the document: the result and the styles given to
the first `Document`. -/
def splitStyles (n : NumLib) (evs : List Ev) : Outcome (Option Elem × List Elem) := do
  let r ← parseWith n (splitter n) Splitter.init evs
  .ok (r.1, r.2.added)

end Kml.Dom
