import Verif.Model.StyleSplit

/-!
# Moving shared styles into features (src/kml/engine/style_inliner.cc)

The uriparser library is a parameter.
-/

namespace Kml.Dom

open Kml

/-- A new `Pair` with a key and a style (stylemap.h 59-62 `set_key`, 87-89 `set_styleselector`). -/
def newPair (key : Str) (style : Elem) : Elem :=
  .node Ty.«Pair» .empty
    (fun m => if m = M.«key» then [.field Ty.«key» key] else if m = M.«styleselector» then [style] else []) [] []

/-- A new `StyleMap` with pairs, added with `add_pair` (stylemap.h 122-124). -/
def newStyleMap (pairs : List Elem) : Elem :=
  .node Ty.«StyleMap» .empty (fun m => if m = M.«pair_array» then pairs else []) [] []

/-- style_resolver.cc 73-90 `CreateResolvedStyleSelector`; the nesting limit is `kDefaultMaxNestedStyleUrls`
(engine_constants.h 36).  For the fuel see `mergeSelector`. -/
def createResolvedSelector (n : NumLib) (split : Str → Option (Str × Str)) (fuel : Nat) (shared : StdMap Elem) (url : Str) :
    Run Elem :=
  (createResolvedStyle n ⟨split, shared, none, chars! "normal"⟩ 5 fuel url none).andThen fun normal =>
    (createResolvedStyle n ⟨split, shared, none, chars! "highlight"⟩ 5 fuel url none).andThen fun highlight =>
      some (.ok (newStyleMap [newPair (chars! "normal") (clearIds normal.resolved),
        newPair (chars! "highlight") (clearIds highlight.resolved)]))

/-- style_inliner_internal.h, the members of a `StyleInliner`; its `document_` is never looked at. -/
structure Inliner where
  inUpdate : Bool
  shared : StdMap Elem

/-- style_inliner.cc 36-38, the constructor. -/
def Inliner.init : Inliner := ⟨false, []⟩

/-- style_inliner.cc 41-50 `NewElement`. -/
def Inliner.new (s : Inliner) (e : Elem) : Inliner := { s with inUpdate := s.inUpdate || e.isA Ty.«Update» }

/-- element.h 70-72 `get_char_data` of a simple element; that of other elements is not kept. -/
def Elem.charData : Elem → Str
  | .field _ s => s
  | .node _ _ _ _ _ => []

/-- style_inliner.cc 78-96: the `styleUrl` of a feature; `resolve` is `CreateResolvedStyleSelector`. -/
def Inliner.url (split : Str → Option (Str × Str)) (resolve : StdMap Elem → Str → Outcome Elem) (s : Inliner)
    (feature : Elem) (url : Str) : Outcome (Bool × Elem × Inliner) :=
  match split url with
  | some (path, fragment) =>
    if path = [] && (s.shared.get fragment).isSome then do
      let style ← resolve s.shared url
      .ok (false, feature.setStyleSelector style, s)
    else .ok (true, feature, s)
  | none => .ok (true, feature, s)

/-- style_inliner.cc 63-101 `EndElement`. -/
def Inliner.finish (split : Str → Option (Str × Str)) (resolve : StdMap Elem → Str → Outcome Elem) (s : Inliner)
    (parent child : Elem) : Outcome (Bool × Elem × Inliner) :=
  if s.inUpdate then .ok (true, parent, s)
  else
    match if parent.isA Ty.«Document» && child.isA Ty.«StyleSelector» then child.objectId else none with
    | some id => .ok (false, parent, { s with shared := s.shared.set id child })
    | none =>
      if parent.plainFeature && child.ty = Ty.«styleUrl» then s.url split resolve parent child.charData
      else .ok (true, parent, s)

/-- The `StyleInliner` as an observer; style_inliner.cc 103-109 is its `AddChild`. -/
def inliner (split : Str → Option (Str × Str)) (resolve : StdMap Elem → Str → Outcome Elem) : Meddler Inliner where
  new := Inliner.new
  finish := Inliner.finish split resolve
  added s _ child := if child.isA Ty.«Update» then { s with inUpdate := false } else s

/-- style_inliner.cc 111-117 `InlineStyles`, given the events of the document: the result, and the shared styles found
(the code drops them). -/
def inlineStyles (n : NumLib) (split : Str → Option (Str × Str)) (resolve : StdMap Elem → Str → Outcome Elem)
    (evs : List Ev) : Outcome (Option Elem × StdMap Elem) := do
  let r ← parseWith n (inliner split resolve) Inliner.init evs
  .ok (r.1, r.2.shared)

end Kml.Dom
