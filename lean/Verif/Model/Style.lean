import Verif.Model.Merge

/-!
# Style resolution (src/kml/engine/style_merger.cc, style_resolver.cc)

The uriparser library and the cache of KML files are parameters.  What the cache gives for a URL is taken not to
change while a style is resolved.
-/

namespace Kml.Dom

open Kml

/-- What a `StyleMerger` is made with (style_merger.cc 47-59):
 * `split` is `SplitUri` (kml_uri.cc), its path and its fragment;
 * `shared` is `shared_style_map_`;
 * `fetch` is `kml_cache_->FetchKmlRelative(base_url_, ...)`, of which only the shared styles of the file are looked at;
   `none` for no cache;
 * `state` is `style_state_` by name, as in `<key>`. -/
structure Styles where
  split : Str → Option (Str × Str)
  shared : StdMap Elem
  fetch : Option (Str → Option (StdMap Elem))
  state : Str

/-- style_merger.h: the members that change.  `nesting_depth_` is an `int`, here without bounds.  `followed` is not in
the code: the URLs that were looked up. -/
structure StyleMerger where
  depth : Int
  resolved : Elem
  followed : List Str

/-- style_merger.cc 47-75, the constructors. -/
def StyleMerger.init (depth : Nat) : StyleMerger := ⟨depth, newNode Ty.«Style», []⟩

/-- style_merger.cc 92-127, what `MergeStyleUrl` finds for a URL. -/
def Styles.find (w : Styles) (url : Str) : Option Elem :=
  if url = [] then none
  else
    match w.split url with
    | none => none
    | some (path, id) =>
      if id = [] then none
      else if path = [] then w.shared.get id
      else
        match w.fetch with
        | none => none
        | some fetch =>
          match fetch url with
          | none => none
          | some styles => styles.get id

/-- The value of a member for one simple element; empty, as after the constructor, when it is not set. -/
def Elem.text (e : Elem) (m : Mem) : Str :=
  match e with
  | .field _ _ => []
  | .node _ _ slots _ _ => (single (slots m)).getD []

/-- The element in a member for one element; `none` is NULL. -/
def Elem.only (e : Elem) (m : Mem) : Option Elem :=
  match e with
  | .field _ _ => none
  | .node _ _ slots _ _ => (slots m).head?

/-- The items of a member for many elements. -/
def Elem.items (e : Elem) (m : Mem) : List Elem :=
  match e with
  | .field _ _ => []
  | .node _ _ slots _ _ => slots m

/-- stylemap.h 53-55 `get_key`, by name: `normal` when it is not set (stylemap.cc 36-40). -/
def pairKey (p : Elem) : Str :=
  match p with
  | .field _ _ => chars! "normal"
  | .node _ _ slots _ _ => (single (slots M.«key»)).getD (chars! "normal")

/-- A run that may need more fuel (`none`). -/
abbrev Run (α : Type) := Option (Outcome α)

/-- One run after another. -/
def Run.andThen {α β : Type} (x : Run α) (f : α → Run β) : Run β :=
  match x with
  | none => none
  | some (.ok a) => f a
  | some .throws => some .throws
  | some .ub => some .ub

/-- style_merger.cc 86-127 `MergeStyleUrl`; `selector` is `MergeStyleSelector`. -/
def StyleMerger.mergeStyleUrl (w : Styles) (selector : StyleMerger → Option Elem → Run StyleMerger) (st : StyleMerger)
    (url : Str) : Run StyleMerger :=
  if st.depth - 1 < 0 then some (.ok { st with depth := st.depth - 1 })
  else
    match w.find url with
    | some e => selector ⟨st.depth - 1, st.resolved, st.followed ++ [url]⟩ (some e)
    | none => some (.ok ⟨st.depth - 1, st.resolved, st.followed ++ [url]⟩)

/-- style_merger.cc 130-137 `MergeStyle`. -/
def StyleMerger.mergeStyle (w : Styles) (selector : StyleMerger → Option Elem → Run StyleMerger) (st : StyleMerger)
    (url : Str) (inline : Option Elem) : Run StyleMerger :=
  (st.mergeStyleUrl w selector url).andThen fun st => selector st inline

/-- style_merger.cc 140-155 `MergeStyleMap`, the loop. -/
def StyleMerger.mergePairs (w : Styles) (selector : StyleMerger → Option Elem → Run StyleMerger) :
    StyleMerger → List Elem → Run StyleMerger
  | st, [] => some (.ok st)
  | st, p :: ps =>
    (if pairKey p = w.state then st.mergeStyle w selector (p.text M.«styleurl») (p.only M.«styleselector»)
      else some (.ok st)).andThen fun st => st.mergePairs w selector ps

/-- style_merger.cc 158-167 `MergeStyleSelector`.  The fuel bounds the depth of the recursion. -/
def mergeSelector (n : NumLib) (w : Styles) : Nat → StyleMerger → Option Elem → Run StyleMerger
  | 0, _, _ => none
  | _ + 1, st, none => some (.ok st)
  | fuel + 1, st, some e =>
    if e.ty = Ty.«Style» then
      some (do
        let r ← mergeElements n e st.resolved
        .ok { st with resolved := r })
    else if e.ty = Ty.«StyleMap» then st.mergePairs w (mergeSelector n w fuel) (e.items M.«pair_array»)
    else some (.ok st)

/-- style_resolver.cc 57-70 `CreateResolvedStyle`, with the nesting depth the constructor takes (style_merger.cc 62-75;
5 in engine_constants.h 36): the merger at the end. -/
def createResolvedStyle (n : NumLib) (w : Styles) (limit fuel : Nat) (url : Str) (inline : Option Elem) :
    Run StyleMerger :=
  (StyleMerger.init limit).mergeStyle w (mergeSelector n w fuel) url inline

end Kml.Dom
