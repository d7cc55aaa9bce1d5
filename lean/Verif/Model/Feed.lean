import Verif.Model.Clone
import Verif.Model.Style
import Verif.Model.StringUtil

/-!
# Atom feeds (src/kml/convenience/atom_util.cc, google_maps_data.cc)

Elements are trees, without identity.  The network, the XML parser and `AsAtomFeed` together are a parameter: the feed for
a URI, if there is one.
-/

namespace Kml.Dom

open Kml
open Kml.StringUtil (stringEndsWith)

/-- A known attribute of an element: `has_x()` and `get_x()`. -/
def Elem.attribute (e : Elem) (k : Str) : Option Str :=
  match e with
  | .field _ _ => none
  | .node _ a _ _ _ => a.known.get k

/-- element.h 128-130 `get_misplaced_elements_array_at`. -/
def Elem.misplaced (e : Elem) : List Elem :=
  match e with
  | .field _ _ => []
  | .node _ _ _ mis _ => mis

/-- element.h 120-122 `get_unknown_elements_array_at`. -/
def Elem.unknownTexts (e : Elem) : List Str :=
  match e with
  | .field _ _ => []
  | .node _ _ _ _ unk => unk

/-- An element with other items in a member. -/
def Elem.having (e : Elem) (m : Mem) (l : List Elem) : Elem :=
  match e with
  | .field t s => .field t s
  | .node t a slots mis unk => .node t a (setSlot slots m l) mis unk

/-- container.cc 43-45 `Container::add_feature`, for a feature that has no parent yet; element.h 201-208
`AddComplexChild`. -/
def addFeature (container feature : Elem) : Elem :=
  container.having M.«feature_array» (container.items M.«feature_array» ++ [feature])

/-- atom_util.cc 49-55 `CreateBasicEntry`. -/
def createBasicEntry (title summary : Str) : Elem :=
  .node Ty.«AtomEntry» .empty
    (setSlot (setSlot (fun _ => []) M.«title» [.field Ty.«atomTitle» title]) M.«summary» [.field Ty.«atomSummary» summary])
    [] []

/-- atom_util.cc 58-66 `CreateBasicLink`. -/
def createBasicLink (href rel type : Str) : Elem :=
  .node Ty.«AtomLink»
    ⟨StdMap.set (StdMap.set (StdMap.set [] (chars! "href") href) (chars! "rel") rel) (chars! "type") type, [], []⟩
    (fun _ => []) [] []

/-- atom_util.cc 69-85 `CreateEntryForFeature`.  element.cc 54-56 `Element::AddElement`: the feature is misplaced. -/
def createEntryForFeature (feature : Option Elem) : Option Elem :=
  feature.map fun f =>
    (createBasicEntry (f.text M.«name») (f.text M.«description»)).having M.«content»
      [.node Ty.«AtomContent» .empty (fun _ => []) [f] []]

/-- atom_util.cc 88-96 `GetContentSrc`. -/
def getContentSrc (entry : Option Elem) : Option Str :=
  entry.bind fun e => (e.only M.«content»).bind fun c => c.attribute (chars! "src")

/-- atom_util.cc 99-103 `LinkIsOfRel`. -/
def linkIsOfRel (link : Elem) (rel : Str) : Bool :=
  !rel.isEmpty && stringEndsWith ((link.attribute (chars! "rel")).getD []) rel

/-- atom_util.cc 106-118 `FindCategoryByScheme`. -/
def findCategoryByScheme (common : Elem) (scheme : Str) : Option Elem :=
  (common.items M.«category_array»).find? fun c =>
    match c.attribute (chars! "scheme") with
    | none => false
    | some s => stringEndsWith s scheme

/-- atom_util.cc 121-134 `FindRelUrl`. -/
def findRelUrl (common : Elem) (rel : Str) : Option Str :=
  ((common.items M.«link_array»).find? fun l => (l.attribute (chars! "href")).isSome && linkIsOfRel l rel).bind
    fun l => l.attribute (chars! "href")

/-- atom_util.cc 137-148 `FindLink`. -/
def findLink (common : Elem) (rel mime : Str) : Option Elem :=
  (common.items M.«link_array»).find? fun l => linkIsOfRel l rel && ((l.attribute (chars! "type")).getD [] = mime)

/-- atom_util.cc 151-159 `GetEntryFeature` and google_maps_data.cc 137-145. -/
def getEntryFeature (entry : Option Elem) : Option Elem :=
  entry.bind fun e => (e.only M.«content»).bind fun c => c.misplaced.head?.bind fun f =>
    if f.isA Ty.«Feature» then some f else none

/-- atom_util.cc 162-173 `CloneEntryFeature`: the feature itself, changed. -/
def cloneEntryFeature (entry : Elem) : Option Elem :=
  (getEntryFeature (some entry)).map fun f =>
    match findRelUrl entry (chars! "self") with
    | none => f
    | some href =>
      f.having M.«atomlink»
        [.node Ty.«AtomLink» ⟨StdMap.set [] (chars! "href") href, [], []⟩ (fun _ => []) [] []]

/-- atom_util.cc 176-186 `GetFeedFeatures`, for a feed whose features have no parent: one that was not given to
`GetFeedFeatures` before.  A second time nothing would be added (element.h 201-208). -/
def getFeedFeatures (feed container : Elem) : Elem :=
  (feed.items M.«entry_array»).foldl (fun c e =>
    match cloneEntryFeature e with
    | none => c
    | some f => addFeature c f) container

/-- atom_util.cc 189-198 `FindEntryByTitle`. -/
def findEntryByTitle (feed : Elem) (title : Str) : Option Elem :=
  (feed.items M.«entry_array»).find? fun e => e.text M.«title» = title

/-- google_maps_data.cc 156-166, the loop of `GetMapKml`. -/
def mapLoop (n : NumLib) : List Elem → Nat → Elem → Outcome (Nat × Elem)
  | [], count, container => .ok (count, container)
  | e :: es, count, container =>
    match getEntryFeature (some e) with
    | none => mapLoop n es count container
    | some f => clone n f >>= fun c =>
      mapLoop n es (count + 1)
        (match c with
          | none => container
          | some c' => if c'.isA Ty.«Feature» then addFeature container c' else container)

/-- google_maps_data.cc 148-168 `GetMapKml`: the result and the container. -/
def getMapKml (n : NumLib) (feed container : Option Elem) : Outcome (Int × Option Elem) :=
  match feed, container with
  | some f, some c => mapLoop n (f.items M.«entry_array») 0 c >>= fun r => .ok (r.1, some r.2)
  | _, c => .ok (-1, c)

/-- google_maps_data.cc 180-183, the loop of `CreateDocumentOfMapFeatures`, with atom_util.cc 211-218 `GetNextFeed`; `none`
if it runs for longer than the fuel lasts. -/
def documentLoop (n : NumLib) (fetch : Str → Option Elem) : Nat → Elem → Elem → Option (Outcome Elem)
  | 0, _, _ => none
  | fuel + 1, feed, document =>
    match getMapKml n (some feed) (some document) with
    | .ok (_, d) =>
      match (findRelUrl feed (chars! "next")).bind fetch with
      | none => some (.ok (d.getD document))
      | some next => documentLoop n fetch fuel next (d.getD document)
    | .throws => some .throws
    | .ub => some .ub

/-- google_maps_data.cc 171-186 `CreateDocumentOfMapFeatures`; the inner `none` is NULL. -/
def createDocumentOfMapFeatures (n : NumLib) (fetch : Str → Option Elem) (fuel : Nat) (feed : Option Elem) :
    Option (Outcome (Option Elem)) :=
  match feed with
  | none => some (.ok none)
  | some f => (documentLoop n fetch fuel f (newNode Ty.«Document»)).map fun r => r >>= fun d => .ok (some d)

/-- atom_util.cc 222-238 `HackParseElement`: key and value. -/
def hackParseElement (element : Str) : Option (Str × Str) :=
  match find element ['|'] 0 with
  | none => none
  | some pipe =>
    match find element ['>'] (pipe + 1) with
    | none => none
    | some gt =>
      match find element ['<'] (gt + 1) with
      | none => none
      | some lt => some ((element.drop (pipe + 1)).take (gt - pipe - 1), (element.drop (gt + 1)).take (lt - gt - 1))

/-- atom_util.cc 243-259 `GetGdResourceId`. -/
def getGdResourceId (entry : Elem) : Option Str :=
  entry.unknownTexts.findSome? fun u =>
    match hackParseElement u with
    | some (tag, content) => if tag = chars! "resourceId" then some content else none
    | none => none

end Kml.Dom
