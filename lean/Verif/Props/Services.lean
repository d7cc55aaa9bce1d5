import Verif.Props.MapsData
import Verif.Props.Http

/-!
# C92 The requests of the services
-/

namespace Kml.Dom

open Kml
open Kml.Http (Client Request)
open Kml.StringUtil (splitStringUsing)

/-! ### Creation -/

/-- **C92, creation.** `Create` gives NULL exactly without a client; otherwise all headers of the client stay and the version of the
protocol comes after them, and the scope is that of the environment if there is one. -/
theorem C92_create (kind : ServiceKind) (env : Str → Option Str) (client : Option Client) :
    (Service.create kind env client = none ↔ client = none) ∧
    ∀ s, Service.create kind env client = some s → ∃ c, client = some c ∧ s.kind = kind ∧
      s.client.headers = c.headers ++ [(chars! "GData-Version", kind.version)] ∧ s.client.token = c.token ∧
      (∀ scope, env kind.variableName = some scope → s.scope = scope) ∧
      (env kind.variableName = none → s.scope = kind.scope) := by
  cases client with
  | none => exact ⟨⟨fun _ => rfl, fun _ => rfl⟩, fun s h => by cases h⟩
  | some c =>
    refine ⟨⟨(fun h => nomatch h), (fun h => nomatch h)⟩, fun s h => ?_⟩
    cases h
    refine ⟨c, rfl, rfl, rfl, rfl, ?_, ?_⟩
    · intro scope h
      show (env kind.variableName).getD kind.scope = scope
      rw [h]; rfl
    · intro h
      show (env kind.variableName).getD kind.scope = kind.scope
      rw [h]; rfl

example : (Service.create mapsKind (fun _ => none) (some (Client.new (chars! "a")))).map (·.metaFeedRequest.uri) =
    some (chars! "http://maps.google.com/maps/feeds/maps/default/full") := by decide

/-! ### The addresses of a map -/

/-- The map entry has this address as the source of its content. -/
def HasSource (entry : Elem) (uri : Str) : Prop :=
  ∃ c rest, entry.items M.«content» = c :: rest ∧ c.attribute (chars! "src") = some uri

theorem featureFeed_iff (entry : Elem) (uri : Str) : getFeatureFeedUri (some entry) = some uri ↔ HasSource entry uri := by
  unfold getFeatureFeedUri HasSource
  cases entry with
  | field =>
    constructor
    · intro h; cases h
    · rintro ⟨c, r, h, _⟩; cases h
  | node t a slots mis unk =>
    show ((slots M.«content»).head?.bind _) = _ ↔ ∃ c rest, slots M.«content» = c :: rest ∧ _
    cases slots M.«content» with
    | nil =>
      constructor
      · intro h; cases h
      · rintro ⟨c, r, h, _⟩; cases h
    | cons c rest =>
      constructor
      · intro h; exact ⟨c, rest, rfl, h⟩
      · rintro ⟨c', r, h, h'⟩; cases h; exact h'

theorem last_slash (a b : Str) (hb : '/' ∉ b) : ((a ++ '/' :: b).reverse.dropWhile (· ≠ '/')).reverse = a ++ ['/'] := by
  rw [List.reverse_append, List.reverse_cons, List.append_assoc,
    List.dropWhile_append_of_pos (by
      intro c hc
      refine decide_eq_true ?_
      rintro rfl
      exact hb (List.mem_reverse.1 hc))]
  simp

theorem split_last {s : Str} (h : '/' ∈ s) : ∃ a b, s = a ++ '/' :: b ∧ '/' ∉ b := by
  induction s with
  | nil => cases h
  | cons c s ih =>
    by_cases hs : '/' ∈ s
    · obtain ⟨a, b, h1, h2⟩ := ih hs
      exact ⟨c :: a, b, by rw [h1]; rfl, h2⟩
    · rcases List.mem_cons.1 h with rfl | h
      · exact ⟨[], s, rfl, hs⟩
      · exact absurd h hs

/-- **C92, the search feed.** The address of the search feed is that of the feature feed with what is after the last slash
replaced by `snippet`; there is none exactly if there is no feature feed or no slash. -/
theorem C92_search (entry : Elem) :
    (∀ a b, '/' ∉ b → HasSource entry (a ++ chars! "/" ++ b) → getSearchFeedUri (some entry) = some (a ++ chars! "/snippet")) ∧
    (getSearchFeedUri (some entry) = none ↔ ∀ uri, HasSource entry uri → '/' ∉ uri) := by
  constructor
  · intro a b hb h
    unfold getSearchFeedUri
    rw [(featureFeed_iff entry _).2 h]
    have hmem : '/' ∈ a ++ chars! "/" ++ b := by simp
    rw [Option.bind_some, if_pos hmem, show a ++ chars! "/" ++ b = a ++ '/' :: b by simp, last_slash a b hb, List.append_assoc]
    rfl
  · unfold getSearchFeedUri
    cases h : getFeatureFeedUri (some entry) with
    | none =>
      refine ⟨fun _ uri hs => ?_, fun _ => rfl⟩
      rw [(featureFeed_iff entry uri).2 hs] at h
      cases h
    | some uri =>
      rw [Option.bind_some]
      constructor
      · intro hn u hs
        rw [(featureFeed_iff entry u).2 hs] at h
        cases h
        intro hm
        rw [if_pos hm] at hn
        cases hn
      · intro hn
        rw [if_neg (hn uri ((featureFeed_iff entry uri).1 h))]

/-- An entry with a feature feed. -/
def mapEntry (uri : Str) : Elem :=
  .node Ty.«AtomEntry» .empty (setSlot (fun _ => []) M.«content»
    [.node Ty.«AtomContent» ⟨[(chars! "src", uri)], [], []⟩ (fun _ => []) [] []]) [] []

example : HasSource (mapEntry (chars! "http://m/full")) (chars! "http://m" ++ chars! "/" ++ chars! "full") ∧
    '/' ∉ chars! "full" := ⟨⟨_, _, rfl, rfl⟩, by decide⟩

/-- **C92 fails: a query.** A slash in the query of the feature feed is taken for one of the path. -/
theorem C92_query_violated : getSearchFeedUri (some (mapEntry (chars! "http://m/full?t=a/b"))) =
    some (chars! "http://m/full?t=a/snippet") := by decide +kernel

/-- **C92, search by box.** The request of `SearchMapByBbox` asks the search feed for the box, west first. -/
theorem C92_box (entry : Elem) (a b north south east west : Str) (hb : '/' ∉ b) (h : HasSource entry (a ++ chars! "/" ++ b)) :
    searchMapRequest (some entry) north south east west = some ⟨.get,
      a ++ chars! "/snippet?box=" ++ west ++ chars! "," ++ south ++ chars! "," ++ east ++ chars! "," ++ north, none, none⟩ := by
  unfold searchMapRequest
  rw [(C92_search entry).1 a b hb h]
  unfold searchFeedRequest appendBoxParameter
  simp only [Option.map_some, List.nil_append, List.append_assoc]
  rfl

/-- The parameter for a box. -/
def boxText (north south east west : Str) : Str :=
  chars! "box=" ++ west ++ chars! "," ++ south ++ chars! "," ++ east ++ chars! "," ++ north

/-- **C92, parameters.** The box comes as one more parameter after those there are, if an `&` is after each of them.

The full property is about all parameters; no `&` is added (`C92_append_violated`). -/
theorem C92_append_partial (north south east west : Str) (parameters : List Str) (hp : ∀ p ∈ parameters, '&' ∉ p)
    (hn : ∀ s ∈ [north, south, east, west], '&' ∉ s) :
    splitStringUsing (appendBoxParameter north south east west (parameters.flatMap fun p => p ++ chars! "&")) (chars! "&") =
      some (.ok (parameters ++ [boxText north south east west])) := by
  have hbox : '&' ∉ boxText north south east west := by
    unfold boxText
    simp only [List.mem_append, not_or]
    simp only [List.mem_cons, List.not_mem_nil, or_false, forall_eq_or_imp, forall_eq] at hn
    obtain ⟨h1, h2, h3, h4⟩ := hn
    exact ⟨⟨⟨⟨⟨⟨⟨by decide, h4⟩, by decide⟩, h2⟩, by decide⟩, h3⟩, by decide⟩, h1⟩
  have := StringUtil.C05_join_split '&' (parameters ++ [boxText north south east west]) (by simp) (by
    intro p h
    rcases List.mem_append.1 h with h | h
    · exact hp p h
    · rw [List.mem_singleton.1 h]; exact hbox)
  rw [← this]
  congr 1
  clear this hp
  induction parameters with
  | nil => rfl
  | cons p ps ih =>
    have h2 : StringUtil.joinWith (chars! "&") (p :: (ps ++ [boxText north south east west])) =
        p ++ '&' :: StringUtil.joinWith (chars! "&") (ps ++ [boxText north south east west]) := by
      cases ps <;> simp [StringUtil.joinWith]
    rw [List.cons_append, h2, ← ih]
    unfold appendBoxParameter
    simp only [List.flatMap_cons, List.append_assoc]
    rfl

example : (∀ p ∈ [chars! "q=a"], '&' ∉ p) ∧ ∀ s ∈ [chars! "1", chars! "-1", chars! "2.5", chars! "0"], '&' ∉ s := by decide

/-- **C92 fails: parameters.** A box after another parameter becomes part of it. -/
theorem C92_append_violated :
    splitStringUsing (appendBoxParameter (chars! "1") (chars! "2") (chars! "3") (chars! "4") (chars! "q=a")) (chars! "&") =
      some (.ok [chars! "q=abox=4,2,3,1"]) := by decide +kernel

/-- **C92, the KML of a map.** The address of the KML is that of the first alternate link with the parameter `output=kml`, if
that address has parameters.

The full property is about all addresses (`C92_kml_violated`). -/
theorem C92_kml_partial (entry : Elem) (path query : Str)
    (h : findRelUrl entry (chars! "alternate") = some (path ++ chars! "?" ++ query)) :
    getKmlUri (some entry) = some (path ++ chars! "?" ++ (query ++ chars! "&output=kml")) := by
  unfold getKmlUri
  rw [Option.bind_some, h, Option.map_some, List.append_assoc]

/-- An entry with an alternate link. -/
def altEntry (uri : Str) : Elem :=
  .node Ty.«AtomEntry» .empty (setSlot (fun _ => []) M.«link_array» [createBasicLink uri (chars! "alternate") []]) [] []

example : findRelUrl (altEntry (chars! "http://m?a=1")) (chars! "alternate") =
    some (chars! "http://m" ++ chars! "?" ++ chars! "a=1") := by decide +kernel

/-- **C92 fails: no parameters.** Without a query in the link `output=kml` is no parameter but part of the path. -/
theorem C92_kml_violated : getKmlUri (some (altEntry (chars! "http://m/a"))) = some (chars! "http://m/a&output=kml") := by
  decide +kernel

/-! ### New maps -/

attribute [local irreducible] kml22Elements Xsd.tagToId classes inc dec uintSize xmlnsTable xmlNamespaces

theorem canonical_basic (n : NumLib) {title summary : Str} (h1 : Quotable title) (h2 : Quotable summary) :
    Canonical n true 100 none (createBasicEntry title summary) := by
  unfold createBasicEntry
  refine .node entry_types.1 (by decide) ⟨fun h => absurd h (by decide), fun h => absurd h (by decide)⟩
    (attrs_empty_canonical _ _) (fun h => absurd h (by decide)) ?_ (fun h => absurd h (by decide)) (by simp) ?_ (by simp) (by simp)
  · intro m y hy
    unfold setSlot at hy ⊢
    by_cases h2 : m = M.«summary»
    · rw [if_pos h2] at hy ⊢
      rw [List.mem_singleton.1 hy]
      exact ⟨_, (entry_takes _).2, h2.symm, rfl, fun _ => rfl⟩
    rw [if_neg h2] at hy ⊢
    by_cases h3 : m = M.«title»
    · rw [if_pos h3] at hy ⊢
      rw [List.mem_singleton.1 hy]
      exact ⟨_, (entry_takes _).1, h3.symm, rfl, fun _ => rfl⟩
    rw [if_neg h3] at hy
    cases hy
  · intro m y hy
    unfold setSlot at hy
    by_cases h4 : m = M.«summary»
    · rw [if_pos h4] at hy
      rw [List.mem_singleton.1 hy]
      exact .field entry_types.2.2.2.1 h2
    rw [if_neg h4] at hy
    by_cases h3 : m = M.«title»
    · rw [if_pos h3] at hy
      rw [List.mem_singleton.1 hy]
      exact .field entry_types.2.2.1 h1
    rw [if_neg h3] at hy
    cases hy

theorem saved_basic (title summary : Str) : saved (createBasicEntry title summary) = [] := by
  unfold createBasicEntry
  rw [saved, classAt_eq entry_cls, entry_writes, if_neg content_not_coordinates.2]
  simp [Write.saves, Write.member, setSlot, savedEach, savedStray, M.«category_array», M.«content», M.«title», M.«summary»,
    M.«link_array»]

/-- **C92, a new map.** `CreateMap` posts one entry to the meta feed: it is XML, and reading it gives the title and the summary.

Missing from the full property: texts that are not quoted correctly (see C30). -/
theorem C92_new_map_partial (n : NumLib) (s : Service) (title summary : Str) (h1 : Quotable title) (h2 : Quotable summary) :
    ∃ r, s.createMapRequest title summary = .ok (some r) ∧ IsAtomPost (s.scope ++ s.kind.metaFeed) r ∧
      ∃ text evs entry, r.data = some (chars! "<?xml version=\"1.0\" encoding=\"utf-8\"?>\n" ++ text) ∧
        readXml text = some evs ∧ parseEvents n [] () (rootEvents evs) = .ok (some entry, ()) ∧ entry.ty = Ty.«AtomEntry» ∧
        entry.text M.«title» = title ∧ entry.text M.«summary» = summary ∧ getEntryFeature (some entry) = none := by
  obtain ⟨text, evs, t, a, slots, mis, unk, xm, heq, hser, hread, hparse, _⟩ :=
    C79_saved_partial n (chars! "utf-8") (createBasicEntry title summary) (canonical_basic n h1 h2) rfl content_not_coordinates.2
  unfold Service.createMapRequest importedText
  cases him : importFile (createBasicEntry title summary) true with
  | none =>
    have := ((C37_refused _ _).1 him).2
    rw [show getChildElements (createBasicEntry title summary) true = [] from saved_basic _ _] at this
    exact absurd (by
      rw [List.filterMap_cons, show (createBasicEntry title summary).objectId = none from (no_ids ..).1]
      exact List.nodup_nil) this
  | some m =>
    rw [hser]
    refine ⟨_, rfl, ⟨rfl, rfl, rfl⟩, text, evs, _, ?_, hread, hparse, ?_⟩
    · show some (_ ++ text) = _
      congr 2
    unfold createBasicEntry at heq
    injection heq with h1 h2 h3 h4 h5
    subst h1 h2 h3 h4 h5
    exact ⟨rfl, rfl, rfl, rfl⟩

example : Quotable (chars! "a<b") ∧ Quotable [] :=
  ⟨quotable_of (by decide) (by decide) (by decide), titles_quoted⟩

/-! ### Uploads and downloads -/

/-- **C92, uploads.** `PostMedia` and `UploadSpreadsheet` post the data as they are to the meta feed, with their type and, for
`PostMedia`, the name. -/
theorem C92_uploads (s : Service) (slug type data : Str) :
    s.mediaRequest slug type data = ⟨.post, s.scope ++ s.kind.metaFeed,
      some [(chars! "Content-Type", type), (chars! "Slug", slug)], some data⟩ ∧
    s.uploadRequest data type = ⟨.post, s.scope ++ s.kind.metaFeed, some [(chars! "Content-Type", type)], some data⟩ :=
  ⟨rfl, rfl⟩

/-- **C92, downloads.** A spreadsheet is asked for by the resource id of its entry; without one nothing is sent. -/
theorem C92_download (s : Service) (entry : Elem) (format : Str) :
    (getGdResourceId entry = none → s.downloadRequest entry format = none) ∧
    ∀ id, getGdResourceId entry = some id → s.downloadRequest entry format = some ⟨.get,
      s.scope ++ chars! "/feeds/download/spreadsheets/Export?key=" ++ id ++ chars! "&exportFormat=" ++ format, none, none⟩ := by
  unfold Service.downloadRequest
  refine ⟨fun h => by rw [h]; rfl, fun id h => by rw [h]; rfl⟩

example : getGdResourceId (.node Ty.«AtomEntry» .empty (fun _ => []) []
    [chars! "<http://schemas.google.com/g/2005|resourceId>spreadsheet:k</http://schemas.google.com/g/2005|resourceId>"]) =
      some (chars! "spreadsheet:k") := by decide +kernel

end Kml.Dom
