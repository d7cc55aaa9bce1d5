import Verif.Spec.Answers

/-!
# C115 What is returned of the answers of the services
-/

namespace Kml.Dom

open Kml
open Kml.Http (Client Request)

theorem run_asks {n : NumLib} {xml : NsReader} {server : Server} {sent : List Request} {s : Service} {call : ServiceCall}
    {r : Request} {t : Ty} (h : Asks s call r t) : call.run n xml server sent s = receive n xml server sent s.client r t := by
  cases h with
  | metaFeed => rfl
  | features uri => rfl
  | search e a b north south east west hb hs =>
    show s.searchMapByBbox n xml server sent (some e) north south east west = _
    unfold Service.searchMapByBbox
    rw [C92_box e a b north south east west hb hs]
  | media slug type data => rfl
  | csv title data => rfl
  | kml title data => rfl
  | feed uri => rfl
  | next f uri hu =>
    show getNextFeed n xml server sent s.client f = _
    unfold getNextFeed
    rw [hu]
    rfl

theorem asExactly_iff (t : Ty) (o : Option Elem) (e : Elem) : asExactly t o = some e ↔ o = some e ∧ e.ty = t := by
  unfold asExactly
  cases o with
  | none => exact ⟨(fun h => nomatch h), (fun h => nomatch h.1)⟩
  | some x =>
    dsimp only
    split
    · rename_i hx
      exact ⟨fun h => ⟨h, (Option.some.inj h) ▸ hx⟩, fun h => h.1⟩
    · rename_i hx
      exact ⟨(fun h => nomatch h), fun h => absurd (Option.some.inj h.1 ▸ h.2) hx⟩

theorem receive_some {n : NumLib} {xml : NsReader} {server : Server} {sent : List Request} {c : Client} {r : Request}
    {t : Ty} {text : Str} (hs : server sent c r = some text) (e : Elem) :
    receive n xml server sent c r t = .ok (some e) ↔
      (parseAtom n [] () (xml text).events = .ok (some e, ()) ∧ (xml text).accepted = true ∧ e.ty = t) := by
  unfold receive
  rw [hs]
  dsimp only
  unfold parseAtomText
  cases hp : parseAtom n [] () (xml text).events with
  | throws => exact ⟨(fun h => nomatch h), (fun h => nomatch h.1)⟩
  | ub => exact ⟨(fun h => nomatch h), (fun h => nomatch h.1)⟩
  | ok a =>
    obtain ⟨o, u⟩ := a
    show Outcome.ok (asExactly t (if (xml text).accepted = true then o else none)) = .ok (some e) ↔ _
    cases ha : (xml text).accepted with
    | false =>
      refine ⟨(fun h => nomatch h), (fun h => nomatch h.2.1)⟩
    | true =>
      rw [if_pos rfl]
      constructor
      · intro h
        obtain ⟨h1, h2⟩ := (asExactly_iff t o e).1 (Outcome.ok.inj h)
        exact ⟨by rw [h1], rfl, h2⟩
      · rintro ⟨h1, _, h2⟩
        have : o = some e := congrArg Prod.fst (Outcome.ok.inj h1)
        rw [(asExactly_iff t o e).2 ⟨this, h2⟩]

/-- **C115, answers.** If the service answers a request with an XML document, the call returns an element just if it is of
the class the call promises and it is what parsing makes of the document in which every element has the name by which the
library knows it; so it does not matter which prefixes the service uses. -/
theorem C115_answer_partial (n : NumLib) (xml : NsReader) (server : Server) (sent : List Request) (s : Service)
    (call : ServiceCall) (r : Request) (t : Ty) (h : Asks s call r t) (text : Str) (hs : server sent s.client r = some text)
    (x : Xml) (hx : IsDocument xml text x)
    (hn : x.Names (fun b name => '|' ∉ name ∧ ∀ uri, b.uriOf name = some uri → '|' ∉ uri) noScope) (e : Elem) :
    call.run n xml server sent s = .ok (some e) ↔
      (parseEvents n [] () (x.restyle Scope.known Scope.attrs noScope).events = .ok (some e, ()) ∧ e.ty = t) := by
  rw [run_asks h, receive_some hs, hx.1, hx.2, C86_atom_partial n [] () () e x noScope hn]
  exact ⟨fun h => ⟨h.1, h.2.2⟩, fun h => ⟨h.1, rfl, h.2⟩⟩

/-- **C115, only answers.** Whatever the service does, an element that a call returns is of the class it promises, and the
service has answered the request of that call with a text the XML parser accepts. -/
theorem C115_only (n : NumLib) (xml : NsReader) (server : Server) (sent : List Request) (s : Service)
    (call : ServiceCall) (r : Request) (t : Ty) (h : Asks s call r t) (e : Elem)
    (hr : call.run n xml server sent s = .ok (some e)) :
    e.ty = t ∧ ∃ text, server sent s.client r = some text ∧ (xml text).accepted = true := by
  rw [run_asks h] at hr
  cases hs : server sent s.client r with
  | none =>
    unfold receive at hr
    rw [hs] at hr
    cases hr
  | some text =>
    obtain ⟨_, h2, h3⟩ := (receive_some hs e).1 hr
    exact ⟨h3, text, rfl, h2⟩

/-- **C115, failed requests.** If a request fails the call returns NULL. -/
theorem C115_failed (n : NumLib) (xml : NsReader) (server : Server) (sent : List Request) (s : Service)
    (call : ServiceCall) (r : Request) (t : Ty) (h : Asks s call r t) (hs : server sent s.client r = none) :
    call.run n xml server sent s = .ok none := by
  rw [run_asks h]
  unfold receive
  rw [hs]

/-- **C115, nothing to ask for.** Without a next link there is no next feed, and a map whose entry has no address of its
features is not searched: NULL, whatever the service would answer. -/
theorem C115_unasked (n : NumLib) (xml : NsReader) (server : Server) (sent : List Request) (s : Service) :
    (∀ f, findRelUrl f (chars! "next") = none → (ServiceCall.next f).run n xml server sent s = .ok none) ∧
    (∀ e north south east west, (∀ uri, HasSource e uri → '/' ∉ uri) →
      (ServiceCall.search e north south east west).run n xml server sent s = .ok none) := by
  constructor
  · intro f hf
    show getNextFeed n xml server sent s.client f = _
    unfold getNextFeed
    rw [hf]
  · intro e north south east west he
    show s.searchMapByBbox n xml server sent (some e) north south east west = _
    unfold Service.searchMapByBbox searchMapRequest
    rw [(C92_search e).2.2 he]
    rfl

/-- **C115, errors.** What `PostMedia` and `PostCsv` say in `errors` is the answer of the service, also when nothing was wrong, and
nothing if the request failed. -/
theorem C115_errors (n : NumLib) (xml : NsReader) (server : Server) (sent : List Request) (s : Service)
    (slug contentType data : Str) :
    (s.postMedia n xml server sent slug contentType data).1 =
      server sent s.client (filePost (s.scope ++ s.kind.metaFeed) slug contentType data) ∧
    (s.postCsv n xml server sent slug data).1 =
      server sent s.client (filePost (s.scope ++ s.kind.metaFeed) slug (chars! "text/csv") data) := ⟨rfl, rfl⟩

/-! ### All pages -/

theorem getAndParse_feed {n : NumLib} {xml : NsReader} {server : Server} {sent : List Request} {c : Client} {uri text : Str}
    {feed : Elem} (hs : server sent c ⟨.get, uri, none, none⟩ = some text) (h : IsFeed n xml text feed) :
    getAndParseFeed n xml server sent c uri = .ok (some feed) := by
  obtain ⟨x, hx, hn, hp, ht⟩ := h
  refine (receive_some hs feed).2 ⟨?_, hx.2, ht⟩
  rw [hx.1]
  exact (C86_atom_partial n [] () () feed x noScope hn).2 hp

theorem pagesLoop_spec {n : NumLib} {xml : NsReader} {server : Server} {c : Client} {sent : List Request} {feed : Elem}
    {pages : List Elem} {requests : List Request} (hp : PagesBehind n xml server c sent feed pages requests) :
    ∀ (document : Elem) (fuel : Nat), document.complex = true → pages.length < fuel →
    (∀ f ∈ (feed :: pages).flatMap featuresOf, Held n f ∧ Everywhere Clonable f) →
    ∃ copies, AllSame copies ((feed :: pages).flatMap featuresOf) ∧ pagesLoop n xml server c fuel sent feed document =
      some (.ok (document.having M.«feature_array» (document.items M.«feature_array» ++ copies), sent ++ requests)) := by
  induction hp with
  | @last sent feed h =>
    intro document fuel hd hl hh
    obtain ⟨fuel, rfl⟩ := Nat.exists_eq_succ_of_ne_zero (Nat.ne_of_gt (Nat.lt_of_le_of_lt (Nat.zero_le _) hl))
    rw [List.flatMap_cons, List.flatMap_nil, List.append_nil] at hh ⊢
    obtain ⟨copies, h1, h2⟩ := C81_map_partial n feed document hd hh
    refine ⟨copies, h1, ?_⟩
    rw [pagesLoop, h2]
    dsimp only
    rw [h, List.append_nil]
    rfl
  | @failed sent feed uri h hs =>
    intro document fuel hd hl hh
    obtain ⟨fuel, rfl⟩ := Nat.exists_eq_succ_of_ne_zero (Nat.ne_of_gt (Nat.lt_of_le_of_lt (Nat.zero_le _) hl))
    rw [List.flatMap_cons, List.flatMap_nil, List.append_nil] at hh ⊢
    obtain ⟨copies, h1, h2⟩ := C81_map_partial n feed document hd hh
    refine ⟨copies, h1, ?_⟩
    have hg : getAndParseFeed n xml server sent c uri = .ok none := by
      unfold getAndParseFeed receive
      rw [hs]
    rw [pagesLoop, h2]
    dsimp only
    rw [h]
    dsimp only
    rw [hg]
    rfl
  | @page sent feed uri text next pages requests h hs hf _ ih =>
    intro document fuel hd hl hh
    obtain ⟨fuel, rfl⟩ := Nat.exists_eq_succ_of_ne_zero (Nat.ne_of_gt (Nat.lt_of_le_of_lt (Nat.zero_le _) hl))
    rw [List.flatMap_cons] at hh ⊢
    obtain ⟨copies, h1, h2⟩ := C81_map_partial n feed document hd fun f hf => hh f (List.mem_append.2 (.inl hf))
    obtain ⟨more, g1, g2⟩ := ih (document.having M.«feature_array» (document.items M.«feature_array» ++ copies)) fuel
      (having_complex hd _ _) (Nat.lt_of_succ_lt_succ hl) fun f hf => hh f (List.mem_append.2 (.inr hf))
    refine ⟨copies ++ more, h1.append g1, ?_⟩
    rw [pagesLoop, h2]
    dsimp only
    rw [h]
    dsimp only
    rw [getAndParse_feed hs hf]
    dsimp only
    rw [Option.getD_some, g2, having_items hd, having_twice, List.append_assoc, List.append_assoc]
    rfl

/-- **C115, all pages.** `CreateDocumentOfMapFeatures` asks the service for each page behind a feed, in order and once, and for
nothing else, and the document it returns has copies of the features of the feed and of all the pages, in order.  A page the
service fails to give ends it as the last page does.

Missing from the full property: features that cannot be cloned (C35), pages without end (`C81_endless_violated`), and
answers that are not feeds (`C115_page_violated`). -/
theorem C115_pages_partial (n : NumLib) (xml : NsReader) (server : Server) (sent : List Request) (s : Service) (feed : Elem)
    (pages : List Elem) (requests : List Request) (hp : PagesBehind n xml server s.client sent feed pages requests)
    (h : ∀ f ∈ (feed :: pages).flatMap featuresOf, Held n f ∧ Everywhere Clonable f) (fuel : Nat) (hf : pages.length < fuel) :
    ∃ copies, AllSame copies ((feed :: pages).flatMap featuresOf) ∧ s.createDocument n xml server sent fuel feed =
      some (.ok ((newNode Ty.«Document»).having M.«feature_array» copies, sent ++ requests)) := by
  obtain ⟨copies, h1, h2⟩ := pagesLoop_spec hp (newNode Ty.«Document») fuel rfl hf h
  exact ⟨copies, h1, h2⟩

/-! ### A service that answers -/

/-- A feed whose prefix for Atom is its own choice, with an entry. -/
def answeredFeed : Xml :=
  .elem (chars! "a:feed") [(chars! "xmlns:a", chars! "http://www.w3.org/2005/Atom")]
    [.elem (chars! "a:entry") [] [.elem (chars! "a:title") [] [.text (chars! "t")]]]

/-- A page. -/
def answeredPage : Xml := .empty (chars! "html") []

/-- A reader that knows two texts. -/
def twoTexts : NsReader := fun text =>
  if text = chars! "feed" then ⟨(answeredFeed.expanded noScope).events, true⟩
  else if text = chars! "page" then ⟨(answeredPage.expanded noScope).events, true⟩ else ⟨[], false⟩

/-- A service. -/
def aService : Service := ⟨mapsKind, Client.new (chars! "app"), mapsKind.scope⟩

example : IsDocument twoTexts (chars! "feed") answeredFeed := ⟨rfl, rfl⟩

example : answeredFeed.Names (fun b name => '|' ∉ name ∧ ∀ uri, b.uriOf name = some uri → '|' ∉ uri) noScope := by
  refine ⟨⟨by decide, ?_⟩, ⟨⟨by decide, ?_⟩, ⟨⟨by decide, ?_⟩, trivial, trivial⟩, trivial⟩, trivial⟩ <;>
    (intro uri h; cases h; decide)

example : (match ServiceCall.metaFeed.run NumLib.integers twoTexts (fun _ _ _ => some (chars! "feed")) [] aService with
    | .ok (some e) => some (e.ty, (e.items M.«entry_array»).map (·.text M.«title»))
    | _ => none) = some (Ty.«AtomFeed», [chars! "t"]) := by decide +kernel

/-- A feed whose next page is that feed, which has no next page. -/
example : ∃ next, PagesBehind NumLib.integers twoTexts (fun _ _ _ => some (chars! "feed")) aService.client []
    (feedOf [markEntry] [nextLink]) [next] [⟨.get, chars! "u", none, none⟩] := by
  have hn : NoBars answeredFeed := by
    refine ⟨⟨by decide, ?_⟩, ⟨⟨by decide, ?_⟩, ⟨⟨by decide, ?_⟩, trivial, trivial⟩, trivial⟩, trivial⟩ <;>
      (intro uri h; cases h; decide)
  have key : (match parseEvents NumLib.integers [] () (answeredFeed.restyle Scope.known Scope.attrs noScope).events with
      | .ok (some e, _) => decide (e.ty = Ty.«AtomFeed») && (findRelUrl e (chars! "next")).isNone
      | _ => false) = true := by decide +kernel
  cases hp : parseEvents NumLib.integers [] () (answeredFeed.restyle Scope.known Scope.attrs noScope).events with
  | throws => rw [hp] at key; cases key
  | ub => rw [hp] at key; cases key
  | ok a =>
    obtain ⟨o, u⟩ := a
    rw [hp] at key
    cases o with
    | none => cases key
    | some e =>
      simp only [Bool.and_eq_true, decide_eq_true_eq, Option.isNone_iff_eq_none] at key
      exact ⟨e, .page (nextLink_found _) rfl ⟨answeredFeed, ⟨rfl, rfl⟩, hn, hp, key.1⟩ (.last key.2)⟩

/-- An entry is wanted, but a feed comes. -/
example : (match (ServiceCall.csv [] []).run NumLib.integers twoTexts (fun _ _ _ => some (chars! "feed")) [] aService with
    | .ok none => true
    | _ => false) = true := by decide +kernel

/-- **C115 fails: pages.** If the service answers a request for a feed with a page of HTML, the call does not return NULL but
uses a pointer that was never written. -/
theorem C115_page_violated :
    Asks aService .metaFeed ⟨.get, chars! "http://maps.google.com/maps/feeds/maps/default/full", none, none⟩ Ty.«AtomFeed» ∧
    IsDocument twoTexts (chars! "page") answeredPage ∧
    ServiceCall.metaFeed.run NumLib.integers twoTexts (fun _ _ _ => some (chars! "page")) [] aService = .ub :=
  ⟨.metaFeed, ⟨rfl, rfl⟩, eq_ub (by decide +kernel)⟩

/-- **C115 fails: pages that are not given.** If the service fails when it is asked for the next page, a document is returned
as if there were none: its features are missing, and nothing tells so. -/
theorem C115_missing_violated (n : NumLib) (xml : NsReader) :
    findRelUrl (feedOf [] [nextLink]) (chars! "next") = some (chars! "u") ∧
    ∃ d, aService.createDocument n xml (fun _ _ _ => none) [] 1 (feedOf [] [nextLink]) =
      some (.ok (d, [⟨.get, chars! "u", none, none⟩])) ∧ d.ty = Ty.«Document» ∧ d.items M.«feature_array» = [] :=
  ⟨nextLink_found _, _, rfl, rfl, rfl⟩

end Kml.Dom
