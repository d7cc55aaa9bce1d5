import Verif.Props.Services
import Verif.Props.LinkUtil
import Verif.Props.Namespaces

/-!
# C79, C81, C84, C92, C93: what the short calls ask for
-/

namespace Kml.Dom

open Kml
open Kml.Http (Client Request)
open Kml.NetCache (Cache lookUp fetch)
open Kml.Kmz

/-! ### C84 and C92 -/

/-- **C84, fetching.** `FetchUrl` sends a request whose text is `GET` with the address and the headers of the client, and nothing
else, and gives what is answered. -/
theorem C84_fetch (send : Http.Send) (c : Client) (url : Str) :
    ∃ r, c.fetchUrl send url = send c r ∧ r.data = none ∧ ∀ response,
      c.sendRequest r response = .ok (response ++ chars! "GET " ++ url ++ chars! "\n" ++
        c.headers.flatMap fun h => h.1 ++ chars! ": " ++ h.2 ++ chars! "\n") := by
  refine ⟨⟨.get, url, none, none⟩, rfl, rfl, fun response => ?_⟩
  refine (Http.C84_request c ⟨.get, url, none, none⟩ response _).2 ⟨chars! "GET", show (Http.Method.get, chars! "GET") ∈ Http.methodWords by decide, ?_⟩
  simp [List.append_assoc]

/-- Name, address of the meta feed and version of the protocol of each service. -/
def documented : List (ServiceKind × Str × Str × Str) :=
  [(mapsKind, chars! "local", chars! "http://maps.google.com/maps/feeds/maps/default/full", chars! "2.0"),
   (docListKind, chars! "writely", chars! "http://docs.google.com/feeds/default/private/full", chars! "3.0"),
   (spreadsheetsKind, chars! "wise", chars! "http://spreadsheets.google.com/feeds/spreadsheets/private/full", chars! "3.0"),
   (picasaKind, chars! "lh2", chars! "http://picasaweb.google.com/data/feed/api/user/default", chars! "2")]

/-- **C92, the services.** A service made without a scope in the environment asks for the documented meta feed with a plain `GET`,
after a header with the documented version; its name is the documented one. -/
theorem C92_services (kind : ServiceKind) (name feed version : Str) (h : (kind, name, feed, version) ∈ documented)
    (env : Str → Option Str) (he : env kind.variableName = none) (c : Client) :
    kind.serviceName = name ∧
    ∃ s, Service.create kind env (some c) = some s ∧ s.client.headers = c.headers ++ [(chars! "GData-Version", version)] ∧
      s.metaFeedRequest = ⟨.get, feed, none, none⟩ := by
  refine ⟨?_, _, rfl, ?_, ?_⟩
  · revert h
    simp only [documented, List.mem_cons, Prod.mk.injEq, List.not_mem_nil, or_false]
    rintro (⟨rfl, rfl, _⟩ | ⟨rfl, rfl, _⟩ | ⟨rfl, rfl, _⟩ | ⟨rfl, rfl, _⟩) <;> rfl
  · revert h
    simp only [documented, List.mem_cons, Prod.mk.injEq, List.not_mem_nil, or_false]
    rintro (⟨rfl, _, _, rfl⟩ | ⟨rfl, _, _, rfl⟩ | ⟨rfl, _, _, rfl⟩ | ⟨rfl, _, _, rfl⟩) <;> rfl
  · unfold Service.metaFeedRequest
    rw [he]
    revert h
    simp only [documented, List.mem_cons, Prod.mk.injEq, List.not_mem_nil, or_false]
    rintro (⟨rfl, _, rfl, _⟩ | ⟨rfl, _, rfl, _⟩ | ⟨rfl, _, rfl, _⟩ | ⟨rfl, _, rfl, _⟩) <;> rfl

/-- The variables of the environment that give another scope. -/
theorem C92_variables : [mapsKind, docListKind, spreadsheetsKind, picasaKind].map (·.variableName) =
    [chars! "GOOGLE_MAPS_DATA_SCOPE", chars! "GOOGLE_DOC_LIST_SCOPE", chars! "GOOGLE_SPREADSHEETS_DATA_SCOPE",
      chars! "GOOGLE_PICASA_WEB_SCOPE"] := by decide

/-- **C92, the features of a map.** The address of the features of a map is the source of the content of its entry, and they are
asked for there with a plain `GET`. -/
theorem C92_features (entry : Elem) (uri : Str) :
    (getFeatureFeedUri (some entry) = some uri ↔ HasSource entry uri) ∧ getFeatureFeedUri none = none ∧
    featureFeedRequest uri = ⟨.get, uri, none, none⟩ := ⟨featureFeed_iff entry uri, rfl, rfl⟩

/-- **C81, sources.** The source of an entry is the `src` of its content, if it has one. -/
theorem C81_source (entry : Elem) (uri : Str) :
    (getContentSrc (some entry) = some uri ↔ HasSource entry uri) ∧ getContentSrc none = none :=
  ⟨featureFeed_iff entry uri, rfl⟩

example : HasSource (mapEntry (chars! "http://m/full")) (chars! "http://m/full") := ⟨_, _, rfl, rfl⟩

/-! ### C79 -/

/-- **C79, streams.** Without a root `SerializeToOstream` writes nothing and says so; otherwise it writes what
`SerializeToString` gives. -/
theorem C79_stream (encoding : Str) (root : Option Elem) :
    (serializeToOstream encoding root = none ↔ root = none) ∧
    ∀ e, root = some e → serializeToOstream encoding root = some (serializeToString encoding (some e)) := by
  cases root with
  | none => exact ⟨⟨fun _ => rfl, fun _ => rfl⟩, fun e h => by cases h⟩
  | some e => exact ⟨⟨(fun h => nomatch h), (fun h => nomatch h)⟩, fun e' h => by cases h; rfl⟩

/-! ### C93 -/

/-- **C93, absolute addresses.** A KML file that is no file of an archive, asked for by an absolute address that is in normal form,
is made of what the network has there, with this address, unless it is in the cache. -/
theorem C93_absolute {F : Type} (lib : UriLib) (w : World) (mk : Str → Str → Option F) (n : Nat) (c : Caches F) (uri : Str)
    (u : KmlUri) (hu : createRelative lib uri uri = some u) (hn : u.url = uri) (hk : u.isKmz = false)
    (hm : lookUp c.files uri = none) :
    ∃ c', c.kmlAbsolute lib w mk (n + 1) uri =
      some (((fetch w.net some c.raw.mem uri).1).bind fun content => mk content uri, c') := by
  unfold Caches.kmlAbsolute Caches.kml fetchKmlRelative
  obtain ⟨s', hd⟩ := C46_plain lib w n c.raw u hk
  rw [hu]
  dsimp only
  rw [hn] at hd ⊢
  rw [hm, hd]
  cases (fetch w.net some c.raw.mem uri).1 with
  | none => exact ⟨_, rfl⟩
  | some content =>
    dsimp only [Option.map_some, Option.bind_some]
    cases mk content uri with
    | none => exact ⟨_, rfl⟩
    | some f => exact ⟨_, rfl⟩

/-- The conditions hold for a file beside archives. -/
example : ∃ u, createRelative absLib "http://h/base.kml".toList "http://h/base.kml".toList = some u ∧
    u.url = "http://h/base.kml".toList ∧ u.isKmz = false := ⟨_, rfl, by decide, by decide⟩

end Kml.Dom
