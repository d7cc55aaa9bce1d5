import Verif.Model.Answers
import Verif.Props.ParseNs
import Verif.Props.Services

/-!
# Calls of the services

Each call asks for one thing and wants an element of one class in return.
-/

namespace Kml.Dom

open Kml
open Kml.Http (Client Request)

/-- The calls that return what a service answers. -/
inductive ServiceCall where
  /-- `GetMetaFeed`. -/
  | metaFeed
  /-- `GetFeatureFeedByUri`. -/
  | features (uri : Str)
  /-- `SearchMapByBbox`. -/
  | search (entry : Elem) (north south east west : Str)
  /-- `PostMedia`. -/
  | media (slug contentType data : Str)
  /-- `PostCsv`. -/
  | csv (title data : Str)
  /-- `PostKml`. -/
  | kml (title data : Str)
  /-- `GetAndParseFeed`. -/
  | feed (uri : Str)
  /-- `GetNextFeed`. -/
  | next (feed : Elem)

/-- What a call returns. -/
def ServiceCall.run (n : NumLib) (xml : NsReader) (server : Server) (sent : List Request) (s : Service) :
    ServiceCall → Outcome (Option Elem)
  | .metaFeed => s.getMetaFeed n xml server sent
  | .features uri => s.getFeatureFeedByUri n xml server sent uri
  | .search e north south east west => s.searchMapByBbox n xml server sent (some e) north south east west
  | .media slug type data => (s.postMedia n xml server sent slug type data).2
  | .csv title data => (s.postCsv n xml server sent title data).2
  | .kml title data => s.postKml n xml server sent title data
  | .feed uri => getAndParseFeed n xml server sent s.client uri
  | .next f => getNextFeed n xml server sent s.client f

/-- A posted file: its type, its name and its bytes. -/
def filePost (uri slug contentType data : Str) : Request :=
  ⟨.post, uri, some [(chars! "Content-Type", contentType), (chars! "Slug", slug)], some data⟩

/-- What a call asks for, and of which class the answer is to be. -/
inductive Asks (s : Service) : ServiceCall → Request → Ty → Prop where
  | metaFeed : Asks s .metaFeed ⟨.get, s.scope ++ s.kind.metaFeed, none, none⟩ Ty.«AtomFeed»
  | features (uri : Str) : Asks s (.features uri) ⟨.get, uri, none, none⟩ Ty.«AtomFeed»
  | search (e : Elem) (a b north south east west : Str) : '/' ∉ b → HasSource e (a ++ chars! "/" ++ b) →
      Asks s (.search e north south east west) ⟨.get,
        a ++ chars! "/snippet?box=" ++ west ++ chars! "," ++ south ++ chars! "," ++ east ++ chars! "," ++ north, none, none⟩
        Ty.«AtomFeed»
  | media (slug type data : Str) :
      Asks s (.media slug type data) (filePost (s.scope ++ s.kind.metaFeed) slug type data) Ty.«AtomEntry»
  | csv (title data : Str) :
      Asks s (.csv title data) (filePost (s.scope ++ s.kind.metaFeed) title (chars! "text/csv") data) Ty.«AtomEntry»
  | kml (title data : Str) : Asks s (.kml title data)
      (filePost (s.scope ++ s.kind.metaFeed) title (chars! "application/vnd.google-earth.kml+xml") data) Ty.«AtomEntry»
  | feed (uri : Str) : Asks s (.feed uri) ⟨.get, uri, none, none⟩ Ty.«AtomFeed»
  | next (f : Elem) (uri : Str) : findRelUrl f (chars! "next") = some uri →
      Asks s (.next f) ⟨.get, uri, none, none⟩ Ty.«AtomFeed»

/-- A text is a document with the given root, as far as the XML parser is concerned. -/
def IsDocument (xml : NsReader) (text : Str) (x : Xml) : Prop :=
  (xml text).events = (x.expanded noScope).events ∧ (xml text).accepted = true

/-- No name and no namespace of a document has a bar in it. -/
def NoBars (x : Xml) : Prop :=
  x.Names (fun b name => '|' ∉ name ∧ ∀ uri, b.uriOf name = some uri → '|' ∉ uri) noScope

/-- A text is that of a feed: parsing the document, with the names by which the library knows the elements, gives it. -/
def IsFeed (n : NumLib) (xml : NsReader) (text : Str) (feed : Elem) : Prop :=
  ∃ x, IsDocument xml text x ∧ NoBars x ∧
    parseEvents n [] () (x.restyle Scope.known Scope.attrs noScope).events = .ok (some feed, ()) ∧ feed.ty = Ty.«AtomFeed»

/-- The pages behind a feed that a service gives, and the requests for them: until a page has no link to a next one, or
the service fails. -/
inductive PagesBehind (n : NumLib) (xml : NsReader) (server : Server) (c : Client) :
    List Request → Elem → List Elem → List Request → Prop where
  | last {sent : List Request} {feed : Elem} : findRelUrl feed (chars! "next") = none →
      PagesBehind n xml server c sent feed [] []
  | failed {sent : List Request} {feed : Elem} {uri : Str} : findRelUrl feed (chars! "next") = some uri →
      server sent c ⟨.get, uri, none, none⟩ = none → PagesBehind n xml server c sent feed [] [⟨.get, uri, none, none⟩]
  | page {sent : List Request} {feed : Elem} {uri text : Str} {next : Elem} {pages : List Elem} {requests : List Request} :
      findRelUrl feed (chars! "next") = some uri → server sent c ⟨.get, uri, none, none⟩ = some text →
      IsFeed n xml text next → PagesBehind n xml server c (sent ++ [⟨.get, uri, none, none⟩]) next pages requests →
      PagesBehind n xml server c sent feed (next :: pages) (⟨.get, uri, none, none⟩ :: requests)

end Kml.Dom
