import Verif.Model.Feed
import Verif.Model.Http
import Verif.Model.Namespaces
import Verif.Model.KmlFile
import Verif.Model.ParseNs

/-!
# The clients of Google's services (src/kml/convenience/google_maps_data.cc, google_doc_list.cc, google_spreadsheets.cc,
google_picasa_web.cc)

The other end is a parameter: its answer to a request, after the requests before it.  `SendRequest` is a method of the
`HttpClient`, which adds its own headers.
-/

namespace Kml.Dom

open Kml
open Kml.Http (Client Request Headers pushHeader Method)

/-- A `SendRequest` and what is behind it: nothing is false; otherwise the text of the response. -/
abbrev Server := List Request → Client → Request → Option Str

/-- mimetypes.cc 32-35. -/
def atomMimeType : Str := chars! "application/atom+xml"
/-- mimetypes.cc 32-35. -/
def csvMimeType : Str := chars! "text/csv"
/-- mimetypes.cc 32-35. -/
def kmlMimeType : Str := chars! "application/vnd.google-earth.kml+xml"

/-- What the four classes differ in: the constants at the top of each file. -/
structure ServiceKind where
  serviceName : Str
  scope : Str
  metaFeed : Str
  version : Str
  variableName : Str
  deriving DecidableEq, Repr

/-- google_maps_data.cc 40-44, 51, 61. -/
def mapsKind : ServiceKind :=
  ⟨chars! "local", chars! "http://maps.google.com", chars! "/maps/feeds/maps/default/full", chars! "2.0",
    chars! "GOOGLE_MAPS_DATA_SCOPE"⟩
/-- google_doc_list.cc 39-43, 53, 87. -/
def docListKind : ServiceKind :=
  ⟨chars! "writely", chars! "http://docs.google.com", chars! "/feeds/default/private/full", chars! "3.0",
    chars! "GOOGLE_DOC_LIST_SCOPE"⟩
/-- google_spreadsheets.cc 35-39, 49, 55. -/
def spreadsheetsKind : ServiceKind :=
  ⟨chars! "wise", chars! "http://spreadsheets.google.com", chars! "/feeds/spreadsheets/private/full", chars! "3.0",
    chars! "GOOGLE_SPREADSHEETS_DATA_SCOPE"⟩
/-- google_picasa_web.cc 35-41, 51, 67. -/
def picasaKind : ServiceKind :=
  ⟨chars! "lh2", chars! "http://picasaweb.google.com", chars! "/data/feed/api/user/default", chars! "2",
    chars! "GOOGLE_PICASA_WEB_SCOPE"⟩

/-- The members of `GoogleMapsData`, `GoogleDocList`, `GoogleSpreadsheets` and `GooglePicasaWeb`. -/
structure Service where
  kind : ServiceKind
  client : Client
  scope : Str
  deriving DecidableEq, Repr

/-- google_maps_data.cc 47-69, google_doc_list.cc 46-96, google_spreadsheets.cc 42-63, google_picasa_web.cc 44-75: `Create`,
`GetScope` and the constructor; `none` is NULL.  `env` is `getenv`. -/
def Service.create (kind : ServiceKind) (env : Str → Option Str) (client : Option Client) : Option Service :=
  client.map fun c => ⟨kind, c.addHeader (chars! "GData-Version") kind.version, (env kind.variableName).getD kind.scope⟩

/-- What a request is made with by `GetMetaFeedXml`: google_maps_data.cc 93-96, google_doc_list.cc 102-105,
google_spreadsheets.cc 83-86, google_picasa_web.cc 81-84. -/
def Service.metaFeedRequest (s : Service) : Request := ⟨.get, s.scope ++ s.kind.metaFeed, none, none⟩

/-- google_maps_data.cc 121-125 `GetFeatureFeedXml`. -/
def featureFeedRequest (uri : Str) : Request := ⟨.get, uri, none, none⟩

/-- google_maps_data.cc 107-119 `GetFeatureFeedUri`; `none` is false. -/
def getFeatureFeedUri (entry : Option Elem) : Option Str :=
  entry.bind fun e => (e.only M.«content»).bind fun c => c.attribute (chars! "src")

/-- google_maps_data.cc 278-293 `GetSearchFeedUri`; `none` is false. -/
def getSearchFeedUri (entry : Option Elem) : Option Str :=
  (getFeatureFeedUri entry).bind fun uri =>
    if '/' ∈ uri then some ((uri.reverse.dropWhile (· ≠ '/')).reverse ++ chars! "snippet") else none

/-- google_maps_data.cc 295-302 `GetSearchFeed`. -/
def searchFeedRequest (uri parameters : Str) : Request := ⟨.get, uri ++ chars! "?" ++ parameters, none, none⟩

/-- google_maps_data.cc 305-315 `AppendBoxParameter`, for the texts `ToString` makes of the numbers. -/
def appendBoxParameter (north south east west parameters : Str) : Str :=
  parameters ++ (chars! "box=" ++ west ++ chars! "," ++ south ++ chars! "," ++ east ++ chars! "," ++ north)

/-- google_maps_data.cc 324-337 `SearchMapByBbox`, up to the parse of the answer: the request, or `none` for NULL. -/
def searchMapRequest (entry : Option Elem) (north south east west : Str) : Option Request :=
  (getSearchFeedUri entry).map fun uri => searchFeedRequest uri (appendBoxParameter north south east west [])

/-- google_maps_data.cc 339-357 `PostMedia`, the request. -/
def Service.mediaRequest (s : Service) (slug contentType data : Str) : Request :=
  ⟨.post, s.scope ++ s.kind.metaFeed,
    some (pushHeader (chars! "Slug") slug (pushHeader (chars! "Content-Type") contentType [])), some data⟩

/-- google_maps_data.cc 371-382 `GetKmlUri`; `none` is false. -/
def getKmlUri (entry : Option Elem) : Option Str :=
  entry.bind fun e => (findRelUrl e (chars! "alternate")).map fun alt => alt ++ chars! "&output=kml"

/-- google_doc_list.cc 115-122 `UploadSpreadsheet`. -/
def Service.uploadRequest (s : Service) (spreadsheet mimetype : Str) : Request :=
  ⟨.post, s.scope ++ s.kind.metaFeed, some (pushHeader (chars! "Content-Type") mimetype []), some spreadsheet⟩

/-- google_spreadsheets.cc 97-107 `DownloadSpreadsheet`: the request, or `none` for false without one. -/
def Service.downloadRequest (s : Service) (entry : Elem) (format : Str) : Option Request :=
  (getGdResourceId entry).map fun id =>
    ⟨.get, s.scope ++ chars! "/feeds/download/spreadsheets/Export?key=" ++ id ++ chars! "&exportFormat=" ++ format, none, none⟩

/-- `KmlFile::CreateFromImport` and `SerializeToString` of the file, as google_maps_data.cc 192-201 and 230-233 use them: `none`
is a NULL file. -/
def importedText (e : Elem) : Option (Outcome Str) :=
  (importFile e true).map fun _ => serializeToString (chars! "utf-8") (some e)

/-- A `POST` of an Atom entry: google_maps_data.cc 203-208, 235-241. -/
def atomPost (uri text : Str) : Request :=
  ⟨.post, uri, some (pushHeader (chars! "Content-Type") atomMimeType []), some text⟩

/-- google_maps_data.cc 188-209 `CreateMap`: the request; `none` is false without one. -/
def Service.createMapRequest (s : Service) (title summary : Str) : Outcome (Option Request) :=
  match importedText (createBasicEntry title summary) with
  | none => .ok none
  | some text => text >>= fun t => .ok (some (atomPost (s.scope ++ s.kind.metaFeed) t))

/-- The entry google_maps_data.cc 214-227 make. -/
def postedEntry (feature : Elem) : Elem :=
  (createBasicEntry (feature.text M.«name») (feature.text M.«description»)).having M.«content»
    [.node Ty.«AtomContent» ⟨StdMap.set [] (chars! "type") kmlMimeType, [], []⟩ (fun _ => []) [feature] []]

/-- google_maps_data.cc 211-242 `AddFeature`: the request.  `kml_file` is used without a check: if it is NULL that is
undefined. -/
def addFeatureRequest (uri : Str) (feature : Elem) : Outcome Request :=
  match importedText (postedEntry feature) with
  | none => .ub
  | some text => text >>= fun t => .ok (atomPost uri t)

/-- The requests of a run of `PostPlacemarks` and the number it counts to. -/
structure Posted where
  requests : List Request
  count : Nat
  deriving DecidableEq, Repr

/-- google_maps_data.cc 259-265, one round: `AddFeature` of a feature and the count. -/
def Service.postOne (s : Service) (server : Server) (uri : Str) (p : Posted) (feature : Elem) : Outcome Posted :=
  addFeatureRequest uri feature >>= fun r =>
    .ok ⟨p.requests ++ [r], if (server p.requests s.client r).isSome then p.count + 1 else p.count⟩

/-- google_maps_data.cc 256-267, the loop over the placemarks. -/
def Service.postLoop (s : Service) (server : Server) (uri : Str) : Posted → List Elem → Outcome Posted
  | p, [] => .ok p
  | p, x :: xs =>
    if (x.only M.«geometry»).isSome then s.postOne server uri p x >>= fun p' => s.postLoop server uri p' xs
    else s.postLoop server uri p xs

/-- google_maps_data.cc 244-269 `PostPlacemarks`. -/
def Service.postPlacemarks (s : Service) (server : Server) (root : Elem) (uri : Str) : Outcome Posted :=
  if root.ty = Ty.«Placemark» then s.postOne server uri ⟨[], 0⟩ root
  else s.postLoop server uri ⟨[], 0⟩ ((getElementsById root Ty.«Placemark»).map (·.2))

end Kml.Dom
