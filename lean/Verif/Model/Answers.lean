import Verif.Model.MapsData

/-!
# What is made of the answers (src/kml/convenience/google_maps_data.cc, google_doc_list.cc, google_spreadsheets.cc,
google_picasa_web.cc, atom_util.cc)

The other end and the XML parser are parameters.
-/

namespace Kml.Dom

open Kml
open Kml.Http (Client Request)

/-- What the XML parser does with a text: the events it delivers, and whether it accepts all of the text. -/
structure Delivered where
  events : List Ev
  accepted : Bool

/-- expat_parser.cc 144-157 on a whole text, with `XML_ParserCreateNS`; a parameter. -/
abbrev NsReader := Str → Delivered

/-- parser.cc 75-97 `Parser::ParseAtom` of a text, without observers: the events the XML parser delivers up to an error have
been handled when it fails; then the result is NULL. -/
def parseAtomText (n : NumLib) (xml : NsReader) (text : Str) : Outcome (Option Elem) :=
  parseAtom n [] () (xml text).events >>= fun r => .ok (if (xml text).accepted then r.1 else none)

/-- kml_cast.cc `AsAtomFeed` and `AsAtomEntry`: classes nothing is derived from. -/
def asExactly (t : Ty) (e : Option Elem) : Option Elem :=
  match e with
  | some x => if x.ty = t then some x else none
  | none => none

/-- What all of the calls do: a request, and if it succeeds the element of a class the answer is parsed to. -/
def receive (n : NumLib) (xml : NsReader) (server : Server) (sent : List Request) (c : Client) (r : Request) (t : Ty) :
    Outcome (Option Elem) :=
  match server sent c r with
  | none => .ok none
  | some text => parseAtomText n xml text >>= fun e => .ok (asExactly t e)

/-- google_maps_data.cc 98-104, google_doc_list.cc 107-113, google_spreadsheets.cc 88-94, google_picasa_web.cc 86-92
`GetMetaFeed`. -/
def Service.getMetaFeed (n : NumLib) (xml : NsReader) (server : Server) (sent : List Request) (s : Service) :
    Outcome (Option Elem) :=
  receive n xml server sent s.client s.metaFeedRequest Ty.«AtomFeed»

/-- google_maps_data.cc 127-134 `GetFeatureFeedByUri`. -/
def Service.getFeatureFeedByUri (n : NumLib) (xml : NsReader) (server : Server) (sent : List Request) (s : Service)
    (uri : Str) : Outcome (Option Elem) :=
  receive n xml server sent s.client (featureFeedRequest uri) Ty.«AtomFeed»

/-- google_maps_data.cc 324-337 `SearchMapByBbox`, for the texts `ToString` makes of the box. -/
def Service.searchMapByBbox (n : NumLib) (xml : NsReader) (server : Server) (sent : List Request) (s : Service)
    (entry : Option Elem) (north south east west : Str) : Outcome (Option Elem) :=
  match searchMapRequest entry north south east west with
  | none => .ok none
  | some r => receive n xml server sent s.client r Ty.«AtomFeed»

/-- google_maps_data.cc 339-357 `PostMedia`: what `errors` is set to, if it is, and the result. -/
def Service.postMedia (n : NumLib) (xml : NsReader) (server : Server) (sent : List Request) (s : Service)
    (slug contentType data : Str) : Option Str × Outcome (Option Elem) :=
  (server sent s.client (s.mediaRequest slug contentType data),
    receive n xml server sent s.client (s.mediaRequest slug contentType data) Ty.«AtomEntry»)

/-- google_maps_data.cc 359-363 `PostCsv`. -/
def Service.postCsv (n : NumLib) (xml : NsReader) (server : Server) (sent : List Request) (s : Service)
    (title csv : Str) : Option Str × Outcome (Option Elem) :=
  s.postMedia n xml server sent title csvMimeType csv

/-- google_maps_data.cc 365-368 `PostKml`. -/
def Service.postKml (n : NumLib) (xml : NsReader) (server : Server) (sent : List Request) (s : Service)
    (title kml : Str) : Outcome (Option Elem) :=
  (s.postMedia n xml server sent title kmlMimeType kml).2

/-- atom_util.cc 201-208 `GetAndParseFeed`. -/
def getAndParseFeed (n : NumLib) (xml : NsReader) (server : Server) (sent : List Request) (c : Client) (uri : Str) :
    Outcome (Option Elem) :=
  receive n xml server sent c ⟨.get, uri, none, none⟩ Ty.«AtomFeed»

/-- atom_util.cc 211-218 `GetNextFeed`. -/
def getNextFeed (n : NumLib) (xml : NsReader) (server : Server) (sent : List Request) (c : Client) (feed : Elem) :
    Outcome (Option Elem) :=
  match findRelUrl feed (chars! "next") with
  | none => .ok none
  | some uri => getAndParseFeed n xml server sent c uri

/-- google_maps_data.cc 180-183, the loop of `CreateDocumentOfMapFeatures`, with the requests it sends: the document and all
requests; `none` if it runs for longer than the fuel lasts. -/
def pagesLoop (n : NumLib) (xml : NsReader) (server : Server) (c : Client) :
    Nat → List Request → Elem → Elem → Option (Outcome (Elem × List Request))
  | 0, _, _, _ => none
  | fuel + 1, sent, feed, document =>
    match getMapKml n (some feed) (some document) with
    | .ok (_, d) =>
      match findRelUrl feed (chars! "next") with
      | none => some (.ok (d.getD document, sent))
      | some uri =>
        match getAndParseFeed n xml server sent c uri with
        | .ok none => some (.ok (d.getD document, sent ++ [⟨.get, uri, none, none⟩]))
        | .ok (some next) => pagesLoop n xml server c fuel (sent ++ [⟨.get, uri, none, none⟩]) next (d.getD document)
        | .throws => some .throws
        | .ub => some .ub
    | .throws => some .throws
    | .ub => some .ub

/-- google_maps_data.cc 171-186 `CreateDocumentOfMapFeatures` of a feed that is there. -/
def Service.createDocument (n : NumLib) (xml : NsReader) (server : Server) (sent : List Request) (s : Service) (fuel : Nat)
    (feed : Elem) : Option (Outcome (Elem × List Request)) :=
  pagesLoop n xml server s.client fuel sent feed (newNode Ty.«Document»)

end Kml.Dom
