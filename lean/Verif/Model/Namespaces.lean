import Verif.Model.Walk
import Verif.Model.Serializer

/-!
# XML namespaces (src/kml/base/xml_namespaces.cc, src/kml/engine/find_xml_namespaces.cc, kml_file.cc)

The table of what the constructors set is generated from the source by a script.
-/

namespace Kml.Dom

open Kml
open Kml.Attributes (Attributes)

/-- xml_namespaces.h 37-58 `XmlnsId`: the position in the enumeration. -/
abbrev XmlnsId := Nat

/-- xml_namespaces.cc 30-51 `XmlNamespaces`, without the entry for `XMLNS_NONE`, which is never read (line 56). -/
def xmlNamespaces : List (XmlnsId × Str × Str) :=
  [(1, chars! "app", chars! "http://www.w3.org/2007/app"),
   (2, chars! "atom", chars! "http://www.w3.org/2005/Atom"),
   (3, chars! "batch", chars! "http://schemas.google.com/gdata/batch"),
   (4, chars! "docs", chars! "http://schemas.google.com/docs/2007"),
   (5, chars! "exif", chars! "http://schemas.google.com/photos/exif/2007"),
   (6, chars! "gd", chars! "http://schemas.google.com/g/2005"),
   (7, chars! "georss", chars! "http://www.georss.org/georss"),
   (8, chars! "gml", chars! "http://www.opengis.net/gml"),
   (9, chars! "gphoto", chars! "http://schemas.google.com/photos/2007"),
   (10, chars! "gpx", chars! "http://www.topografix.com/GPX/1/0"),
   (11, chars! "gx", chars! "http://www.google.com/kml/ext/2.2"),
   (12, chars! "gs", chars! "http://schemas.google.com/spreadsheets/2006"),
   (13, chars! "kml", chars! "http://www.opengis.net/kml/2.2"),
   (14, chars! "media", chars! "http://search.yahoo.com/mrss/"),
   (15, chars! "openSearch", chars! "http://a9.com/-/spec/opensearch/1.1/"),
   (16, chars! "xal", chars! "urn:oasis:names:tc:ciq:xsdschema:xAL:2.0"),
   (17, chars! "xml", chars! "http://www.w3.org/XML/1998/namespace"),
   (18, chars! "xsd", chars! "http://www.w3.org/2001/XMLSchema"),
   (19, chars! "xsi", chars! "http://www.w3.org/2001/XMLSchema-instance")]

/-- xml_namespaces.cc 53-74 `FindXmlNamespaceAndPrefix`: prefix and namespace. -/
def findXmlNamespaceAndPrefix (id : XmlnsId) : Option (Str × Str) :=
  if id = 0 then none else (xmlNamespaces.find? fun e => e.1 = id).map (·.2)

/-- What `get_xmlns` gives for an instance: what the constructor of its class sets, or that of the nearest base class that
sets it (constructors of base classes run first); xml_element.h 85: `XMLNS_NONE`, which is 0, otherwise.
atom.cc 54 `AtomAuthor`.
atom.cc 100 `AtomCategory`.
atom.cc 142 `AtomContent`.
atom.cc 230 `AtomEntry`.
atom.cc 264 `AtomFeed`.
atom.cc 296 `AtomLink`.
networklinkcontrol.cc 115 `Change`.
geometry.cc 50 `Coordinates`.
networklinkcontrol.cc 51 `Create`.
extendeddata.cc 205 `Data`.
networklinkcontrol.cc 83 `Delete`.
extendeddata.cc 257 `ExtendedData`.
gx_tour.cc 145 `GxAnimatedUpdate`.
gx_tour.cc 181 `GxFlyTo`.
overlay.cc 123 `GxLatLonQuad`.
geometry.cc 574 `GxMultiTrack`.
gx_tour.cc 79 `GxPlaylist`.
extendeddata.cc 94 `GxSimpleArrayData`.
schema.cc 94 `GxSimpleArrayField`.
gx_tour.cc 244 `GxSoundCue`.
gx_timeprimitive.cc 37 `GxTimeSpan`.
gx_timeprimitive.cc 47 `GxTimeStamp`.
gx_tour.cc 41 `GxTour`.
gx_tour.cc 276 `GxTourControl`.
geometry.cc 483 `GxTrack`.
gx_tour.cc 226 `GxWait`.
kml.cc 38 `Kml`.
extendeddata.cc 297 `Metadata`.
networklinkcontrol.cc 209 `NetworkLinkControl`.
object.cc 37 `Object`.
extendeddata.cc 141 `SchemaData`.
extendeddata.cc 45 `SimpleData`.
schema.cc 43 `SimpleField`.
snippet.cc 40 `SnippetCommon`.
networklinkcontrol.cc 148 `Update`.
xal.cc 40 `XalAddressDetails`.
xal.cc 68 `XalAdministrativeArea`.
xal.cc 108 `XalCountry`.
xal.cc 142 `XalLocality`.
xal.cc 178 `XalPostalCode`.
xal.cc 205 `XalSubAdministrativeArea`.
xal.cc 240 `XalThoroughfare`.
-/
def xmlnsTable : List (Ty × XmlnsId) :=
  [(Ty.«Alias», 13),
   (Ty.«AtomAuthor», 2),
   (Ty.«AtomCategory», 2),
   (Ty.«AtomContent», 2),
   (Ty.«AtomEntry», 2),
   (Ty.«AtomFeed», 2),
   (Ty.«AtomLink», 2),
   (Ty.«BalloonStyle», 13),
   (Ty.«Camera», 13),
   (Ty.«Change», 13),
   (Ty.«Create», 13),
   (Ty.«Data», 13),
   (Ty.«Delete», 13),
   (Ty.«Document», 13),
   (Ty.«ExtendedData», 13),
   (Ty.«Folder», 13),
   (Ty.«GroundOverlay», 13),
   (Ty.«Icon», 13),
   (Ty.«IconStyle», 13),
   (Ty.«IconStyleIcon», 13),
   (Ty.«ImagePyramid», 13),
   (Ty.«ItemIcon», 13),
   (Ty.«LabelStyle», 13),
   (Ty.«LatLonBox», 13),
   (Ty.«LatLonAltBox», 13),
   (Ty.«LinearRing», 13),
   (Ty.«LineString», 13),
   (Ty.«LineStyle», 13),
   (Ty.«Link», 13),
   (Ty.«ListStyle», 13),
   (Ty.«Location», 13),
   (Ty.«Lod», 13),
   (Ty.«LookAt», 13),
   (Ty.«Metadata», 13),
   (Ty.«Model», 13),
   (Ty.«MultiGeometry», 13),
   (Ty.«NetworkLink», 13),
   (Ty.«NetworkLinkControl», 13),
   (Ty.«Orientation», 13),
   (Ty.«Pair», 13),
   (Ty.«PhotoOverlay», 13),
   (Ty.«Placemark», 13),
   (Ty.«PolyStyle», 13),
   (Ty.«Point», 13),
   (Ty.«Polygon», 13),
   (Ty.«Region», 13),
   (Ty.«ResourceMap», 13),
   (Ty.«Scale», 13),
   (Ty.«Schema», 13),
   (Ty.«SchemaData», 13),
   (Ty.«ScreenOverlay», 13),
   (Ty.«SimpleData», 13),
   (Ty.«SimpleField», 13),
   (Ty.«Snippet», 13),
   (Ty.«Style», 13),
   (Ty.«StyleMap», 13),
   (Ty.«TimeSpan», 13),
   (Ty.«TimeStamp», 13),
   (Ty.«ViewVolume», 13),
   (Ty.«Update», 13),
   (Ty.«Url», 13),
   (Ty.«coordinates», 13),
   (Ty.«hotSpot», 0),
   (Ty.«innerBoundaryIs», 0),
   (Ty.«kml», 13),
   (Ty.«linkSnippet», 13),
   (Ty.«overlayXY», 0),
   (Ty.«outerBoundaryIs», 0),
   (Ty.«rotationXY», 0),
   (Ty.«screenXY», 0),
   (Ty.«size», 0),
   (Ty.«XalAddressDetails», 16),
   (Ty.«XalAdministrativeArea», 16),
   (Ty.«XalCountry», 16),
   (Ty.«XalLocality», 16),
   (Ty.«XalPostalCode», 16),
   (Ty.«XalSubAdministrativeArea», 16),
   (Ty.«XalThoroughfare», 16),
   (Ty.«GxAnimatedUpdate», 11),
   (Ty.«GxFlyTo», 11),
   (Ty.«GxLatLonQuad», 11),
   (Ty.«GxMultiTrack», 11),
   (Ty.«GxPlaylist», 11),
   (Ty.«GxSimpleArrayData», 11),
   (Ty.«GxSimpleArrayField», 11),
   (Ty.«GxSoundCue», 11),
   (Ty.«GxTimeSpan», 11),
   (Ty.«GxTimeStamp», 11),
   (Ty.«GxTour», 11),
   (Ty.«GxTourControl», 11),
   (Ty.«GxTrack», 11),
   (Ty.«GxWait», 11)]

/-- xml_element.h 60-62 `get_xmlns`.  A `Field` sets nothing. -/
def xmlnsOf : Elem → XmlnsId
  | .field _ _ => 0
  | .node t _ _ _ _ => ((xmlnsTable.find? fun e => e.1 = t).map (·.2)).getD 0

/-- find_xml_namespaces.cc 40-66: the namespaces put into the set: that of the element, then those of the elements
`SaveElement` is called with. -/
def namespacesFound (e : Elem) : List XmlnsId := xmlnsOf e :: (saved e).map fun r => xmlnsOf r.2

/-- find_xml_namespaces.cc 59-75 `FindXmlNamespaces`, with non-NULL arguments: a `std::set` is gone through in order. -/
def findXmlNamespaces (e : Elem) (attributes : Attributes) : Attributes :=
  ((List.range 20).filter fun id => id ∈ namespacesFound e).foldl (fun (m : Attributes) id =>
    match findXmlNamespaceAndPrefix id with
    | some (pre, ns) => Attributes.setValue m pre ns
    | none => m) attributes

/-- element.cc 146-151 `MergeXmlns`.  A `Field` never writes its attributes, so they are left out. -/
def mergeXmlns (e : Elem) (xmlns : Attributes) : Elem :=
  match e with
  | .field t s => .field t s
  | .node t a slots mis unk => .node t { a with xmlns := Attributes.mergeAttributes a.xmlns xmlns } slots mis unk

/-- find_xml_namespaces.cc 77-89 `FindAndInsertXmlNamespaces`: the element after it. -/
def findAndInsertXmlNamespaces (e : Elem) : Elem :=
  match Attributes.cutValue (findXmlNamespaces e []) (chars! "kml") with
  | (some ns, rest) => mergeXmlns e (Attributes.setValue rest (chars! "xmlns") ns)
  | (none, rest) => mergeXmlns e rest

/-- kml_file.cc 170-172 `CreateXmlHeader`. -/
def xmlHeader (encoding : Str) : Str := chars! "<?xml version=\"1.0\" encoding=\"" ++ encoding ++ chars! "\"?>\n"

/-- kml_file.cc 193-211 `SerializeToString`, with a non-NULL argument: what is appended (xml_serializer.h 73-81: nothing
without a root).  It also changes the root: `findAndInsertXmlNamespaces`. -/
def serializeToString (encoding : Str) (root : Option Elem) : Outcome Str :=
  match root with
  | none => .ok (xmlHeader encoding)
  | some e => do
    let text ← serializePretty (findAndInsertXmlNamespaces e)
    .ok (xmlHeader encoding ++ text)

/-- kml_file.cc 174-191 `SerializeToOstream`, with a non-NULL argument: what is written, or `none` for false. -/
def serializeToOstream (encoding : Str) (root : Option Elem) : Option (Outcome Str) :=
  match root with
  | none => none
  | some e => some (serializeToString encoding (some e))

end Kml.Dom
