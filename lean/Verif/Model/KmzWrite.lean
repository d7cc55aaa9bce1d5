import Verif.Model.Links
import Verif.Model.Serializer
/-! Model of the functions of `src/kml/engine/kmz_file.cc` that make archives and of `KmlFile::CreateFromParse`
(`src/kml/engine/kml_file.cc`).

The XML parser is a parameter: it gives the events of a text, or nothing if the text is not well formed.  So are the files of the
disk and `NormalizeHref`. -/
namespace Kml.Dom
open Kml Kml.ZipFile

/-- What is read: the bytes of an archive with these entries, or other bytes. -/
inductive Bytes where
  | archive (es : List Entry)
  | text (s : Str)

/-- kmz_file.cc 74-76 `IsKmz` with zip_file.cc 122-124 `IsZipData`.  The bytes of an archive without entries do not begin so. -/
def isKmz : Bytes → Bool
  | .archive es => !es.isEmpty
  | .text s => s.take 4 = ['P', 'K', '\x03', '\x04']

/-- kmz_file.cc 50: the name of the KML file of a new archive. -/
def defaultName : Str := "doc.kml".toList

/-- kmz_file.cc 66-71 `OpenFromString`: bytes that only begin like an archive are not opened. -/
def openKmzBytes : Bytes → Option (List Entry)
  | .archive es => openArchive es
  | .text _ => none

/-- kmz_file.cc 106-108 `ReadKml`. -/
def readKml (w : Kmz.World) (z : List Entry) : Option Str := (Kmz.readKmlAndGetPath w z).map (·.1)

/-- kml_file.cc 103-132 `ParseFromString` on a text; no file is `none`. -/
def parseFromString (n : NumLib) (xml : Str → Option (List Ev)) (kml : Str) : Outcome (Option (Elem × FileState)) :=
  match xml kml with
  | none => .ok none
  | some evs => parseFile n evs >>= fun r => .ok (r.1.map fun e => (e, r.2))

/-- kml_file.cc 45-91 `CreateFromParse`, `_CreateFromParse` and `OpenAndParseKmz`; `none` is NULL.  The bytes of an archive without
entries are no XML. -/
def createFromParse (n : NumLib) (xml : Str → Option (List Ev)) (w : Kmz.World) (data : Bytes) : Outcome (Option (Elem × FileState)) :=
  if isKmz data then
    match (openKmzBytes data).bind (readKml w) with
    | none => .ok none
    | some kml => parseFromString n xml kml
  else
    match data with
    | .archive _ => .ok none
    | .text s => parseFromString n xml s

/-- What making archives depends on: whether a file can be created at a path, the files of the disk and `NormalizeHref`. -/
structure Maker where
  canCreate : Str → Bool
  disk : Str → Option Str
  norm : Str → Option Str

/-- kmz_file.cc 192-201 `WriteKmz`: the result, and the entries of the archive that is left, if there is one.  A file that was
created is taken to exist. -/
def writeKmz (m : Maker) (kmzPath kml : Str) : Bool × Option (List Entry) :=
  if m.canCreate kmzPath then addEntry (some []) kml defaultName else (false, none)

/-- xml_serializer.cc 46-55 `SerializePretty` on a pointer that may be NULL. -/
def prettyOf : Option Elem → Outcome Str
  | none => .ok []
  | some e => serializePretty e

/-- kmz_file.cc 224-246 `CreateFromElement`: the result and the archive that is left.  A file that was created is taken to exist. -/
def createFromElement (n : NumLib) (xml : Str → Option (List Ev)) (m : Maker) (element : Option Elem) (base kmzPath : Str) :
    Outcome (Bool × Option (List Entry)) :=
  if kmzPath = [] then .ok (false, none)
  else if m.canCreate kmzPath then
    prettyOf element >>= fun kml =>
      getRelativeLinks n xml kml >>= fun links =>
        match links with
        | none => .ok (true, (addEntry (some []) kml defaultName).2)
        | some links => .ok (true, (Kmz.addFileList m.norm m.disk base links [] (addEntry (some []) kml defaultName).2).2)
  else .ok (false, none)

/-- kmz_file.cc 249-253 `CreateFromKmlFile` with a root and a URL; a NULL file is undefined. -/
def createFromKmlFile (n : NumLib) (xml : Str → Option (List Ev)) (m : Maker) (file : Option (Option Elem × Str)) (kmzPath : Str) :
    Outcome (Bool × Option (List Entry)) :=
  match file with
  | none => .ub
  | some f => createFromElement n xml m f.1 f.2 kmzPath

/-- kmz_file.cc 204-221 `CreateFromKmlFilepath`, with kml_file.cc 58-67 `CreateFromStringWithUrl`, for a KML file and not an archive.
file.cc `SplitFilePath` gives the directory. -/
def createFromKmlFilepath (n : NumLib) (xml : Str → Option (List Ev)) (m : Maker) (kmlPath kmzPath : Str) :
    Outcome (Bool × Option (List Entry)) :=
  if kmzPath = [] ∨ kmlPath = [] then .ok (false, none)
  else
    match m.disk kmlPath with
    | none => .ok (false, none)
    | some kml =>
      parseFromString n xml kml >>= fun f =>
        createFromKmlFile n xml m (f.map fun f => (some f.1, (StringUtil.splitFilePath kmlPath).1)) kmzPath

end Kml.Dom
