import Verif.Model.Uri
import Verif.Model.NetCache
import Verif.Model.ZipFile
/-! Model of `src/kml/engine/kmz_cache.cc`, `kmz_file.cc`, `kml_cache.cc` and of `KmlUri` (`kml_uri.cc`).  The
uriparser library and the network are parameters. -/
namespace Kml.Kmz
open Kml.Uri Kml.ZipFile

/-- The components `kmlbase::UriParser` (src/kml/base/uri_parser.cc) gives out; absent ones are empty, as in
`GetFetchableUri`. -/
structure Parts where
  scheme : Str
  host : Str
  port : Str
  path : Str

/-- The uriparser library: taking apart (`UriParser::CreateFromParse`) and resolving (`ResolveUri`,
kml_uri.cc 74-80). -/
structure UriLib where
  parse : Str → Option Parts
  resolve : Str → Str → Option Str

/-- kml_uri.cc 173-204 `GetFetchableUri` with an empty output string. -/
def fetchableUri (lib : UriLib) (uri : Str) : Option Str :=
  match lib.parse uri with
  | none => none
  | some p =>
    some ((if p.scheme ≠ [] ∧ p.host ≠ [] then
      p.scheme ++ "://".toList ++ p.host ++ (if p.port ≠ [] then ':' :: p.port else []) ++ ['/'] else []) ++ p.path)

/-- kml_uri_internal.h 101-112: the members that are read. -/
structure KmlUri where
  isKmz : Bool
  target : Str
  url : Str
  kmzUrl : Str
  pathInKmz : Str
deriving DecidableEq

/-- kml_uri.cc 50-71 `KmlUri::CreateRelative`.  (`KmzSplit` never throws: C45.) -/
def createRelative (lib : UriLib) (base target : Str) : Option KmlUri :=
  match lib.parse target, lib.resolve base target with
  | some _, some url =>
    match fetchableUri lib url with
    | none => none
    | some f =>
      match kmzSplit f with
      | .ok (some r) => some ⟨true, target, url, r.1, r.2⟩
      | _ => some ⟨false, target, url, [], []⟩
  | _, _ => none

/-- kml_uri_internal.h 91-94 `set_path_in_kmz`. -/
def KmlUri.setPathInKmz (u : KmlUri) (path : Str) : KmlUri := { u with pathInKmz := path, url := u.kmzUrl ++ ['/'] ++ path }

/-- The network, archive opening (`KmzFile::OpenFromString`) and `ZipFile` settings. -/
structure World where
  net : Str → Option Str
  openKmz : Str → Option (List Entry)
  caseCounts : Bool := true
  max : Nat

/-- The caches of a `KmzCache` (kmz_cache.h): archives and raw files. -/
structure KState where
  kmz : NetCache.Cache (List Entry)
  mem : NetCache.Cache Str

/-- kmz_file.cc 88-103 `ReadKmlAndGetPath`: content and name. -/
def readKmlAndGetPath (w : World) (z : List Entry) : Option (Str × Str) :=
  match findFirstOf z ".kml".toList with
  | none => none
  | some name => (getEntry w.caseCounts w.max z name).map fun c => (c, name)

/-- kmz_cache.cc 128-155 `FetchFromCache`: the content and the (possibly changed) URI. -/
def fetchFromCache (w : World) (s : KState) (u : KmlUri) : Option (Str × KmlUri) :=
  match NetCache.lookUp s.kmz u.kmzUrl with
  | none => none
  | some z =>
    if u.pathInKmz ≠ [] then (getEntry w.caseCounts w.max z u.pathInKmz).map fun c => (c, u)
    else (readKmlAndGetPath w z).map fun r => (r.1, u.setPathInKmz r.2)

/-- kmz_cache.cc 77-126 `DoFetchAndReturnUrl`: content and fetched URL, or a failure.  The fuel bounds the depth of
the recursion on line 125; `none` means that it was not enough. -/
def doFetch (lib : UriLib) (w : World) : Nat → KState → KmlUri → Option (Option (Str × Str) × KState)
  | 0, _, _ => none
  | fuel + 1, s, u =>
    if u.isKmz = false then
      let r := NetCache.fetch w.net some s.mem u.url
      some (r.1.map fun c => (c, u.url), { s with mem := r.2.1 })
    else
      let r := NetCache.fetch w.net w.openKmz s.kmz u.kmzUrl
      let s := { s with kmz := r.2.1 }
      match r.1 with
      | none => some (none, s)
      | some _ =>
        match fetchFromCache w s u with
        | some (c, u') => some (some (c, u'.url), s)
        | none =>
          match createRelative lib u.kmzUrl u.target with
          | none => some (none, s)
          | some u' => (doFetch lib w fuel s u').map fun r => (r.1.map fun x => (x.1, u'.url), r.2)

/-- kml_cache.cc 76-85 `FetchDataRelative`. -/
def fetchDataRelative (lib : UriLib) (w : World) (fuel : Nat) (s : KState) (base target : Str) : Option (Option Str × KState) :=
  match createRelative lib base target with
  | none => some (none, s)
  | some u => (doFetch lib w fuel s u).map fun r => (r.1.map Prod.fst, r.2)

/-- kml_cache.cc 41-66 `FetchKmlRelative`, with `KmlFile::CreateFromStringWithUrl` the parameter `mk` and `files` the
cache of parsed files. -/
def fetchKmlRelative {F : Type} (lib : UriLib) (w : World) (mk : Str → Str → Option F) (fuel : Nat) (s : KState)
    (files : NetCache.Cache F) (base target : Str) : Option (Option F × KState × NetCache.Cache F) :=
  match createRelative lib base target with
  | none => some (none, s, files)
  | some u =>
    match NetCache.lookUp files u.url with
    | some f => some (some f, s, files)
    | none =>
      match doFetch lib w fuel s u with
      | none => none
      | some (none, s) => some (none, s, files)
      | some (some (content, url), s) =>
        match mk content url with
        | none => some (none, s, files)
        | some f => some (some f, s, (NetCache.save files url (some f)).2)

/-- kmz_file.cc 140-189 `AddFileList`: the number of errors and the archive.  `norm` is `NormalizeHref`
(kml_uri.cc 90-111), `disk` is `ReadFileToString`.  (`Href` never throws: C44.) -/
def addFileList (norm : Str → Option Str) (disk : Str → Option Str) (base : Str) :
    List Str → List Str → Option (List Entry) → Nat × Option (List Entry)
  | [], _, z => (0, z)
  | itr :: rest, stored, z =>
    let path := match Uri.parse itr with | .ok h => h.path | _ => []
    match norm path with
    | none => let r := addFileList norm disk base rest stored z; (r.1 + 1, r.2)
    | some n =>
      if n.take 2 = ['.', '.'] then let r := addFileList norm disk base rest stored z; (r.1 + 1, r.2)
      else if n ∈ stored then addFileList norm disk base rest stored z
      else
        match disk (StringUtil.joinPaths base n) with
        | none => let r := addFileList norm disk base rest (n :: stored) z; (r.1 + 1, r.2)
        | some data =>
          let a := addEntry z data n
          let r := addFileList norm disk base rest (n :: stored) a.2
          if a.1 then r else (r.1 + 1, r.2)

end Kml.Kmz
