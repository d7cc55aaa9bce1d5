import Verif.Model.StringUtil
/-! Model of `src/kml/base/zip_file.cc`.  The archive bytes (zlib, minizip) are not modelled: an archive is the
list of its entries in the order they were written, and deflate followed by inflate is the identity.  Names have no
NUL and are shorter than the 1024 bytes of the buffer of line 101.  Disk errors are not modelled.  `Model/Unzip.lean`
reads archives byte by byte, and `C103_refines` relates the two. -/
namespace Kml.ZipFile
open Kml.StringUtil

/-- Name and content of an entry. -/
abbrev Entry := Str × Str

/-- zip_file.cc 223-227, the path check of `AddEntry`: a leading `/` or `\`, or a leading `..`. -/
def pathRefused (path : Str) : Bool :=
  (match path.take 1 with | [c] => c = '/' || c = '\\' | _ => false) || path.take 2 = ['.', '.']

/-- zip_file.cc 220-239 `AddEntry`.  `none` is a file opened for reading, which has no `minizip_file_`. -/
def addEntry (w : Option (List Entry)) (data path : Str) : Bool × Option (List Entry) :=
  if pathRefused path then (false, w)
  else match w with
    | none => (false, none)
    | some es => (true, some (es ++ [(path, data)]))

/-- zip_file.cc 59-61 `OpenFromString` and the constructor 89-112 on the bytes of an archive with these entries.
An archive without entries does not begin with "PK\003\004" (122-124 `IsZipData`) and is not opened. -/
def openArchive (es : List Entry) : Option (List Entry) := if es = [] then none else some es

/-- zip_file.cc 141-147 `GetToc`. -/
def getToc (z : List Entry) : List Str := z.map Prod.fst

/-- zip_file.cc 126-139 `FindFirstOf`. -/
def findFirstOf (z : List Entry) (extension : Str) : Option Str :=
  (getToc z).find? fun n => stringEndsWith n extension

/-- zip_file.cc 150-158 `IsInToc`. -/
def isInToc (z : List Entry) (path : Str) : Bool := (getToc z).any fun n => n = path

/-- contrib/minizip/unzip.c 874-930 `unzLocateFile`: the first entry whose name compares equal.  Whether letter case
counts is fixed at compile time (unzip.c 66-70, 317-321). -/
def locate (caseCounts : Bool) (z : List Entry) (path : Str) : Option Entry :=
  if path.length ≥ 256 then none
  else z.find? fun e => if caseCounts then e.1 = path else e.1.map toLower = path.map toLower

/-- zip_file.cc 171-218 `GetEntry`, with `max` the `max_uncompressed_file_size_`. -/
def getEntry (caseCounts : Bool) (max : Nat) (z : List Entry) (path : Str) : Option Str :=
  if isInToc z path then
    match locate caseCounts z path with
    | none => none
    | some e => if e.2.length = 0 || e.2.length > max then none else some e.2
  else none

/-- A history of `AddEntry` calls on a new archive. -/
def write (calls : List Entry) : Option (List Entry) :=
  calls.foldl (fun w c => (addEntry w c.2 c.1).2) (some [])

end Kml.ZipFile
