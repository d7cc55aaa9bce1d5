import Verif.Model.KmlFile
import Verif.Model.Kmz

/-!
# Relative links: `GetRelativeLinks` (src/kml/engine/get_links.cc) and `KmzCheckLinks`
(src/kml/convenience/kmz_check_links.cc)

The XML parser is a parameter: it gives the events of a text, or nothing if the text is not well formed.
-/

namespace Kml.Dom

open Kml

/-- get_links.cc 37-45 `GetLinks` on a text.  parser.cc 53-60: a text that is not well formed gives no root. -/
def linksOfText (n : NumLib) (xml : Str → Option (List Ev)) (kml : Str) : Outcome (Option (List Str)) :=
  match xml kml with
  | none => .ok none
  | some evs => getLinks n evs >>= fun r => .ok (if r.1 then some r.2 else none)

/-- The loop get_links.cc 57-62: the links of a list that are relative paths. -/
def keepRelative : List Str → Outcome (List Str)
  | [] => .ok []
  | l :: ls => Uri.parse l >>= fun h => keepRelative ls >>= fun r =>
      .ok (if h.isRelativePath then l :: r else r)

/-- get_links.cc 47-64 `GetRelativeLinks`: `none` is false.  The vector of the caller is empty before. -/
def getRelativeLinks (n : NumLib) (xml : Str → Option (List Ev)) (kml : Str) : Outcome (Option (List Str)) :=
  linksOfText n xml kml >>= fun r =>
    match r with
    | none => .ok none
    | some links => keepRelative links >>= fun k => .ok (some k)

/-- The loop kmz_check_links.cc 52-62: the links that are reported. -/
def missingLinks (w : Kmz.World) (z : List ZipFile.Entry) : List Str → Outcome (List Str)
  | [] => .ok []
  | l :: ls => Uri.parse l >>= fun h => missingLinks w z ls >>= fun r =>
      .ok (if h.isRelative && (ZipFile.getEntry w.caseCounts w.max z h.path).isNone then l :: r else r)

/-- kmz_check_links.cc 39-64 `KmzCheckLinks`: the result and the missing links.  The vector of the caller is empty
before. -/
def kmzCheckLinks (n : NumLib) (xml : Str → Option (List Ev)) (w : Kmz.World) (z : List ZipFile.Entry) :
    Outcome (Bool × List Str) :=
  match Kmz.readKmlAndGetPath w z with
  | none => .ok (false, [])
  | some (kml, _) => linksOfText n xml kml >>= fun r =>
    match r with
    | none => .ok (false, [])
    | some links => missingLinks w z links >>= fun m => .ok (m.isEmpty, m)

end Kml.Dom
