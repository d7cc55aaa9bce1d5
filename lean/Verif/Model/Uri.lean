import Verif.Model.Basic
/-! Model of `src/kml/engine/href.cc`, of `KmzSplit` and `KmlUri::CreateRelative` in `src/kml/engine/kml_uri.cc`.
The uriparser library is a parameter. -/
namespace Kml.Uri
open Kml

/-- `s.substr(pos, len)`: throws `out_of_range` for `pos > size()`. -/
def substr (s : Str) (pos len : Nat) : Outcome Str := if pos ≤ s.length then .ok ((s.drop pos).take len) else .throws

/-- href.h 125-129: the members (`query_` is never set). -/
structure Href where
  scheme : Str := []
  netLoc : Str := []
  path : Str := []
  fragment : Str := []
  deriving DecidableEq, Repr

/-- href.cc 31-39 `ParseScheme`: the scheme and the offset behind `://`, or the unchanged scheme and 0. -/
def parseScheme (href : Str) : Outcome (Str × Nat) :=
  match find href [':', '/', '/'] 0 with
  | none => .ok ([], 0)
  | some 0 => .ok ([], 0)
  | some css => do .ok (← substr href 0 css, css + 3)

/-- href.cc 41-49 `ParseNetLoc`. -/
def parseNetLoc (href : Str) : Outcome (Str × Nat) :=
  match find href ['/'] 0 with
  | none => .ok ([], 0)
  | some slash => do .ok (← substr href 0 slash, slash + 1)

/-- href.cc 53-58: the net location and the start of the path. -/
def parseLoc (href : Str) (netLocStart : Nat) : Outcome (Str × Nat) :=
  if netLocStart > 0 then do
    let rest ← substr href netLocStart href.length
    let r ← parseNetLoc rest
    .ok (r.1, r.2 + netLocStart)
  else .ok ([], 0)

/-- href.cc 51-66 `Parse`: note the second argument of the last `substr`, which is an end and not a length. -/
def parse (href : Str) : Outcome Href := do
  let s ← parseScheme href
  let l ← parseLoc href s.2
  match find href ['#'] 0 with
  | some pound => do
    let fragment ← substr href (pound + 1) href.length
    let path ← substr href l.2 pound
    .ok ⟨s.1, l.1, path, fragment⟩
  | none => do
    let path ← substr href l.2 href.length
    .ok ⟨s.1, l.1, path, []⟩

/-- href.h 53-55 `IsRelative`. -/
def Href.isRelative (h : Href) : Bool := h.scheme.isEmpty && h.netLoc.isEmpty
/-- href.h 57-59 `IsRelativePath`. -/
def Href.isRelativePath (h : Href) : Bool := h.scheme.isEmpty && h.netLoc.isEmpty && !h.path.isEmpty
/-- href.h 61-63 `IsFragmentOnly`. -/
def Href.isFragmentOnly (h : Href) : Bool := !h.fragment.isEmpty && h.scheme.isEmpty && h.netLoc.isEmpty && h.path.isEmpty

/-- ".kmz" -/
def dotKmz : Str := ['.', 'k', 'm', 'z']

/-- kml_uri.cc 206-222 `KmzSplit`, both output strings present and empty on entry.  `none` is `false`. -/
def kmzSplit (url : Str) : Outcome (Option (Str × Str)) :=
  match find url dotKmz 0 with
  | none => .ok none
  | some kmz => do
    let kmzUrl ← substr url 0 (kmz + 4)
    if url.length > kmz + 4 then do
      let path ← substr url (kmz + 4 + 1) url.length
      .ok (some (kmzUrl, path))
    else .ok (some (kmzUrl, []))

end Kml.Uri
