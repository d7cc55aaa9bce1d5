import Verif.Model.Numbers

/-!
# The text of a coordinates element (src/kml/dom/geometry.cc, src/kml/dom/xml_serializer.h)
-/

namespace Kml.Coords

open Kml

/-- src/kml/base/vec3.h:36-127 `Vec3`.  Each number is the text `ToString` writes for it. -/
structure Vec3 where
  lon : Str
  lat : Str
  alt : Str
  hasAlt : Bool
  deriving DecidableEq, Repr

/-- src/kml/base/vec3.h:102-106 `Vec3::operator==`: whether the altitude was given is not compared. -/
def Vec3.same (a b : Vec3) : Bool := a.lon = b.lon && a.lat = b.lat && a.alt = b.alt

/-- src/kml/base/vec3.h:39-42 the default constructor: 0, 0 and no altitude. -/
def Vec3.zero : Vec3 := ⟨['0'], ['0'], ['0'], false⟩

/-- src/kml/base/string_util.cc:179-192 `IsDecimalDoubleString`: an optional minus sign, an optional
point, a digit, and then anything.  (`isdigit` at the end of the data is asked about the terminating
NUL only after `-` or `.` was followed by something, so it is never out of range.) -/
def isDecimalDouble (s : Str) : Bool :=
  let s1 := if s.head? = some '-' then s.drop 1 else s
  let s2 := if s1.head? = some '.' then s1.drop 1 else s1
  match s2 with
  | [] => false
  | c :: _ => isDigit c

/-- The characters that may start a number: geometry.cc:93, 108, 133, 157 `'-'` and `isdigit`. -/
def numStart (c : Char) : Bool := c = '-' || isDigit c

/-- The buffers `lon`, `lat` and `alt` of geometry.cc:91, 110, 136 have room for 1024 characters, one
of them the terminating NUL that is stored at index `k`. -/
def fits (token : Str) : Bool := token.length < 1024

/-- The longitude token: geometry.cc:96 `while (*cstr && *cstr!=' ' && *cstr!='\n' && *cstr!=',')`. -/
def lonChar (c : Char) : Bool := c ≠ '\x00' && c ≠ ' ' && c ≠ '\n' && c ≠ ','

/-- The latitude and altitude tokens: geometry.cc:114-120 and 139-145. -/
def latChar (c : Char) : Bool := c ≠ '\x00' && c ≠ ',' && c ≠ ' '

/-- Skip to the next number: geometry.cc:93, 133, 157 `while(*cstr && *cstr!='-' && !isdigit(*cstr))`. -/
def skipJunk (s : Str) : Str := s.dropWhile fun c => c ≠ '\x00' && !numStart c

/-- Skip to the latitude: geometry.cc:108 `while(*cstr && *cstr!='-' && *cstr!='\n' && !isdigit(*cstr))`. -/
def skipToLat (s : Str) : Str := s.dropWhile fun c => c ≠ '\x00' && c ≠ '\n' && !numStart c

/-- geometry.cc:135-155: the altitude, read only when the latitude was not ended by a blank (`b < 1`).
An altitude token that is not a number leaves `altitude` uninitialised. -/
def parseAlt (n : NumLib) (b : Bool) (s : Str) (v : Vec3) : Outcome (Vec3 × Str) :=
  if b then .ok (v, s)
  else
    let token := s.takeWhile latChar
    let rest := s.dropWhile latChar
    if !fits token then .ub
    else if token = [] then .ok (v, rest)
    else if isDecimalDouble token then .ok ({ v with alt := n.num token, hasAlt := true }, rest)
    else .ub

/-- geometry.cc:108-130: the latitude.  A token that is not a number leaves it 0.  The result includes
`b`: whether the token was ended by a blank. -/
def parseLat (n : NumLib) (s : Str) : Outcome (Str × Bool × Str) :=
  let s := skipToLat s
  let token := s.takeWhile latChar
  let rest := s.dropWhile latChar
  if !fits token then .ub
  else .ok (if isDecimalDouble token then n.num token else ['0'], rest.head? = some ' ', rest)

/-- geometry.cc:83-162 `Coordinates::ParseVec3`.  `none` is the return value `false`, with `*nextp` not
written; otherwise the point and the text at `*nextp`.  A longitude token that is not a number leaves
`longitude` uninitialised.  The text is what `c_str()` points to; a NUL in it ends the scan just as
the terminating one does. -/
def parseVec3 (n : NumLib) (s : Str) : Outcome (Option (Vec3 × Str)) :=
  let s := skipJunk s
  let token := s.takeWhile lonChar
  if !fits token then .ub
  else if token = [] then .ok none
  else if !isDecimalDouble token then .ub
  else do
    let lat ← parseLat n (s.dropWhile lonChar)
    let v ← parseAlt n lat.2.1 (skipJunk lat.2.2)
      { Vec3.zero with lon := n.num token, lat := lat.1 }
    .ok (some (v.1, skipJunk v.2))

/-- geometry.cc:166-176 `Coordinates::Parse`, run for at most `fuel` rounds of its loop: `none` when it
is still running. -/
def parse (n : NumLib) : Nat → Str → List Vec3 → Option (Outcome (List Vec3))
  | _, [], acc => some (.ok acc)
  | 0, _ :: _, _ => none
  | fuel + 1, c :: s, acc =>
    match parseVec3 n (c :: s) with
    | .ok none => parse n fuel (c :: s) acc
    | .ok (some (v, next)) => parse n fuel next (acc ++ [v])
    | .throws => some .throws
    | .ub => some .ub

/-- src/kml/dom/xml_serializer.h:160-183 `XmlSerializer::SaveVec3` after `EmitStart`: `indents` is what
`Indent` writes and `newline` the string the serializer was made with. -/
def saveVec3 (newline indents : Str) (v : Vec3) : Str :=
  indents ++ v.lon ++ ',' :: v.lat ++ ',' :: v.alt ++ (if newline = [] then ['\n'] else newline)

/-- What `XmlSerializer` writes between the tags of a `coordinates` element with the given points:
`EmitStart` ends its tag with `Newline` (xml_serializer.h:214-234), `SaveVec3` writes each point, and
`End` writes the indentation of the end tag (xml_serializer.h:113-127).  With no points the element is
written `<coordinates/>` (xml_serializer.h:116-117). -/
def content (newline indents outdent : Str) (points : List Vec3) : Str :=
  if points = [] then [] else newline ++ points.flatMap (saveVec3 newline indents) ++ outdent

end Kml.Coords
