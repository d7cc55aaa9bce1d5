import Verif.Model.Lit
import Verif.Model.Basic
/-! Model of the functions of `src/kml/base/uri_parser.cc` between file names and URIs, and of their namesakes in
`src/kml/engine/kml_uri.cc`.

They call uriparser, which is not in the repository; its functions are modelled as they are in uriparser 0.7 (UriFile.c, UriEscape.c).
A character is a byte. -/
namespace Kml.UriFile
open Kml

/-- A text as C sees it: up to the first zero. -/
def cstr (s : Str) : Str := s.takeWhile (· ≠ '\x00')

/-- uriparser, UriEscape.c `EscapeEx`: the characters that are copied. -/
def unreserved (c : Char) : Bool :=
  ('a' ≤ c && c ≤ 'z') || ('A' ≤ c && c ≤ 'Z') || ('0' ≤ c && c ≤ '9') || c = '-' || c = '.' || c = '_' || c = '~'

/-- uriparser, UriCommon.c `HexToLetterEx`, in upper case. -/
def hexLetter (n : Nat) : Char := if n < 10 then Char.ofNat (48 + n) else Char.ofNat (55 + n)

/-- uriparser, UriEscape.c `EscapeEx` on one character, without conversion of spaces and line breaks. -/
def escapeChar (c : Char) : Str :=
  if unreserved c then [c] else ['%', hexLetter (c.toNat / 16 % 16), hexLetter (c.toNat % 16)]

/-- uriparser, UriFile.c `FilenameToUriString` from Unix. -/
def fromUnix (f : Str) : Str :=
  (if f.head? = some '/' then chars! "file://" else []) ++ f.flatMap fun c => if c = '/' then ['/'] else escapeChar c

/-- uriparser, UriFile.c `FilenameToUriString` from Windows: the first part of an absolute name, the drive, is copied. -/
def fromWindows (f : Str) : Str :=
  if f[1]? = some ':' then
    chars! "file:///" ++ f.takeWhile (· ≠ '\\') ++
      (f.dropWhile (· ≠ '\\')).flatMap fun c => if c = '\\' then ['/'] else escapeChar c
  else f.flatMap fun c => if c = '\\' then ['/'] else escapeChar c

/-- uriparser, UriCommon.c `HexdigToInt`; `none` is a character that is no hexadecimal digit. -/
def hexValue (c : Char) : Option Nat :=
  if '0' ≤ c && c ≤ '9' then some (c.toNat - 48)
  else if 'a' ≤ c && c ≤ 'f' then some (c.toNat - 87)
  else if 'A' ≤ c && c ≤ 'F' then some (c.toNat - 55)
  else none

/-- uriparser, UriEscape.c `UnescapeInPlaceEx`, without conversion of plus signs and line breaks. -/
def unescape : Str → Str
  | [] => []
  | [a] => [a]
  | [a, b] => [a, b]
  | a :: b :: c :: s =>
    if a = '%' then
      match hexValue b with
      | none => '%' :: unescape (b :: c :: s)
      | some l =>
        match hexValue c with
        | none => '%' :: b :: unescape (c :: s)
        | some r => Char.ofNat (16 * l + r) :: unescape s
    else a :: unescape (b :: c :: s)

/-- uriparser, UriFile.c `UriStringToFilename` to Unix. -/
def toUnix (u : Str) : Str := unescape (if (chars! "file://").isPrefixOf u then u.drop 7 else u)

/-- uriparser, UriFile.c `UriStringToFilename` to Windows. -/
def toWindows (u : Str) : Str :=
  (unescape (if (chars! "file:///").isPrefixOf u then u.drop 8 else u)).map fun c => if c = '/' then '\\' else c

/-- The result of a conversion into a buffer of that size, as a string: the text and its zero must fit, and the string ends at the
first zero.  A size that is no `int` is undefined. -/
def fill (size : Nat) (text : Str) : Outcome Str :=
  if 2 ^ 31 - 1 < size then .ub
  else if size < text.length + 1 then .ub
  else .ok (cstr text)

/-- uri_parser.cc 156-170 `UriToUnixFilename` with an output. -/
def uriToUnixFilename (uri : Str) : Outcome Str :=
  if 2 ^ 31 - 1 < uri.length + 1 then .ub else fill (uri.length + 1) (toUnix (cstr uri))

/-- uri_parser.cc 172-186 `UriToWindowsFilename` with an output. -/
def uriToWindowsFilename (uri : Str) : Outcome Str :=
  if 2 ^ 31 - 1 < uri.length + 1 then .ub else fill (uri.length + 1) (toWindows (cstr uri))

/-- uri_parser.cc 196-210 `UnixFilenameToUri` with an output. -/
def unixFilenameToUri (f : Str) : Outcome Str := fill (7 + 3 * f.length + 1) (fromUnix (cstr f))

/-- uri_parser.cc 212-226 `WindowsFilenameToUri` with an output. -/
def windowsFilenameToUri (f : Str) : Outcome Str := fill (8 + 3 * f.length + 1) (fromWindows (cstr f))

/-- uri_parser.cc 147-154 `UriToFilename`, and kml_uri.cc 113-115, where Windows is the platform or is not. -/
def uriToFilename (windows : Bool) (uri : Str) : Outcome Str :=
  if windows then uriToWindowsFilename uri else uriToUnixFilename uri

/-- uri_parser.cc 188-194 `FilenameToUri`, and kml_uri.cc 117-119. -/
def filenameToUri (f : Str) : Outcome Str :=
  if '\\' ∈ f then windowsFilenameToUri f else unixFilenameToUri f

end Kml.UriFile
