import Verif.Model.Kmz
import Verif.Model.UriFile
/-! Model of `src/kml/base/uri_parser.cc` and of the functions of `src/kml/engine/kml_uri.cc` that take URIs apart and resolve them.

They call uriparser, which is not in the repository.  It implements RFC 3986 and is modelled so: `parse` is the grammar of its
appendix A, `Uri.text` section 5.3, `resolve` section 5.2.  Which texts in brackets are addresses is a parameter. -/
namespace Kml.Rfc
open Kml Kml.Kmz

/-- uriparser, Uri.h `UriAuthority`: a host in brackets is kept without them. -/
structure Authority where
  user : Option Str
  host : Str
  bracket : Bool
  port : Option Str
deriving DecidableEq

/-- uriparser, Uri.h `UriUriA`: `auth` is there if `hostText` is; `absolute` is `absolutePath`, which is not set with a host; `segs` is
the list from `pathHead` on. -/
structure Uri where
  scheme : Option Str
  auth : Option Authority
  absolute : Bool
  segs : List Str
  query : Option Str
  fragment : Option Str
deriving DecidableEq

/-- RFC 3986 appendix A `ALPHA`. -/
def isAlpha (c : Char) : Bool := ('a' ≤ c && c ≤ 'z') || ('A' ≤ c && c ≤ 'Z')

/-- RFC 3986 appendix A `DIGIT`. -/
def isDigit (c : Char) : Bool := '0' ≤ c && c ≤ '9'

/-- RFC 3986 appendix A `HEXDIG`, in both cases. -/
def isHex (c : Char) : Bool := isDigit c || ('a' ≤ c && c ≤ 'f') || ('A' ≤ c && c ≤ 'F')

/-- RFC 3986 appendix A `unreserved` and `sub-delims`. -/
def plain (c : Char) : Bool :=
  isAlpha c || isDigit c || c = '-' || c = '.' || c = '_' || c = '~' || c = '!' || c = '$' || c = '&' || c = '\'' || c = '(' || c = ')' ||
  c = '*' || c = '+' || c = ',' || c = ';' || c = '='

/-- RFC 3986 appendix A `userinfo`, and the characters of an address in brackets. -/
def userChar (c : Char) : Bool := plain c || c = ':'

/-- RFC 3986 appendix A `pchar`. -/
def pathChar (c : Char) : Bool := plain c || c = ':' || c = '@'

/-- RFC 3986 appendix A `query` and `fragment`. -/
def queryChar (c : Char) : Bool := pathChar c || c = '/' || c = '?'

/-- Characters of a kind and escaped ones. -/
def textOk (p : Char → Bool) : Str → Bool
  | [] => true
  | [c] => p c
  | [c, d] => p c && p d
  | c :: d :: e :: s => if c = '%' then isHex d && isHex e && textOk p s else p c && textOk p (d :: e :: s)

/-- RFC 3986 appendix A `scheme`. -/
def schemeOk : Str → Bool
  | [] => false
  | c :: s => isAlpha c && s.all fun c => isAlpha c || isDigit c || c = '+' || c = '-' || c = '.'

/-- What is before the first of a character, and what is behind it. -/
def cut (c : Char) (s : Str) : Str × Option Str :=
  (s.takeWhile (· ≠ c), match s.dropWhile (· ≠ c) with
    | [] => none
    | _ :: r => some r)

/-- The pieces between the slashes. -/
def pieces : Str → List Str
  | [] => [[]]
  | c :: s =>
    if c = '/' then [] :: pieces s
    else
      match pieces s with
      | [] => [[c]]
      | p :: ps => (c :: p) :: ps

/-- The pieces with slashes between. -/
def join : List Str → Str
  | [] => []
  | [s] => s
  | s :: l => s ++ '/' :: join l

/-- RFC 3986 3.1: the scheme, if there is one; `none` is a text with a colon in its first segment and no scheme before it. -/
def cutScheme (s : Str) : Option (Option Str × Str) :=
  match s.dropWhile fun c => c ≠ ':' && c ≠ '/' with
  | ':' :: r => if schemeOk (s.takeWhile fun c => c ≠ ':' && c ≠ '/') then some (some (s.takeWhile fun c => c ≠ ':' && c ≠ '/'), r) else none
  | _ => some (none, s)

/-- RFC 3986 3.2.2 and 3.2.3 `host` and `port`. -/
def parseHost (ip : Str → Bool) (user : Option Str) (s : Str) : Option Authority :=
  match s with
  | '[' :: s =>
    match cut ']' s with
    | (host, some rest) =>
      if host.all userChar && ip host then
        match rest with
        | [] => some ⟨user, host, true, none⟩
        | c :: port => if c = ':' && port.all isDigit then some ⟨user, host, true, some port⟩ else none
      else none
    | _ => none
  | s => if textOk plain (cut ':' s).1 && ((cut ':' s).2.all fun p => p.all isDigit) then some ⟨user, (cut ':' s).1, false, (cut ':' s).2⟩ else none

/-- RFC 3986 3.2 `authority`. -/
def parseAuthority (ip : Str → Bool) (s : Str) : Option Authority :=
  match cut '@' s with
  | (a, some b) => if textOk userChar a then parseHost ip (some a) b else none
  | (a, none) => parseHost ip none a

/-- RFC 3986 3.3: the segments of a path without its first slash. -/
def parseSegs (s : Str) : Option (List Str) :=
  if (pieces s).all (textOk pathChar) then some (pieces s) else none

/-- RFC 3986 3 `hier-part` and `relative-part`. -/
def parseHier (ip : Str → Bool) (scheme query fragment : Option Str) (s : Str) : Option Uri :=
  match s with
  | '/' :: '/' :: s =>
    (parseAuthority ip (s.takeWhile (· ≠ '/'))).bind fun auth =>
      match s.dropWhile (· ≠ '/') with
      | [] => some ⟨scheme, some auth, false, [], query, fragment⟩
      | _ :: r => (parseSegs r).map fun segs => ⟨scheme, some auth, false, segs, query, fragment⟩
  | ['/'] => some ⟨scheme, none, true, [], query, fragment⟩
  | '/' :: s => (parseSegs s).map fun segs => ⟨scheme, none, true, segs, query, fragment⟩
  | [] => some ⟨scheme, none, false, [], query, fragment⟩
  | s => (parseSegs s).map fun segs => ⟨scheme, none, false, segs, query, fragment⟩

/-- uriparser `uriParseUriA`: RFC 3986 4.1 `URI-reference`. -/
def parse (ip : Str → Bool) (s : Str) : Option Uri :=
  if ((cut '#' s).2.all (textOk queryChar)) && ((cut '?' (cut '#' s).1).2.all (textOk queryChar)) then
    (cutScheme (cut '?' (cut '#' s).1).1).bind fun r => parseHier ip r.1 (cut '?' (cut '#' s).1).2 (cut '#' s).2 r.2
  else none

/-- A part with something before it, if it is there. -/
def before (p : Str) : Option Str → Str
  | none => []
  | some s => p ++ s

/-- The text of an authority. -/
def Authority.text (a : Authority) : Str :=
  (match a.user with
    | none => []
    | some u => u ++ ['@']) ++ (if a.bracket then '[' :: a.host ++ [']'] else a.host) ++ before [':'] a.port

/-- What is before the path. -/
def Uri.prefix (u : Uri) : Str :=
  (match u.scheme with
    | none => []
    | some s => s ++ [':']) ++ before ['/', '/'] (u.auth.map Authority.text)

/-- The path. -/
def Uri.path (u : Uri) : Str := (if u.absolute || (u.auth.isSome && !u.segs.isEmpty) then ['/'] else []) ++ join u.segs

/-- uriparser `uriToStringA`: RFC 3986 5.3. -/
def Uri.text (u : Uri) : Str := u.prefix ++ u.path ++ before ['?'] u.query ++ before ['#'] u.fragment

/-- RFC 3986 5.2.4, on the segments behind the first slash; the segments that were taken over are in reverse. -/
def removeDots : List Str → List Str → List Str
  | out, [] => out.reverse
  | out, x :: s =>
    if x = ['.'] then if s = [] then ([] :: out).reverse else removeDots out s
    else if x = ['.', '.'] then if s = [] then ([] :: out.tail).reverse else removeDots out.tail s
    else removeDots (x :: out) s

/-- uriparser `ResolveAbsolutePathFlag`: with a host a path that is only a slash is one empty segment. -/
def withHost (u : Uri) : Uri :=
  if u.auth.isSome && u.absolute then { u with absolute := false, segs := if u.segs = [] then [[]] else u.segs } else u

/-- uriparser `uriAddBaseUriA`: RFC 3986 5.2.2, strict. -/
def resolve (b r : Uri) : Uri :=
  if r.scheme.isSome then { r with segs := removeDots [] r.segs }
  else if r.auth.isSome then { r with scheme := b.scheme, segs := removeDots [] r.segs }
  else if r.segs = [] && !r.absolute then
    { b with query := r.query.or b.query, fragment := r.fragment }
  else if r.absolute then
    withHost ⟨b.scheme, b.auth, true, removeDots [] r.segs, r.query, r.fragment⟩
  else ⟨b.scheme, b.auth, b.absolute, removeDots [] (b.segs.dropLast ++ r.segs), r.query, r.fragment⟩

/-- uri_parser.cc 71-78 `CreateFromParse` with 102-110 `Parse`, on a C string. -/
def createFromParse (ip : Str → Bool) (s : Str) : Option Uri := parse ip (UriFile.cstr s)

/-- kml_uri.cc 74-81 `ResolveUri` with an output: uri_parser.cc 80-93 `CreateResolvedUri`, 117-121 `Resolve` and 123-145 `ToString`.  A base
without a scheme is refused (uriparser `URI_ERROR_ADDBASE_REL_BASE`). -/
def resolveUri (ip : Str → Bool) (base relative : Str) : Option Str :=
  (createFromParse ip base).bind fun b => (createFromParse ip relative).bind fun r =>
    if b.scheme.isSome then some (resolve b r).text else none

/-- uri_parser.cc 233-236 `GetHost`. -/
def Uri.getHost (u : Uri) : Option Str := u.auth.map (·.host)

/-- uri_parser.cc 238-241 `GetPort`. -/
def Uri.getPort (u : Uri) : Option Str := u.auth.bind (·.port)

/-- uri_parser.cc 253-275 `GetPath`. -/
def Uri.getPath (u : Uri) : Option Str := if u.segs = [] then none else some (join u.segs)

/-- What `SplitUri` gives out; a string that is not assigned is `none`. -/
structure Split where
  scheme : Option Str
  host : Option Str
  port : Option Str
  path : Option Str
  query : Option Str
  fragment : Option Str
deriving DecidableEq

/-- kml_uri.cc 125-153 `SplitUri`, with uri_parser.cc 228-251; `none` is false. -/
def splitUri (ip : Str → Bool) (uri : Str) : Option Split :=
  (createFromParse ip uri).map fun u => ⟨u.scheme, u.getHost, u.getPort, u.getPath, u.query, u.fragment⟩

/-- kml_uri.cc 155-162 `SplitUriPath`. -/
def splitUriPath (ip : Str → Bool) (uri : Str) : Option Str := (createFromParse ip uri).bind Uri.getPath

/-- kml_uri.cc 164-171 `SplitUriFragment`. -/
def splitUriFragment (ip : Str → Bool) (uri : Str) : Option Str := (createFromParse ip uri).bind Uri.fragment

/-- kml_uri.cc 224-244 `ResolveModelTargetHref` with an output. -/
def resolveModelTargetHref (ip : Str → Bool) (base geometry target : Str) : Option Str :=
  (resolveUri ip base geometry).bind fun url => resolveUri ip url target

/-- The library that `GetFetchableUri` and `KmlUri` use (Kmz.lean), as the RFC has it. -/
def lib (ip : Str → Bool) : UriLib where
  parse s := (createFromParse ip s).map fun u => ⟨u.scheme.getD [], u.getHost.getD [], u.getPort.getD [], u.getPath.getD []⟩
  resolve := resolveUri ip

end Kml.Rfc
