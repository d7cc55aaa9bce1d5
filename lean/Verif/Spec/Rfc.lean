import Verif.Model.Rfc
/-! Specification for URIs: which ones are well formed (RFC 3986), and the parts of one. -/
namespace Kml.Rfc
open Kml

/-- An authority by the grammar. -/
structure Authority.Ok (ip : Str → Bool) (a : Authority) : Prop where
  user : ∀ u, a.user = some u → textOk userChar u = true
  host : a.bracket = false → textOk plain a.host = true
  address : a.bracket = true → a.host.all userChar = true ∧ ip a.host = true
  port : ∀ p, a.port = some p → p.all isDigit = true

/-- A URI or a relative reference by the grammar.
 * Without an authority the path does not begin with two slashes, and a path that begins with none has a first segment that is not empty.
 * Without anything before it the first segment has no colon. -/
structure Uri.Ok (ip : Str → Bool) (u : Uri) : Prop where
  scheme : ∀ s, u.scheme = some s → schemeOk s = true
  auth : ∀ a, u.auth = some a → a.Ok ip
  segs : ∀ s ∈ u.segs, textOk pathChar s = true
  query : ∀ s, u.query = some s → textOk queryChar s = true
  fragment : ∀ s, u.fragment = some s → textOk queryChar s = true
  absolute : u.auth ≠ none → u.absolute = false
  first : u.auth = none → u.segs.head? ≠ some []
  colon : u.scheme = none → u.auth = none → u.absolute = false → ∀ s, u.segs.head? = some s → ':' ∉ s

/-- The letters of RFC 3986. -/
def letters : Str := "abcdefghijklmnopqrstuvwxyzABCDEFGHIJKLMNOPQRSTUVWXYZ".toList

/-- The digits. -/
def digits : Str := "0123456789".toList

/-- The characters that may stand for themselves in every part. -/
def plainChars : Str := letters ++ digits ++ "-._~!$&'()*+,;=".toList

/-- A text of allowed characters and of percent signs with two hexadecimal digits each. -/
inductive Escaped (allowed : Str) : Str → Prop
  | nil : Escaped allowed []
  | char {c : Char} {s : Str} : c ∈ allowed → Escaped allowed s → Escaped allowed (c :: s)
  | escape {a b : Char} {s : Str} : a ∈ "0123456789abcdefABCDEF".toList → b ∈ "0123456789abcdefABCDEF".toList →
      Escaped allowed s → Escaped allowed ('%' :: a :: b :: s)

/-- No segment is `.` or `..`. -/
def Dotless (l : List Str) : Prop := ".".toList ∉ l ∧ "..".toList ∉ l

/-- A path that is to be taken relative to a directory: not absolute, and nothing before it. -/
def Uri.Relative (u : Uri) : Prop := u.scheme = none ∧ u.auth = none ∧ u.absolute = false ∧ u.segs ≠ []

/-- The address of a directory: with a scheme and an authority, and nothing behind the path. -/
def Uri.Directory (u : Uri) : Prop := u.scheme ≠ none ∧ u.auth ≠ none ∧ u.query = none ∧ u.fragment = none

end Kml.Rfc
