import Verif.Model.Lit
import Verif.Model.Basic
/-! What file names and URIs are. -/
namespace Kml.UriFile
open Kml

/-- A text of bytes without a zero: what a file name of Unix can be. -/
def IsName (f : Str) : Prop := ∀ c ∈ f, c.toNat < 256 ∧ c ≠ '\x00'

/-- A character that RFC 3986 lets a path consist of, apart from the escapes' percent sign. -/
def PathChar (c : Char) : Prop := c.isAlphanum = true ∨ c ∈ ['-', '.', '_', '~', '/']

/-- A text that is a path in the sense of RFC 3986: such characters, and percent signs each with two hexadecimal digits. -/
inductive IsPath : Str → Prop
  | nil : IsPath []
  | char {c : Char} {s : Str} : PathChar c → IsPath s → IsPath (c :: s)
  | escape {a b : Char} {s : Str} : a ∈ "0123456789ABCDEF".toList → b ∈ "0123456789ABCDEF".toList → IsPath s →
      IsPath ('%' :: a :: b :: s)

/-- The character is the hexadecimal digit of that value, in either case. -/
def Digit (c : Char) (n : Nat) : Prop := "0123456789abcdef".toList[n]? = some c ∨ "0123456789ABCDEF".toList[n]? = some c

/-- The text stands for the name: every character for itself, or a percent sign and two hexadecimal digits for the byte of that
number. -/
inductive StandsFor : Str → Str → Prop
  | nil : StandsFor [] []
  | char {c : Char} {s f : Str} : c ≠ '%' → StandsFor s f → StandsFor (c :: s) (c :: f)
  | escape {a b : Char} {m n : Nat} {s f : Str} : Digit a m → Digit b n → StandsFor s f →
      StandsFor ('%' :: a :: b :: s) (Char.ofNat (16 * m + n) :: f)

end Kml.UriFile
