import Verif.Model.XmlChar
/-! UTF-8 and UTF-16.  The first is that of Lean's library. -/
namespace Kml.XmlChar

/-- The text in UTF-8. -/
def utf8 (s : List Char) : List UInt8 := s.flatMap String.utf8EncodeChar

/-- A character in UTF-16. -/
def utf16Char (c : Char) : List Nat :=
  if c.toNat < 0x10000 then [c.toNat]
  else [0xd800 + (c.toNat - 0x10000) / 0x400, 0xdc00 + (c.toNat - 0x10000) % 0x400]

/-- The text in UTF-16. -/
def utf16 (s : List Char) : List Nat := s.flatMap utf16Char

end Kml.XmlChar
