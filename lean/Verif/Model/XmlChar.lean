import Verif.Model.Basic
/-! Model of the conversion of the texts of the XML parser to strings: `src/kml/base/expat_handler.h`.

`XML_Char` is a byte, or, where Expat is built with `XML_UNICODE`, 16 bits without sign.  A string is a list of bytes. -/
namespace Kml.XmlChar

/-- expat_handler.h 72-92 `xmlchar_to_utf8`, with `sizeof(XML_Char) == 1` or not: what is appended for one character.  `push_back`
takes the lowest eight bits. -/
def toUtf8 (wide : Bool) (c : Nat) : List UInt8 :=
  if !wide || decide (c < 0x80) then [UInt8.ofNat c]
  else if c < 0x800 then [UInt8.ofNat (0xc0 ||| c >>> 6), UInt8.ofNat (0x80 ||| (c &&& 0x3f))]
  else if c < 0xd800 || c > 0xdbff then
    [UInt8.ofNat (0xe0 ||| c >>> 12), UInt8.ofNat (0x80 ||| ((c >>> 6) &&& 0x3f)), UInt8.ofNat (0x80 ||| (c &&& 0x3f))]
  else []

/-- expat_handler.h 94-101 `xml_char_to_string` on the memory behind a pointer: up to a zero; `ub` is reading past the end. -/
def toStr (wide : Bool) : List Nat → Outcome (List UInt8)
  | [] => .ub
  | c :: mem => if c = 0 then .ok [] else toStr wide mem >>= fun s => .ok (toUtf8 wide c ++ s)

/-- expat_handler.h 113-119 `xml_char_to_string_n`: the length is given. -/
def toStrN (wide : Bool) : List Nat → Nat → Outcome (List UInt8)
  | _, 0 => .ok []
  | [], _ + 1 => .ub
  | c :: mem, n + 1 => toStrN wide mem n >>= fun s => .ok (toUtf8 wide c ++ s)

/-- expat_handler.h 103-111 `xml_char_to_string_vec` on the memory behind a pointer to pointers, where `none` is NULL. -/
def toStrVec (wide : Bool) : List (Option (List Nat)) → Outcome (List (List UInt8))
  | none :: _ => .ok []
  | some a :: some b :: mem =>
    toStr wide a >>= fun a => toStr wide b >>= fun b => toStrVec wide mem >>= fun v => .ok (a :: b :: v)
  | some a :: none :: mem =>
    toStr wide a >>= fun a => toStrVec wide mem >>= fun v => .ok (a :: [] :: v)
  | _ => .ub

end Kml.XmlChar
