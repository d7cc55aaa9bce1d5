import Verif.Model.Basic
/-! Model of `src/kml/base/color32.h` and of `b2a_hex` in `src/kml/base/string_util.cc`. -/
namespace Kml.Color32
open Kml

/-- The single member `uint32_t color_abgr_` (color32.h 199). -/
abbrev Color := BitVec 32

/-- color32.h 55-57 `get_red`. -/
def getRed (c : Color) : BitVec 32 := c &&& 0x000000ff#32
/-- color32.h 58-60 `set_red`; the `unsigned char` argument is zero extended. -/
def setRed (c : Color) (v : BitVec 8) : Color := (c &&& 0xffffff00#32) ||| v.zeroExtend 32
/-- color32.h 63-65 `get_green`. -/
def getGreen (c : Color) : BitVec 32 := (c &&& 0x0000ff00#32) >>> 8
/-- color32.h 66-68 `set_green`. -/
def setGreen (c : Color) (v : BitVec 8) : Color := (c &&& 0xffff00ff#32) ||| (v.zeroExtend 32 <<< 8)
/-- color32.h 71-73 `get_blue`. -/
def getBlue (c : Color) : BitVec 32 := (c &&& 0x00ff0000#32) >>> 16
/-- color32.h 74-76 `set_blue`. -/
def setBlue (c : Color) (v : BitVec 8) : Color := (c &&& 0xff00ffff#32) ||| (v.zeroExtend 32 <<< 16)
/-- color32.h 79-81 `get_alpha`. -/
def getAlpha (c : Color) : BitVec 32 := (c &&& 0xff000000#32) >>> 24
/-- color32.h 82-84 `set_alpha`.  (`value << 24` is computed in `int` and is formally undefined for
values above 127 before C++20; every compiler gives the two's complement result modelled here.) -/
def setAlpha (c : Color) (v : BitVec 8) : Color := (c &&& 0x00ffffff#32) ||| (v.zeroExtend 32 <<< 24)

/-- color32.h 92-97 `get_color_argb`. -/
def getArgb (c : Color) : BitVec 32 :=
  (c &&& 0xff000000#32) ||| ((c &&& 0x00ff0000#32) >>> 16) ||| (c &&& 0x0000ff00#32) |||
    ((c &&& 0x000000ff#32) <<< 16)

/-- The table `map` in string_util.cc 35-36. -/
def hexMap : List Char := "0123456789abcdef".toList

/-- string_util.cc 34-39 `b2a_hex`: two lower-case hex digits of the low byte. -/
def b2aHex (i : BitVec 32) : Str :=
  [hexMap.getD ((i >>> 4) &&& 0xf#32).toNat '?', hexMap.getD (i &&& 0xf#32).toNat '?']

/-- color32.h 100-108 `to_string_abgr`. -/
def toStringAbgr (c : Color) : Str :=
  b2aHex (getAlpha c) ++ b2aHex (getBlue c) ++ b2aHex (getGreen c) ++ b2aHex (getRed c)

/-- color32.h 111-119 `to_string_argb`. -/
def toStringArgb (c : Color) : Str :=
  b2aHex (getAlpha c) ++ b2aHex (getRed c) ++ b2aHex (getGreen c) ++ b2aHex (getBlue c)

/-- color32.h 134-136: `while (isspace(s[offset])) offset++`.  Recursion on the part of the string
from `offset` on; at the end `s[size()]` is NUL, which is not white space. -/
def skipSpace : Str → Nat
  | [] => 0
  | c :: s => if isSpace c then skipSpace s + 1 else 0

/-- color32.h 142-148: the value the loop body adds for one character; characters that are not
hexadecimal digits add nothing ('0' is 48, 'a' is 97, 'f' is 102). -/
def digitValue (c : Char) : BitVec 32 :=
  let d := if isDigit c then BitVec.ofNat 32 (c.toNat - 48) else 0#32
  let l := toLower c
  if 97 ≤ l.toNat && l.toNat ≤ 102 then d + BitVec.ofNat 32 (l.toNat - 97 + 10) else d

/-- color32.h 141-149: the loop `for (i = offset; i < length + offset; ++i)` with `n` rounds to go,
reading `s[i]` (which is undefined for `i > size()`). -/
def parseLoop (s : Str) : (n i : Nat) → (out : BitVec 32) → Outcome (BitVec 32)
  | 0, _, out => .ok out
  | n + 1, i, out => do
    let c ← charAt s i
    parseLoop s n (i + 1) (out * 16#32 + digitValue c)

/-- color32.h 127-154 `set_color_abgr(const string&)` on a colour whose old value is `old`. -/
def setFromString (old : Color) (s : Str) : Outcome Color := do
  let offset := skipSpace s
  let c ← charAt s offset
  let offset := if 0 < s.length && c = '#' then offset + 1 else offset
  let length := if s.length ≥ 8 + offset then 8 else s.length
  let out ← parseLoop s length offset 0#32
  let c1 := setRed old ((out &&& 0xff#32).truncate 8)
  let c2 := setGreen c1 (((out >>> 8) &&& 0xff#32).truncate 8)
  let c3 := setBlue c2 (((out >>> 16) &&& 0xff#32).truncate 8)
  .ok (setAlpha c3 (((out >>> 24) &&& 0xff#32).truncate 8))

/-- color32.h 166-171 `set_color_argb`. -/
def setArgb (c : Color) (argb : BitVec 32) : Color :=
  let c1 := setAlpha c (((argb >>> 24) &&& 0xff#32).truncate 8)
  let c2 := setRed c1 (((argb >>> 16) &&& 0xff#32).truncate 8)
  let c3 := setGreen c2 (((argb >>> 8) &&& 0xff#32).truncate 8)
  setBlue c3 ((argb &&& 0xff#32).truncate 8)

/-- color32.h 157-163 `set_color_abgr(a, b, g, r)`. -/
def setAbgr4 (c : Color) (a b g r : BitVec 8) : Color :=
  setRed (setGreen (setBlue (setAlpha c a) b) g) r

end Kml.Color32
