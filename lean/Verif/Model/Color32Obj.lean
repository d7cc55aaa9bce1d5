import Verif.Model.Color32
/-! Model of the constructors, assignments and comparisons of `src/kml/base/color32.h`. -/
namespace Kml.Color32

/-- color32.h 38-40 `Color32()`. -/
def fresh : Color := 0xffffffff#32

/-- color32.h 44-46 `Color32(int32_t)` and 178-181 `operator=(int32_t)`: the cast of a signed number. -/
def ofSigned (i : Int) : Color := BitVec.ofInt 32 i

/-- color32.h 47-49 `Color32(a, b, g, r)`.  The shifts are of `int`; that of `a` goes into the bit of the sign, which
every compiler and C++ since 2014 have as the shift of the bits. -/
def make4 (a b g r : BitVec 8) : Color :=
  (a.zeroExtend 32 <<< 24) ||| (b.zeroExtend 32 <<< 16) ||| (g.zeroExtend 32 <<< 8) ||| r.zeroExtend 32

/-- color32.h 189-191 `operator==`. -/
def equal (c d : Color) : Bool := c == d

/-- color32.h 186-188 `operator!=`. -/
def differs (c d : Color) : Bool := !equal c d

/-- color32.h 195-197 `operator<`. -/
def less (c d : Color) : Bool := c.ult d

/-- color32.h 192-194 `operator>`. -/
def greater (c d : Color) : Bool := d.ult c

end Kml.Color32
