import Verif.Model.Lit
import Verif.Model.Basic
/-! What an `xsd:dateTime` in universal time looks like. -/
namespace Kml.DateTime
open Kml

/-- The decimal digits, by value. -/
def numerals : Str := chars! "0123456789"

/-- A number below 100 in two digits. -/
def dd (n : Nat) : Str := [numerals.getD (n / 10) '?', numerals.getD (n % 10) '?']

/-- A number below 10000 in four digits. -/
def dddd (n : Nat) : Str := dd (n / 100) ++ dd (n % 100)

/-- Year, month, day, hour, minute and second. -/
structure Stamp where
  y : Nat
  mo : Nat
  d : Nat
  h : Nat
  mi : Nat
  s : Nat
  deriving DecidableEq, Repr

/-- `2008-10-03T09:25:42Z`. -/
def Stamp.text (t : Stamp) : Str :=
  dddd t.y ++ chars! "-" ++ dd t.mo ++ chars! "-" ++ dd t.d ++ chars! "T" ++ dd t.h ++ chars! ":" ++ dd t.mi ++ chars! ":" ++ dd t.s ++
    chars! "Z"

/-- The ranges of the numbers; 60 and 61 are leap seconds. -/
def Stamp.InRange (t : Stamp) : Prop :=
  t.y ≤ 9999 ∧ 1 ≤ t.mo ∧ t.mo ≤ 12 ∧ 1 ≤ t.d ∧ t.d ≤ 31 ∧ t.h ≤ 23 ∧ t.mi ≤ 59 ∧ t.s ≤ 61

end Kml.DateTime
