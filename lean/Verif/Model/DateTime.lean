/-! Model of `src/kml/base/date_time.cc`, `DateTime::GetTimeT`.  Reading the text (`strptime`) is not modelled;
the fields of `struct tm` are the input. -/
namespace Kml.DateTime

/-- `struct tm` after `strptime`: `year` counts from 1900, `mon` from 0, `mday` from 1. -/
structure Tm where
  year : Int
  mon : Nat
  mday : Int
  hour : Int
  min : Int
  sec : Int
  deriving DecidableEq, Repr

/-- date_time.cc 57-60 `is_leap` (C `%` is `Int.tmod`). -/
def isLeap (year : Int) : Bool :=
  let y := year + 1900
  y.tmod 4 = 0 && (y.tmod 100 ≠ 0 || y.tmod 400 = 0)

/-- date_time.cc 65-67 `ndays`. -/
def ndays (leap : Bool) : List Int :=
  if leap then [31, 29, 31, 30, 31, 30, 31, 31, 30, 31, 30, 31]
  else [31, 28, 31, 30, 31, 30, 31, 31, 30, 31, 30, 31]

/-- date_time.cc 71-72: the loop over the years from 1970; `n` rounds starting at `year`. -/
def yearLoop (year : Int) : Nat → Int
  | 0 => 0
  | n + 1 => (if isLeap year then 366 else 365) + yearLoop (year + 1) n

/-- date_time.cc 74-75: the loop over the months (months beyond 11 would read outside the table and do not
come out of `strptime`). -/
def monthLoop (leap : Bool) (mon : Nat) : Int := ((ndays leap).take mon).sum

/-- date_time.cc 62-85 `DateTime::GetTimeT`. -/
def getTimeT (t : Tm) : Int :=
  let res := yearLoop 70 (t.year - 70).toNat
  let res := res + monthLoop (isLeap t.year) t.mon
  let res := res + (t.mday - 1)
  let res := res * 24 + t.hour
  let res := res * 60 + t.min
  res * 60 + t.sec

end Kml.DateTime
