import Verif.Model.DateTime
import Verif.Model.Basic
import Verif.Model.Lit
/-! Model of the text functions of `src/kml/base/date_time.cc`.

`strptime` and `strftime` are those of the GNU C library, for the conversions that are used here. -/
namespace Kml.DateTime
open Kml

/-- The value of a decimal digit. -/
def digitVal (c : Char) : Option Nat := if '0' ≤ c ∧ c ≤ '9' then some (c.toNat - '0'.toNat) else none

/-- The loop of `get_number` in `strptime`: up to `n` more digits, as long as a further one cannot exceed `to` by itself. -/
def digitsLoop (to : Nat) : Nat → Nat → Str → Nat × Str
  | 0, v, s => (v, s)
  | _ + 1, v, [] => (v, [])
  | n + 1, v, c :: s =>
    match digitVal c with
    | some d => if v * 10 ≤ to then digitsLoop to n (v * 10 + d) s else (v, c :: s)
    | none => (v, c :: s)

/-- `get_number (from, to, n)` in `strptime`: blanks, then one to `n` digits; the value has to be in the range. -/
def getNumber (lo to n : Nat) (s : Str) : Option (Nat × Str) :=
  match s.dropWhile (· = ' ') with
  | [] => none
  | c :: s =>
    (digitVal c).bind fun d =>
      if lo ≤ (digitsLoop to (n - 1) d s).1 ∧ (digitsLoop to (n - 1) d s).1 ≤ to then some (digitsLoop to (n - 1) d s) else none

/-- `match_char` in `strptime`. -/
def matchChar (c : Char) : Str → Option Str
  | [] => none
  | a :: s => if a = c then some s else none

/-- date_time.cc 114-117 `ParseXsdDateTime`: `strptime` with `%Y-%m-%dT%H:%M:%SZ`, whose result is not NULL; what follows the `Z`
is not looked at.  (A zero character ends the text; it matches nothing.) -/
def parseXsdDateTime (s : Str) : Option Tm :=
  (getNumber 0 9999 4 s).bind fun y => (matchChar '-' y.2).bind fun s =>
  (getNumber 1 12 2 s).bind fun m => (matchChar '-' m.2).bind fun s =>
  (getNumber 1 31 2 s).bind fun d => (matchChar 'T' d.2).bind fun s =>
  (getNumber 0 23 2 s).bind fun h => (matchChar ':' h.2).bind fun s =>
  (getNumber 0 59 2 s).bind fun mi => (matchChar ':' mi.2).bind fun s =>
  (getNumber 0 61 2 s).bind fun sec => (matchChar 'Z' sec.2).map fun _ =>
    ⟨(y.1 : Int) - 1900, m.1 - 1, d.1, h.1, mi.1, sec.1⟩

/-- date_time.cc 39-46 `Create`; `none` is NULL. -/
def create (s : Str) : Option Tm := parseXsdDateTime s

/-- date_time.cc 49-52 `ToTimeT`. -/
def toTimeT (s : Str) : Int :=
  match create s with
  | some t => getTimeT t
  | none => 0

/-- A decimal digit. -/
def digitChar (n : Nat) : Char := Char.ofNat ('0'.toNat + n)

/-- `strftime` with a two digit conversion (`%m`, `%d`, `%H`, `%M`, `%S`), for 0 to 99. -/
def two (n : Nat) : Str := [digitChar (n / 10 % 10), digitChar (n % 10)]

/-- `strftime` with `%Y`: the year without leading zeros. -/
def year (n : Nat) : Str :=
  if n < 10 then [digitChar n]
  else if n < 100 then [digitChar (n / 10), digitChar (n % 10)]
  else if n < 1000 then [digitChar (n / 100), digitChar (n / 10 % 10), digitChar (n % 10)]
  else if n < 10000 then [digitChar (n / 1000), digitChar (n / 100 % 10), digitChar (n / 10 % 10), digitChar (n % 10)]
  else Nat.toDigits 10 n

/-- date_time.cc 87-92 `DoStrftime`: text that does not fit the buffer with its end leaves the buffer undefined. -/
def doStrftime (size : Nat) (text : Str) : Outcome Str := if text.length < size then .ok text else .ub

/-- date_time.cc 94-96 `GetXsdTime`. -/
def getXsdTime (t : Tm) : Outcome Str :=
  doStrftime 9 (two t.hour.toNat ++ chars! ":" ++ two t.min.toNat ++ chars! ":" ++ two t.sec.toNat)

/-- date_time.cc 98-100 `GetXsdDate`. -/
def getXsdDate (t : Tm) : Outcome Str :=
  doStrftime 11 (year (t.year + 1900).toNat ++ chars! "-" ++ two (t.mon + 1) ++ chars! "-" ++ two t.mday.toNat)

/-- date_time.cc 102-104 `GetXsdDateTime`. -/
def getXsdDateTime (t : Tm) : Outcome Str :=
  getXsdDate t >>= fun d => getXsdTime t >>= fun h => .ok (d ++ chars! "T" ++ h ++ chars! "Z")

end Kml.DateTime
