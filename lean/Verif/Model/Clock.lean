import Verif.Model.DoubleArith

/-!
# Model of `src/kml/base/time_util.cc`
-/

namespace Kml.Ieee

/-- time_util.cc 64-70 `GetMicroTime`, for the seconds and microseconds that `gettimeofday` gives: each conversion, the quotient
and the sum are rounded. -/
def getMicroTime (sec usec : ℤ) : ℚ := fl (fl sec + fl (fl usec / fl 1000000))

/-- The value of a 32-bit `long` that 64 bits are cast to. -/
def toLong (n : ℕ) : ℤ := if n % 2 ^ 32 < 2 ^ 31 then (n % 2 ^ 32 : ℕ) else (n % 2 ^ 32 : ℕ) - 2 ^ 32

/-- time_util.cc 45-61 `gettimeofday` on Windows: seconds and microseconds for a `FILETIME`, the 100 nanoseconds since 1601 in two
halves.  All is 64 bits without sign, and a `long` there has 32 bits. -/
def windowsTimeOfDay (high low : ℕ) : ℤ × ℤ :=
  (toLong (((high * 2 ^ 32 + low) / 10 + (2 ^ 64 - 11644473600000000)) % 2 ^ 64 / 1000000),
    toLong (((high * 2 ^ 32 + low) / 10 + (2 ^ 64 - 11644473600000000)) % 2 ^ 64 % 1000000))

end Kml.Ieee
