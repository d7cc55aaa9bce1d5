import Verif.Model.Basic
import Mathlib.Data.Int.Log
import Mathlib.Data.Rat.Floor

/-!
# What decimal texts and doubles are

Not in terms of the model: what a decimal text stands for, and which rational numbers are doubles (IEEE 754 binary64).
-/

namespace Kml.Ieee

/-- A decimal text: a sign, digits before and after the point, and an exponent, whose sign
(`true` for a minus) may be left out. -/
structure Numeral where
  neg : Bool
  whole : List (Fin 10)
  frac : List (Fin 10)
  exp : Option (Option Bool × List (Fin 10))

/-- A digit as text. -/
def digitText (d : Fin 10) : Char := "0123456789".toList[d.val]'(by simp)

/-- At least one digit before the point, and at least one in the exponent. -/
def Numeral.Proper (n : Numeral) : Prop := n.whole ≠ [] ∧ ∀ e ∈ n.exp, e.2 ≠ []

/-- How the exponent is written. -/
def powerText : Option (Option Bool × List (Fin 10)) → Str
  | none => []
  | some (none, ds) => 'e' :: ds.map digitText
  | some (some true, ds) => 'e' :: '-' :: ds.map digitText
  | some (some false, ds) => 'e' :: '+' :: ds.map digitText

/-- How it is written. -/
def Numeral.text (n : Numeral) : Str :=
  (if n.neg then ['-'] else []) ++ n.whole.map digitText ++
    (if n.frac = [] then [] else '.' :: n.frac.map digitText) ++
    powerText n.exp

/-- The number with these digits before the point. -/
def wholeValue : List (Fin 10) → ℕ
  | [] => 0
  | d :: r => d.val * 10 ^ r.length + wholeValue r

/-- The number with these digits after the point. -/
def fracValue : List (Fin 10) → ℚ
  | [] => 0
  | d :: r => ((d.val : ℚ) + fracValue r) / 10

/-- The exponent. -/
def Numeral.power (n : Numeral) : ℤ :=
  match n.exp with
  | none => 0
  | some (some true, ds) => -wholeValue ds
  | some (_, ds) => wholeValue ds

/-- The number, without its sign. -/
def Numeral.magnitude (n : Numeral) : ℚ := (wholeValue n.whole + fracValue n.frac) * 10 ^ n.power

/-- The text `s` is a decimal text for the number with this sign and magnitude. -/
def Stands (s : Str) (neg : Bool) (q : ℚ) : Prop :=
  ∃ n : Numeral, n.Proper ∧ n.text = s ∧ n.neg = neg ∧ n.magnitude = q

/-- The magnitudes of the finite doubles: 53 bits, and an exponent from -1074 to 971. -/
def IsDouble (x : ℚ) : Prop := ∃ (m : ℕ) (k : ℤ), m < 2 ^ 53 ∧ -1074 ≤ k ∧ k ≤ 971 ∧ x = m * 2 ^ k

/-- A number of at most 15 significant digits. -/
def Fifteen (q : ℚ) : Prop := ∃ (n : ℕ) (k : ℤ), n < 10 ^ 15 ∧ q = n * 10 ^ k

end Kml.Ieee
