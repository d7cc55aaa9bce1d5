/-!
# Common conventions of the model

A `std::string` is a list of characters, one `Char` per byte.  Undefined behaviour, an escaping C++
exception and endless recursion are outcomes of their own, so that a theorem can say that they never
(or sometimes) happen.
-/
namespace Kml

/-- `std::string` (src/kml/base/util.h: `using std::string`).  One `Char` stands for one byte. -/
abbrev Str := List Char

/-- The result of running a C++ function: a value, an uncaught C++ exception, or undefined behaviour. -/
inductive Outcome (α : Type u) where
  | ok (a : α)
  | throws
  | ub
  deriving DecidableEq, Repr

namespace Outcome

def bind (x : Outcome α) (f : α → Outcome β) : Outcome β :=
  match x with
  | ok a => f a
  | throws => throws
  | ub => ub

instance : Monad Outcome where
  pure := ok
  bind := bind

@[simp] theorem ok_bind (a : α) (f : α → Outcome β) : (Outcome.ok a >>= f) = f a := rfl
@[simp] theorem throws_bind (f : α → Outcome β) : ((Outcome.throws : Outcome α) >>= f) = .throws := rfl
@[simp] theorem ub_bind (f : α → Outcome β) : ((Outcome.ub : Outcome α) >>= f) = .ub := rfl
@[simp] theorem pure_def (a : α) : (pure a : Outcome α) = .ok a := rfl

/-- The run had no undefined behaviour and let no exception escape. -/
def Safe (x : Outcome α) : Prop := ∃ a, x = .ok a

@[simp] theorem safe_ok (a : α) : (Outcome.ok a).Safe := ⟨a, rfl⟩
@[simp] theorem not_safe_ub : ¬ (Outcome.ub : Outcome α).Safe := by rintro ⟨_, h⟩; cases h
@[simp] theorem not_safe_throws : ¬ (Outcome.throws : Outcome α).Safe := by rintro ⟨_, h⟩; cases h

end Outcome

/-- C `isspace` in the "C" locale: space, \t, \n, \v, \f, \r.  (For a byte above 127 the C function
called with a negative `char` is formally undefined; glibc answers "no", which is what is modelled.) -/
def isSpace (c : Char) : Bool :=
  c = ' ' || c = '\t' || c = '\n' || c = '\x0b' || c = '\x0c' || c = '\r'

/-- C `isdigit` ('0' is 48, '9' is 57). -/
def isDigit (c : Char) : Bool := 48 ≤ c.toNat && c.toNat ≤ 57

/-- C `tolower` in the "C" locale ('A' is 65, 'Z' is 90). -/
def toLower (c : Char) : Char :=
  if 65 ≤ c.toNat && c.toNat ≤ 90 then Char.ofNat (c.toNat + 32) else c

/-- `const std::string::operator[]`: index `size()` yields NUL, a larger index is undefined. -/
def charAt (s : Str) (i : Nat) : Outcome Char :=
  match s[i]? with
  | some c => .ok c
  | none => if i = s.length then .ok '\x00' else .ub

/-- Position of the first occurrence of `pat` in `s` at or after the start of `s` (`string::find`). -/
def findFrom (pat : Str) : Str → Option Nat
  | [] => if pat = [] then some 0 else none
  | c :: s => if pat.isPrefixOf (c :: s) then some 0 else (findFrom pat s).map (· + 1)

/-- `s.find(pat, pos)`: `none` is `npos`. -/
def find (s pat : Str) (pos : Nat) : Option Nat :=
  if pos ≤ s.length then (findFrom pat (s.drop pos)).map (· + pos) else none

end Kml
