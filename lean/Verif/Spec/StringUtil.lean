import Verif.Model.Basic
/-! Specifications for the string utilities; nothing here refers to the model of the code. -/
namespace Kml.StringUtil
open Kml

/-! #### Templates -/

/-- A piece of a template: literal text or a placeholder for a name. -/
inductive Piece where
  | lit (t : Str)
  | hole (k : Str)
  deriving DecidableEq

def Piece.text (start end_ : Str) : Piece → Str
  | .lit t => t
  | .hole k => start ++ k ++ end_

/-- The text of a template. -/
def flat (start end_ : Str) (ps : List Piece) : Str := ps.flatMap (Piece.text start end_)

/-- Fill the placeholders of one name. -/
def Piece.fill (k val : Str) : Piece → Piece
  | .lit t => .lit t
  | .hole k' => if k' = k then .lit val else .hole k'

/-- The length of the literal text directly after a placeholder. -/
def leadLen : List Piece → Nat
  | .lit t :: _ => t.length
  | _ => 0

/-- Each placeholder for `k` is the last piece, or the value and the literal text after it are together at
least as long as the placeholder. -/
def Roomy (start end_ k val : Str) : List Piece → Prop
  | [] => True
  | .lit _ :: ps => Roomy start end_ k val ps
  | .hole k' :: ps =>
    (k' = k → ps = [] ∨ (start ++ k ++ end_).length ≤ val.length + leadLen ps) ∧ Roomy start end_ k val ps

/-- Names and literals do not interfere with the delimiters. -/
def Clean (c0 e0 : Char) : Piece → Prop
  | .lit t => c0 ∉ t
  | .hole k => c0 ∉ k ∧ e0 ∉ k

/-- What expanding a template should give: each placeholder whose name is in the map replaced by its
value, all else unchanged. -/
def expected (start end_ : Str) (m : List (Str × Str)) (ps : List Piece) : Str :=
  ps.flatMap fun
    | .lit t => t
    | .hole k => match m.lookup k with
      | some v => v
      | none => start ++ k ++ end_

/-- Join pieces with a separator. -/
def joinWith (sep : Str) : List Str → Str
  | [] => []
  | [x] => x
  | x :: y :: r => x ++ sep ++ joinWith sep (y :: r)

/-- Double every double quote. -/
def doubleQuotes : Str → Str
  | [] => []
  | '"' :: s => '"' :: '"' :: doubleQuotes s
  | c :: s => c :: doubleQuotes s

/-- A CSV field in quotes. -/
def quoteField (f : Str) : Str := '"' :: (doubleQuotes f ++ ['"'])

/-- A field that needs no quoting. -/
def Plain (d : Char) (f : Str) : Prop :=
  d ∉ f ∧ '\x00' ∉ f ∧ (∀ c, f.head? = some c → isSpace c = false ∧ c ≠ '"') ∧
    (∀ c, f.getLast? = some c → isSpace c = false)

/-- Cut a text at every character satisfying `p`. -/
def segments (p : Char → Bool) : Str → List Str
  | [] => [[]]
  | c :: s =>
    if p c then [] :: segments p s
    else match segments p s with
      | [] => [[c]]
      | x :: r => (c :: x) :: r

/-- The lines of a text: cut at CR and LF, empty lines after the first left out. -/
def linesOf (s : Str) : List Str :=
  match segments (fun c => c = '\r' || c = '\n') s with
  | [] => []
  | x :: r => x :: r.filter (· ≠ [])

end Kml.StringUtil
