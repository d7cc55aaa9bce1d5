import Verif.Model.Basic
/-! Model of `src/kml/base/string_util.cc`, `src/kml/base/csv_splitter.cc` and the path functions of
`src/kml/base/file.cc`. -/
namespace Kml.StringUtil
open Kml

/-! ### CreateExpandedStrings -/

/-- `out.replace(pos, n, val)`. -/
def replaceAt (out : Str) (pos n : Nat) (val : Str) : Str :=
  out.take pos ++ val ++ out.drop (pos + n)

/-- `s.find(pat) != npos`. -/
def contains (s pat : Str) : Bool := (findFrom pat s).isSome

/-- string_util.cc 49-58: the `while (start_pos != npos)` loop for one map entry `key -> val`.
`none` means that `fuel` rounds were not enough. -/
def expandLoop (cand key val : Str) : (fuel : Nat) → (out : Str) → (pos : Option Nat) → Option Str
  | _, out, none => some out
  | 0, _, some _ => none
  | fuel + 1, out, some p =>
    let out' := replaceAt out p cand.length val
    if contains val key then some out'
    else expandLoop cand key val fuel out' (find out' cand (p + cand.length))

/-- string_util.cc 47-58: the body of the `for` loop over the map, for one entry. -/
def expandOne (start end_ key val : Str) (out : Str) : Option Str :=
  let cand := start ++ key ++ end_
  expandLoop cand key val (out.length + 1) out (find out cand 0)

/-- string_util.cc 41-61 `CreateExpandedStrings`; `m` lists the entries of the map in key order.
`none` means non-termination. -/
def createExpandedStrings (s : Str) (m : List (Str × Str)) (start end_ : Str) : Option Str :=
  m.foldlM (fun out kv => expandOne start end_ kv.1 kv.2 out) s

/-! ### SplitStringUsing -/

/-- string_util.cc 66-71: the `while` loop; each round with a hit drops at least one character, and
`iter.substr(separator + 1)` throws when `separator + 1 > iter.size()` (empty separator).
`none` means that the fuel was not enough. -/
def splitLoop (sep : Str) : (fuel : Nat) → (iter : Str) → Option (Outcome (List Str))
  | fuel, iter =>
    match find iter sep 0 with
    | none => some (.ok [iter])
    | some p =>
      match fuel with
      | 0 => none
      | fuel + 1 =>
        if p + 1 ≤ iter.length then
          (splitLoop sep fuel (iter.drop (p + 1))).map fun r => do
            let rest ← r
            .ok (iter.take p :: rest)
        else some .throws

/-- string_util.cc 63-72 `SplitStringUsing`. -/
def splitStringUsing (input sep : Str) : Option (Outcome (List Str)) :=
  splitLoop sep (input.length + 1) input

/-! ### Simple predicates and conversions -/

/-- string_util.cc 145-153 `StringEndsWith`. -/
def stringEndsWith (s e : Str) : Bool :=
  if s = [] || e = [] then false
  else if s.length = e.length then s = e
  else e.length < s.length && s.drop (s.length - e.length) = e

/-- POSIX `strncasecmp(a, b, n) == 0` on two buffers of `n` bytes: stops at a NUL. -/
def strncaseEq : Str → Str → Bool
  | [], _ => true
  | _, [] => true
  | a :: as, b :: bs => toLower a = toLower b && (a = '\x00' || strncaseEq as bs)

/-- string_util.cc 155-160 `StringCaseEqual`. -/
def stringCaseEqual (a b : Str) : Bool := a.length = b.length && strncaseEq a b

/-- string_util.cc 179-192 `IsDecimalDoubleString`. -/
def isDecimalDoubleString (s : Str) : Bool :=
  match s with
  | [] => false
  | c :: r =>
    let s1 : Str := if c = '-' then r else s
    match s1 with
    | [] => false
    | c1 :: r1 =>
      let s2 : Str := if c1 = '.' then r1 else s1
      match s2 with
      | [] => false
      | c2 :: _ => isDigit c2

/-- string_util.cc 194-206 `SkipLeadingWhitespaceString`, as the string that remains. -/
def skipLeadingWhitespace : Str → Str
  | [] => []
  | c :: s => if isSpace c then skipLeadingWhitespace s else c :: s

/-- string_util.cc 74-81 `FromString(str, bool*)`: `compare(skip, 4, "true")` compares (at most) the
next four characters. -/
def boolFromString (s : Str) : Bool :=
  let r := skipLeadingWhitespace s
  r.take 4 = "true".toList || r.take 1 = "1".toList

/-- string_util.cc 114-119 `ToString(bool)`. -/
def boolToString (b : Bool) : Str := if b then "1".toList else "0".toList

/-! ### SplitQuotedUsing -/

/-- `string(start)` for a `char*`: everything up to the first NUL. -/
def upToNul (s : Str) : Str := s.takeWhile (· ≠ '\x00')

/-- `strchr(line, d)`: the part before the first `d` and the part from it on; the search ends at a NUL. -/
def strchr (d : Char) : Str → Option (Str × Str)
  | [] => none
  | c :: s =>
    if c = d then some ([], c :: s)
    else if c = '\x00' then none
    else (strchr d s).map fun r => (c :: r.1, r.2)

/-- string_util.cc 231-238: the loop over a quoted value: the unescaped value and the rest. -/
def quotedValue : Str → Str × Str
  | [] => ([], [])
  | '"' :: '"' :: s => let r := quotedValue s; ('"' :: r.1, r.2)
  | '"' :: s => ([], s)
  | c :: s => if c = '\x00' then ([], c :: s) else let r := quotedValue s; (c :: r.1, r.2)

/-- string_util.cc 225-226: skip leading white space other than the delimiter. -/
def skipCol (d : Char) : Str → Str
  | [] => []
  | c :: s => if isSpace c && c ≠ d then skipCol d s else c :: s

/-- string_util.cc 248-250: drop trailing white space other than the delimiter. -/
def trimRight (d : Char) (s : Str) : Str :=
  (s.reverse.dropWhile fun c => isSpace c && c ≠ d).reverse

/-- string_util.cc 228-241: a quoted column, from behind its opening quote. -/
def quotedColumn (d : Char) (q : Str) : Str × Str :=
  let r := quotedValue q
  (upToNul r.1, match strchr d r.2 with | some x => x.2 | none => [])

/-- string_util.cc 242-251: a column that is not quoted. -/
def plainColumn (d : Char) (l : Str) : Str × Str :=
  match strchr d l with
  | some x => (upToNul (trimRight d x.1), x.2)
  | none => (upToNul (trimRight d l), [])

/-- string_util.cc 225-251: one column.  The value, and the rest of the line from the delimiter on
(empty at the end of the line). -/
def column (d : Char) (line : Str) : Str × Str :=
  let l := skipCol d line
  if l.head? = some '"' ∧ d = ',' then quotedColumn d l.tail else plainColumn d l

/-- string_util.cc 223-262: the `for` loop over the columns.  The fuel is the length of the line. -/
def splitCols (d : Char) : (fuel : Nat) → Str → List Str
  | 0, _ => []
  | _ + 1, [] => []
  | fuel + 1, c :: s =>
    let r := column d (c :: s)
    match r.2 with
    | [] => [r.1]
    | _ :: [] => [r.1, []]
    | _ :: rest => r.1 :: splitCols d fuel rest

/-- string_util.cc 209-264 `SplitQuotedUsing` for a non-null input and a delimiter other than NUL.
The copy into a scratch buffer and the in-place writes (which stay behind the read position) are
replaced by building the column values. -/
def splitQuotedUsing (line : Str) (d : Char) : List Str := splitCols d line.length line

/-! ### CsvSplitter -/

/-- csv_splitter.h 62-63: the data and the offset of the current line (`none` is `npos`). -/
structure CsvSplitter where
  data : Str
  current : Option Nat

/-- `s.find_first_of(set, pos)` for the set given by a predicate. -/
def findFirstOf (p : Char → Bool) (s : Str) (pos : Nat) : Option Nat :=
  if pos ≤ s.length then ((s.drop pos).findIdx? p).map (· + pos) else none

def isEol (c : Char) : Bool := c = '\r' || c = '\n'

/-- csv_splitter.cc 41-54 `FindNextLine`: the end of this line and the start of the next. -/
def findNextLine (data : Str) (cur : Nat) : Nat × Option Nat :=
  match findFirstOf isEol data cur with
  | none => (data.length, none)
  | some nl => (nl, findFirstOf (fun c => !isEol c) data nl)

/-- csv_splitter.cc 56-68 `SplitCurrentLine`: `none` is `false`; otherwise the line handed to
`SplitQuotedUsing` and the new state.  (`npos` exceeds every size.) -/
def splitCurrentLine (c : CsvSplitter) : Option (Str × CsvSplitter) :=
  match c.current with
  | none => none
  | some cur =>
    if cur > c.data.length then none
    else
      let r := findNextLine c.data cur
      some ((c.data.drop cur).take (r.1 - cur), { c with current := r.2 })

/-- The client loop of csv_splitter.h 40-43: all lines delivered, with a bound on the rounds. -/
def allLines : (fuel : Nat) → CsvSplitter → Option (List Str)
  | 0, _ => none
  | fuel + 1, c =>
    match splitCurrentLine c with
    | none => some []
    | some (line, c') => (allLines fuel c').map (line :: ·)

/-- csv_splitter.cc 34-37: the initial state. -/
def CsvSplitter.init (data : Str) : CsvSplitter := ⟨data, some 0⟩

/-! ### Paths -/

/-- file.cc 77-87 `File::JoinPaths` with `kSeparator` being '/' (not Windows). -/
def joinPaths (p1 p2 : Str) : Str :=
  if p1 = [] then p2
  else if p2 = [] then p1
  else if p1.getLast? ≠ some '/' then p1 ++ ['/'] ++ p2
  else p1 ++ p2

/-- `filepath.find_last_of("/\\")`. -/
def findLastSep : Str → Option Nat
  | [] => none
  | c :: s =>
    match findLastSep s with
    | some i => some (i + 1)
    | none => if c = '/' || c = '\\' then some 0 else none

/-- file.cc 89-105 `File::SplitFilePath`: the base directory and the file name. -/
def splitFilePath (p : Str) : Str × Str :=
  match findLastSep p with
  | none => (['.'], p)
  | some 0 => (p.take 1, p.drop 1)
  | some i => (p.take i, p.drop (i + 1))

end Kml.StringUtil
