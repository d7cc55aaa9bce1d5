import Verif.Model.Handler

/-!
# Parsing in pieces (src/kml/base/expat_parser.cc, src/kml/engine/kml_stream.cc)

The XML parser is a parameter: a state, and what it does with a piece of the text.
-/

namespace Kml.Dom

open Kml

/-- The XML parser: `feed` is `XML_ParseBuffer` and `XML_Parse`, given a piece of the text and whether it is the last
one.  It delivers events; `none` is `XML_STATUS_ERROR`. -/
structure Expat where
  State : Type
  init : State
  feed : State → Str → Bool → List Ev × Option State

/-- An input stream: whether `good()` holds, the characters the device still has, and whether the device then fails
rather than ends. -/
structure Istream where
  good : Bool
  rest : Str
  fails : Bool

/-- `istream::read` on a good stream: the characters counted by `gcount()`, whether `eof()` holds afterwards, and the
stream afterwards.  A stream that ends before `k` characters sets `eofbit` and `failbit`.  A device that fails before
then throws inside `sgetn`, so that `badbit` is set and nothing is counted. -/
def Istream.read (i : Istream) (k : Nat) : Str × Bool × Istream :=
  if k ≤ i.rest.length then (i.rest.take k, false, { i with rest := i.rest.drop k })
  else if i.fails then ([], false, { i with good := false, rest := [] })
  else (i.rest, true, { i with good := false, rest := [] })

/-- expat_parser.cc 108-127 `ParseInternalBuffer`: the handler gets the events of the piece; `none` (false) if the
parser was stopped or found an error. After the last piece an accepting parser is always `XML_FINISHED`, so that the
test of lines 115-122 adds nothing. -/
def parseBuffer {σ : Type} (n : NumLib) (os : List (Observer σ)) (x : Expat) (h : Handler σ) (p : x.State) (s : Str)
    (final : Bool) : Outcome (Handler σ × Option x.State) :=
  h.run n os (x.feed p s final).1 >>= fun h' => .ok (h', if h'.stopped then none else (x.feed p s final).2)

/-- kml_stream.cc 55-72, the loop of `ParseFromIstream`, with the number of rounds bounded.  The answer is the handler
and whether all went well.  `GetInternalBuffer` is taken to find memory. -/
def streamLoop {σ : Type} (n : NumLib) (os : List (Observer σ)) (x : Expat) :
    Nat → Istream → Handler σ → x.State → Outcome (Handler σ × Bool)
  | 0, _, _, _ => .ub
  | k + 1, i, h, p =>
    if i.good then
      parseBuffer n os x h p (i.read 4096).1 (i.read 4096).2.1 >>= fun r =>
        match r.2 with
        | none => .ok (r.1, false)
        | some p' => streamLoop n os x k (i.read 4096).2.2 r.1 p'
    else .ok (h, true)

/-- kml_stream.cc 39-78 `ParseFromIstream`: NULL (`none`), or the root of the new stream, which may itself be NULL;
with the state of the observers. -/
def parseFromIstream {σ : Type} (n : NumLib) (os : List (Observer σ)) (s : σ) (x : Expat) (i : Option Istream) :
    Outcome (Option (Option Elem) × σ) :=
  match i with
  | none => .ok (none, s)
  | some i =>
    streamLoop n os x (i.rest.length + 2) i (Handler.init s) x.init >>= fun r =>
      .ok (if r.2 then some r.1.popRoot else none, r.1.obs)

/-- parser.cc 53-60 `Parser::Parse` with expat_parser.cc 131-144 `_ParseString`: the length of the text is passed as
"this is the last piece". -/
def parseText {σ : Type} (n : NumLib) (os : List (Observer σ)) (s : σ) (x : Expat) (kml : Str) :
    Outcome (Option Elem × σ) :=
  parseBuffer n os x (Handler.init s) x.init kml (decide (kml.length ≠ 0)) >>= fun r =>
    .ok (if r.2.isSome then r.1.popRoot else none, r.1.obs)

end Kml.Dom
