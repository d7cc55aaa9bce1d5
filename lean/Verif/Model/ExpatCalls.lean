import Verif.Model.Stream
import Verif.Model.Locale

/-!
# Declarations of entities, and what is said of a parse that failed (src/kml/base/expat_parser.cc)

As Stream.lean, with the calls for declarations of entities, the errors the XML parser finds and the `errors` of the
caller.  The XML parser is a parameter again.
-/

namespace Kml.Dom

open Kml

/-- What the XML parser calls: the functions of the handler, or `entityDeclHandler`. -/
inductive XmlCall where
  | ev (e : Ev)
  | entity
  deriving DecidableEq

/-- What the XML parser says of an error: `XML_ErrorString` of its code, `XML_GetCurrentLineNumber` and
`XML_GetCurrentColumnNumber`. -/
structure XmlError where
  what : Str
  line : Nat
  column : Nat
  deriving DecidableEq

/-- The XML parser: what `XML_Parse` and `XML_ParseBuffer` call for a piece of the text if nothing stops them, each
call with the line and column where it is made, and then the new state, or the error found. -/
structure FullExpat where
  State : Type
  init : State
  feed : State → Str → Bool → List (XmlCall × Nat × Nat) × Except XmlError State

/-- The values of `XML_Status`: `XML_STATUS_SUSPENDED`, or `XML_STATUS_ERROR` with what it is about. -/
inductive Failure where
  | suspended
  | error (e : XmlError)
  deriving DecidableEq

/-- The calls, one after the other.  expat_parser.cc 35-77: those for the handler are handed on; if that calls
`XML_StopParser(…, XML_TRUE)` the parser is suspended.  `entityDeclHandler` calls `XML_StopParser(…, XML_FALSE)`, upon
which the parser fails with `XML_ERROR_ABORTED`, "parsing aborted". -/
def Handler.runCalls {σ : Type} (n : NumLib) (os : List (Observer σ)) (h : Handler σ) :
    List (XmlCall × Nat × Nat) → Outcome (Handler σ × Option Failure)
  | [] => .ok (h, none)
  | (.entity, line, column) :: _ => .ok (h, some (.error ⟨chars! "parsing aborted", line, column⟩))
  | (.ev e, _) :: r => do
    let h ← h.step n os e
    if h.stopped then .ok (h, some .suspended) else h.runCalls n os r

/-- `XML_Parse` and `XML_ParseBuffer` with the functions of expat_parser.cc 35-77: the handler afterwards, and the state
of the parser for `XML_STATUS_OK`. -/
def xmlParse {σ : Type} (n : NumLib) (os : List (Observer σ)) (x : FullExpat) (h : Handler σ) (p : x.State) (s : Str)
    (final : Bool) : Outcome (Handler σ × Except Failure x.State) :=
  h.runCalls n os (x.feed p s final).1 >>= fun r =>
    .ok (r.1, match r.2 with
      | some f => .error f
      | none => (x.feed p s final).2.mapError .error)

/-- expat_parser.cc 160-171 `ReportError`.  The code of a parser that is suspended is `XML_ERROR_NONE`, for which
`XML_ErrorString` is NULL; writing that to a stream is undefined. -/
def reportFailure (global : Locale.Loc) : Failure → Outcome Str
  | .suspended => .ub
  | .error e => .ok (Locale.reportError global e.what e.line e.column)

/-- expat_parser.cc 143-157 `_ParseString`: the handler, whether the result is true, and what is written to `errors`
(`none` if nothing); `wants` tells whether `errors` is there. -/
def parseStringE {σ : Type} (n : NumLib) (os : List (Observer σ)) (global : Locale.Loc) (wants : Bool) (x : FullExpat)
    (h : Handler σ) (xml : Str) : Outcome (Handler σ × Bool × Option Str) :=
  xmlParse n os x h x.init xml (decide (xml.length ≠ 0)) >>= fun r =>
    match r.2 with
    | .ok _ => .ok (r.1, true, none)
    | .error f =>
      if wants then
        match f with
        | .suspended => .ok (r.1, false, some (chars! "Invalid root element"))
        | .error _ => reportFailure global f >>= fun m => .ok (r.1, false, some m)
      else .ok (r.1, false, none)

/-- parser.cc 53-60 `Parser::Parse` with its `errors`. -/
def parseE {σ : Type} (n : NumLib) (os : List (Observer σ)) (s : σ) (global : Locale.Loc) (wants : Bool) (x : FullExpat)
    (kml : Str) : Outcome (Option Elem × Option Str × σ) :=
  parseStringE n os global wants x (Handler.init s) kml >>= fun r =>
    .ok (if r.2.1 then r.1.popRoot else none, r.2.2, r.1.obs)

/-- expat_parser.cc 122-141 `ParseInternalBuffer`: the handler, the state of the parser for true, and what is written to
`errors`.  After the last piece an accepting parser is always `XML_FINISHED`, so that lines 129-136 add nothing. -/
def parseBufferE {σ : Type} (n : NumLib) (os : List (Observer σ)) (global : Locale.Loc) (wants : Bool) (x : FullExpat)
    (h : Handler σ) (p : x.State) (s : Str) (final : Bool) : Outcome (Handler σ × Option x.State × Option Str) :=
  xmlParse n os x h p s final >>= fun r =>
    match r.2 with
    | .ok p' => .ok (r.1, some p', none)
    | .error f => if wants then reportFailure global f >>= fun m => .ok (r.1, none, some m) else .ok (r.1, none, none)

/-- kml_stream.cc 55-72, the loop of `ParseFromIstream` (as `streamLoop`). -/
def streamLoopE {σ : Type} (n : NumLib) (os : List (Observer σ)) (global : Locale.Loc) (wants : Bool) (x : FullExpat) :
    Nat → Istream → Handler σ → x.State → Outcome (Handler σ × Bool × Option Str)
  | 0, _, _, _ => .ub
  | k + 1, i, h, p =>
    if i.good then
      parseBufferE n os global wants x h p (i.read 4096).1 (i.read 4096).2.1 >>= fun r =>
        match r.2.1 with
        | none => .ok (r.1, false, r.2.2)
        | some p' => streamLoopE n os global wants x k (i.read 4096).2.2 r.1 p'
    else .ok (h, true, none)

/-- kml_stream.cc 39-78 `ParseFromIstream` (as `parseFromIstream`) with its `errors`. -/
def parseFromIstreamE {σ : Type} (n : NumLib) (os : List (Observer σ)) (s : σ) (global : Locale.Loc) (wants : Bool)
    (x : FullExpat) (i : Option Istream) : Outcome (Option (Option Elem) × Option Str × σ) :=
  match i with
  | none => .ok (none, none, s)
  | some i =>
    streamLoopE n os global wants x (i.rest.length + 2) i (Handler.init s) x.init >>= fun r =>
      .ok (if r.2.1 then some r.1.popRoot else none, r.2.2, r.1.obs)

end Kml.Dom
