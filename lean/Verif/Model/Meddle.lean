import Verif.Model.Handler

/-!
# Parsing with an observer that changes what it is shown (src/kml/dom/kml_handler.cc)

The observers of Handler.lean only look and object.  `StyleSplitter` and `StyleInliner` also change the parent they
are shown in `EndElement`.  This is the parser with one such observer; it never stops the parse.
-/

namespace Kml.Dom

open Kml

/-- An observer that may change the parent in `EndElement`; it gives the parent afterwards, and whether it agrees to
the child. -/
structure Meddler (σ : Type) where
  new : σ → Elem → σ
  finish : σ → Elem → Elem → Outcome (Bool × Elem × σ)
  added : σ → Elem → Elem → σ

variable {σ : Type}

/-- Its `NewElement`, as that of an observer that only looks. -/
def Meddler.watch (w : Meddler σ) : Observer σ where
  new s e := (true, w.new s e)
  endElement s _ _ := (true, s)
  addChild s _ _ := (true, s)

/-- kml_handler.cc 283-297 (as `Handler.attach`). -/
def Handler.attachW (n : NumLib) (w : Meddler σ) (h : Handler σ) (child : Elem) : Outcome (Handler σ) :=
  match h.stack with
  | _ :: parent :: rest => do
    let r ← w.finish h.obs parent child
    let parent ← giveChild n r.1 r.2.1 child
    .ok { h with stack := parent :: rest, obs := w.added r.2.2 parent child }
  | _ :: [] => .ok { h with stack := [child] }
  | [] => .ok h

/-- kml_handler.cc 233-298 (as `Handler.endPlain`). -/
def Handler.endPlainW (n : NumLib) (w : Meddler σ) (h : Handler σ) (name : Str) : Outcome (Handler σ) :=
  match h.stack with
  | [] => .ok h
  | top :: _ =>
    match h.chars with
    | [] => .ub
    | s :: chars =>
      match h.inOld && !h.simpleData.isEmpty with
      | true =>
        .ok { h with
          simpleData := h.simpleData.dropLast ++ (h.simpleData.getLast?.map (setText · s)).toList
          chars := chars, inOld := false }
      | false => do
        let e ← finishElement n top s
        let r ← { h with chars := chars }.endOldSchema name e
        r.2.attachW n w r.1

/-- kml_handler.cc 207-298 `EndElement` (as `Handler.endElement`). -/
def Handler.endElementW (n : NumLib) (w : Meddler σ) (h : Handler σ) (name : Str) : Outcome (Handler σ) :=
  let h := { h with nesting := dec h.nesting }.leaveDescription name
  if h.skip > 0 then h.endUnknown name else h.endPlainW n w name

/-- One event (as `Handler.step`). -/
def Handler.stepW (n : NumLib) (w : Meddler σ) (h : Handler σ) : Ev → Outcome (Handler σ)
  | .start name attrs => h.startElement n [w.watch] name attrs
  | .stop name => h.endElementW n w name
  | .empty name attrs => do
    let h ← h.startElement n [w.watch] name attrs
    h.endElementW n w name
  | .chars s => h.charData s

/-- All events, until the parser is stopped (as `Handler.run`). -/
def Handler.runW (n : NumLib) (w : Meddler σ) (h : Handler σ) : List Ev → Outcome (Handler σ)
  | [] => .ok h
  | ev :: evs => do
    let h ← h.stepW n w ev
    if h.stopped then .ok h else h.runW n w evs

/-- parser.cc 53-60 `Parser::Parse` (as `parseEvents`). -/
def parseWith (n : NumLib) (w : Meddler σ) (s : σ) (evs : List Ev) : Outcome (Option Elem × σ) := do
  let h ← (Handler.init s).runW n w evs
  .ok (if h.stopped then none else h.popRoot, h.obs)

end Kml.Dom
