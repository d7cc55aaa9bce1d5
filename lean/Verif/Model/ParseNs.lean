import Verif.Model.Handler
import Verif.Model.Attributes

/-!
# Parsing with namespaces (src/kml/dom/kml_handler_ns.cc, src/kml/base/expat_handler_ns.cc, src/kml/dom/parser.cc)

The XML parser made with `XML_ParserCreateNS` delivers events in which a name is the address of the namespace, a bar and
the local name, or just the local name if the name is in no namespace.
-/

namespace Kml.Dom

open Kml

/-- kml_handler_ns.cc 50-51, 57-58: `name.substr(name.find_last_of('|') + 1)`.  Without a bar `find_last_of` gives
`npos`, and 1 added to it gives 0. -/
def afterLastBar (name : Str) : Str := (name.reverse.takeWhile (· ≠ '|')).reverse

/-- An event with another name. -/
def Ev.rename (f : Str → Str) : Ev → Ev
  | .start name attrs => .start (f name) attrs
  | .stop name => .stop (f name)
  | .empty name attrs => .empty (f name) attrs
  | .chars s => .chars s

/-- parser.cc 65-71 `Parser::ParseNS` with kml_handler_ns.cc 46-63, on the events of a document the XML parser accepts. -/
def parseNs {σ : Type} (n : NumLib) (os : List (Observer σ)) (s : σ) (evs : List Ev) : Outcome (Option Elem × σ) :=
  parseEvents n os s (evs.map (Ev.rename afterLastBar))

/-- parser.cc 88-90: the attributes `ParseAtom` makes its `Xmlns` from. -/
def atomXmlns : Option Attributes.Xmlns :=
  Attributes.Xmlns.create (Attributes.setValue (Attributes.setValue [] (chars! "xmlns")
    (chars! "http://www.opengis.net/kml/2.2")) (chars! "xmlns:atom") (chars! "http://www.w3.org/2005/Atom"))

/-- parser.cc 75-97 `Parser::ParseAtom` with expat_handler_ns.cc 60-72, on the events of a document the XML parser
accepts.  Without an `Xmlns` the pointer would be NULL.  The handler that `ExpatParser` is given, and tells its parser
(expat_parser.cc 84), is the `ExpatHandlerNs`; the `parser_` of the `KmlHandler` behind it (expat_handler.h 59) is never
set.  So where the `KmlHandler` stops the parse it hands `XML_StopParser` a pointer that was never written. -/
def parseAtom {σ : Type} (n : NumLib) (os : List (Observer σ)) (s : σ) (evs : List Ev) : Outcome (Option Elem × σ) :=
  match atomXmlns with
  | none => .ub
  | some x => do
    let h ← (Handler.init s).run n os (evs.map (Ev.rename (Attributes.translatePrefixedName x '|')))
    if h.stopped then .ub else .ok (h.popRoot, h.obs)

end Kml.Dom
