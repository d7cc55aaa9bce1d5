import Verif.Model.Stream

/-!
# What an XML parser does with a text in pieces
-/

namespace Kml.Dom

open Kml

/-- Events with neighbouring pieces of text put together. -/
def glue : List Ev → List Ev
  | [] => []
  | .chars s :: evs =>
    match glue evs with
    | .chars t :: r => .chars (s ++ t) :: r
    | r => .chars s :: r
  | ev :: evs => ev :: glue evs

/-- What an XML parser delivers for a text given in pieces, `last` being the last; and whether it accepts. -/
def Expat.pieces (x : Expat) (p : x.State) : List Str → Str → List Ev × Bool
  | [], last => ((x.feed p last true).1, (x.feed p last true).2.isSome)
  | c :: cs, last =>
    match x.feed p c false with
    | (evs, none) => (evs, false)
    | (evs, some p') => (evs ++ (x.pieces p' cs last).1, (x.pieces p' cs last).2)

/-- The XML parser does not mind into which pieces a text is cut: it accepts it or not, whatever the pieces, and what
it delivers for a text it accepts differs only in how the character data is cut. -/
structure Expat.Steady (x : Expat) : Prop where
  accepts : ∀ cs last, (x.pieces x.init cs last).2 = (x.pieces x.init [] (cs.flatten ++ last)).2
  events : ∀ cs last, (x.pieces x.init cs last).2 = true →
    glue (x.pieces x.init cs last).1 = glue (x.pieces x.init [] (cs.flatten ++ last)).1

end Kml.Dom
