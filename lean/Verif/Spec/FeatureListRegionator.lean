import Verif.Model.FeatureList
import Verif.Spec.Geo
import Verif.Props.Regionator
/-! What a regionation of a feature list should give. -/
namespace Kml.Geo
variable {K : Type u} [LinearOrder K]

/-- The counts grow, from below the first one, and the last one is `b` (or there is none, and `b` is `a`). -/
inductive Climbs : Nat → Nat → List Nat → Prop
  | stay {a} : Climbs a a []
  | step {a b c cs} : a < c → Climbs c b cs → Climbs a b (c :: cs)

/-- The monitor after being told the counts, in order. -/
def toldAll {M : Type} (ask : M → Nat → Nat → Bool × M) (total : Nat) (m : M) (counts : List Nat) : M :=
  counts.foldl (fun m c => (ask m c total).2) m

/-- Highest score first. -/
def ByScore (l : List (Item K)) : Prop := l.Pairwise fun a b => b.score ≤ a.score

/-- The box of the region reached from a root box by a path of quadrants. -/
def cellAt (mid : K → K → K) (b : Bbox K) (path : List Quadrant) : Bbox K := path.foldl (childBox mid) b

/-- A file as it should be: the folder of a region, with features inside the region, highest score first, at least one
and at most `max` unless that is zero. -/
structure FlrFile (mid : K → K → K) (root : Bbox K) (max : Nat) (f : File (List (Item K))) : Prop where
  some : f.feature ≠ []
  most : max = 0 ∨ f.feature.length ≤ max
  order : ByScore f.feature
  place : ∃ path, f.id = qidAt path ∧ ∀ i ∈ f.feature, ∃ p, i.pos = .some p ∧ Covers (cellAt mid root path) p.1 p.2

/-- A file of a region and one of a region inside it, as they should be: the outer file is full, and the inner one has
no feature with a higher score. -/
def Above (max : Nat) (f g : File (List (Item K))) : Prop :=
  f.id <+: g.id → f.id ≠ g.id → f.feature.length = max ∧ ∀ i ∈ f.feature, ∀ j ∈ g.feature, j.score ≤ i.score

/-- All positions are on the map, whose latitudes and longitudes go from `lo` to `hi`. -/
def OnMap (lo hi : K) (items : List (Item K)) : Prop :=
  ∀ i ∈ items, ∀ p, i.pos = some p → lo ≤ p.1 ∧ p.1 ≤ hi ∧ lo ≤ p.2 ∧ p.2 ≤ hi

end Kml.Geo
