import Mathlib.Order.Defs.LinearOrder
import Verif.Model.Bbox
/-! Specification of boxes on the map, independent of the code: only the type `Bbox` is shared. -/
namespace Kml.Geo
variable {K : Type u} [LinearOrder K]

/-- The box covers the position. -/
def Covers (b : Bbox K) (lat lon : K) : Prop := b.south ≤ lat ∧ lat ≤ b.north ∧ b.west ≤ lon ∧ lon ≤ b.east

/-- The second box lies within the first. -/
def Within (b c : Bbox K) : Prop := c.south ≤ b.south ∧ b.north ≤ c.north ∧ c.west ≤ b.west ∧ b.east ≤ c.east

/-- A box with at least one point. -/
def Proper (b : Bbox K) : Prop := b.south ≤ b.north ∧ b.west ≤ b.east

/-- What is known of the midpoint of two numbers: it lies between them.  (`(a + b)/2` of doubles has this property
as long as the sum does not overflow.) -/
def Between (mid : K → K → K) : Prop := ∀ hi lo, lo ≤ hi → lo ≤ mid hi lo ∧ mid hi lo ≤ hi

/-- The four quarters of a box that is cut at the midpoints. -/
inductive Quarter (mid : K → K → K) (b : Bbox K) : Bbox K → Prop
  | nw : Quarter mid b ⟨b.north, mid b.north b.south, mid b.east b.west, b.west⟩
  | ne : Quarter mid b ⟨b.north, mid b.north b.south, b.east, mid b.east b.west⟩
  | sw : Quarter mid b ⟨mid b.north b.south, b.south, mid b.east b.west, b.west⟩
  | se : Quarter mid b ⟨mid b.north b.south, b.south, b.east, mid b.east b.west⟩

/-- The cells of a quadtree, with their level below the root. -/
inductive Cell (mid : K → K → K) (root : Bbox K) : Nat → Bbox K → Prop
  | root : Cell mid root 0 root
  | child {d b c} : Cell mid root d b → Quarter mid b c → Cell mid root (d + 1) c

end Kml.Geo
