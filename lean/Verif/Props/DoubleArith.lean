import Verif.Model.DoubleArith
import Verif.Lemmas.IeeeNear
import Verif.Props.Ieee
import Verif.Props.Bbox
import Verif.Props.Regionator

/-!
# C110: boxes and quadtrees with the arithmetic of doubles

The theorems about boxes and regions (C42, C58, C88) range over any numbers with a midpoint that lies between.  Here the
numbers are the doubles from -180 to 180, and the midpoint is `(a + b)/2.0` with both roundings.
-/

namespace Kml.Ieee
open Kml.Geo

set_option exponentiation.threshold 3000

/-- A double with its sign. -/
def IsSigned (x : ℚ) : Prop := IsDouble |x|

/-! ## Rounding is monotone -/

theorem toDouble_double {x : ℚ} (h : IsDouble x) : toDouble x = x := by
  have h1 := (toDouble_best (isDouble_le h).1).2 x h
  simp only [sub_self, abs_zero] at h1
  have := abs_nonpos_iff.1 h1
  linarith

theorem toDouble_mono {x y : ℚ} (h0 : 0 ≤ x) (h : x ≤ y) : toDouble x ≤ toDouble y := by
  rcases eq_or_lt_of_le h with rfl | hlt
  · exact le_refl _
  by_contra hc
  have hc := not_le.1 hc
  obtain ⟨d1, b1⟩ := toDouble_best h0
  obtain ⟨d2, b2⟩ := toDouble_best (le_trans h0 h)
  have e1 := b1 _ d2
  have e2 := b2 _ d1
  rcases abs_cases (toDouble x - x) with ⟨a1, _⟩ | ⟨a1, _⟩ <;> rcases abs_cases (toDouble y - x) with ⟨a2, _⟩ | ⟨a2, _⟩ <;>
    rcases abs_cases (toDouble y - y) with ⟨a3, _⟩ | ⟨a3, _⟩ <;> rcases abs_cases (toDouble x - y) with ⟨a4, _⟩ | ⟨a4, _⟩ <;>
    rw [a1, a2] at e1 <;> rw [a3, a4] at e2 <;> linarith

theorem toDouble_nonneg (x : ℚ) : 0 ≤ toDouble x := by
  rcases toDouble_grid_or x with h | h
  · rw [h]
  · exact h.1.le

theorem fl_mono {x y : ℚ} (h : x ≤ y) : fl x ≤ fl y := by
  unfold fl
  split
  · split
    · exact neg_le_neg (toDouble_mono (by linarith) (by linarith))
    · exact le_trans (neg_nonpos.2 (toDouble_nonneg _)) (toDouble_nonneg _)
  · next hx => rw [if_neg (by linarith)]; exact toDouble_mono (not_lt.1 hx) h

theorem fl_signed {x : ℚ} (h : IsSigned x) : fl x = x := by
  unfold fl IsSigned at *
  split
  · next hx =>
    rw [abs_of_neg hx] at h
    rw [toDouble_double h]
    ring
  · next hx =>
    rw [abs_of_nonneg (not_lt.1 hx)] at h
    exact toDouble_double h

theorem fl_isSigned (x : ℚ) : IsSigned (fl x) := by
  unfold fl IsSigned
  split
  · next hx =>
    rw [abs_neg, abs_of_nonneg (toDouble_nonneg _)]
    exact (toDouble_best (by linarith)).1
  · next hx =>
    rw [abs_of_nonneg (toDouble_nonneg _)]
    exact (toDouble_best (not_lt.1 hx)).1

/-- C110.  Each operation gives the double nearest to the exact result. -/
theorem C110_nearest (x y : ℚ) (hy : IsSigned y) : IsSigned (fl x) ∧ |fl x - x| ≤ |y - x| := by
  refine ⟨fl_isSigned x, ?_⟩
  unfold fl
  split
  · next hx =>
    have h := (toDouble_best (q := -x) (by linarith)).2 |y| hy
    rw [show -toDouble (-x) - x = -(toDouble (-x) - -x) by ring, abs_neg]
    refine le_trans h ?_
    rcases abs_cases y with ⟨a, _⟩ | ⟨a, _⟩ <;> rw [a]
    · rw [show y - -x = y + x by ring]
      rcases abs_cases (y + x) with ⟨b, _⟩ | ⟨b, _⟩ <;> rw [b] <;> rw [abs_of_nonneg (by linarith)] <;> linarith
    · rw [show -y - -x = -(y - x) by ring, abs_neg]
  · next hx =>
    have h := (toDouble_best (not_lt.1 hx)).2 |y| hy
    refine le_trans h ?_
    have := abs_abs_sub_abs_le_abs_sub y x
    rwa [abs_of_nonneg (not_lt.1 hx)] at this

theorem double_twice {x : ℚ} (h : IsDouble x) (hb : x < 2 ^ 971) : IsDouble (2 * x) := by
  obtain ⟨m, k, h1, h2, h3, rfl⟩ := h
  rcases Nat.eq_zero_or_pos m with rfl | hm
  · simpa using isDouble_zero
  · refine ⟨m, k + 1, h1, by omega, ?_, by rw [zpow_add_one₀ (by norm_num)]; ring⟩
    by_contra hc
    have hk : k = 971 := by omega
    have : (1 : ℚ) ≤ m := by exact_mod_cast hm
    rw [hk] at hb
    have h5 : (2 : ℚ) ^ (971 : ℤ) = 2 ^ 971 := by norm_num
    rw [h5] at hb
    exact absurd hb (not_lt.2 (le_mul_of_one_le_left (by positivity) this))

theorem signed_twice {x : ℚ} (h : IsSigned x) (hb : |x| < 2 ^ 971) : IsSigned (2 * x) := by
  unfold IsSigned at *
  rw [abs_mul, abs_of_pos (by norm_num : (0 : ℚ) < 2)]
  exact double_twice h hb

/-- C110.  The midpoint of two doubles is between them, both roundings considered (as long as the sum is far from
overflow). -/
theorem C110_between {hi lo : ℚ} (h1 : IsSigned hi) (h2 : IsSigned lo) (b1 : |hi| < 2 ^ 971) (b2 : |lo| < 2 ^ 971)
    (h : lo ≤ hi) : IsSigned (midDouble hi lo) ∧ lo ≤ midDouble hi lo ∧ midDouble hi lo ≤ hi := by
  refine ⟨fl_isSigned _, ?_, ?_⟩
  · have e1 : 2 * lo ≤ fl (hi + lo) := by
      rw [← fl_signed (signed_twice h2 b2)]
      exact fl_mono (by linarith)
    have : fl lo ≤ fl (fl (hi + lo) / 2) := fl_mono (by linarith)
    rwa [fl_signed h2] at this
  · have e1 : fl (hi + lo) ≤ 2 * hi := by
      rw [← fl_signed (signed_twice h1 b1)]
      exact fl_mono (by linarith)
    have : fl (fl (hi + lo) / 2) ≤ fl hi := fl_mono (by linarith)
    rwa [fl_signed h1] at this

/-! ## Degrees -/

/-- The doubles from -180 to 180. -/
abbrev Degrees := { x : ℚ // IsSigned x ∧ |x| ≤ 180 }

theorem signed_of_int {m : ℤ} {k : ℤ} (hm : |m| < 2 ^ 53) (h1 : -1074 ≤ k) (h2 : k ≤ 971) : IsSigned ((m : ℚ) * 2 ^ k) := by
  unfold IsSigned
  refine ⟨m.natAbs, k, by rw [Int.abs_eq_natAbs] at hm; omega, h1, h2, ?_⟩
  rw [abs_mul, abs_of_pos (zpow_pos (by norm_num : (0 : ℚ) < 2) k)]
  congr 1
  rw [Nat.cast_natAbs]
  push_cast
  rfl

theorem mid_degrees (a b : Degrees) : IsSigned (midDouble a b) ∧ |midDouble (a : ℚ) b| ≤ 180 := by
  refine ⟨fl_isSigned _, ?_⟩
  have ha := abs_le.1 a.2.2
  have hb := abs_le.1 b.2.2
  have s180 : IsSigned 180 := by
    have := signed_of_int (m := 180) (k := 0) (by norm_num) (by norm_num) (by norm_num)
    simpa using this
  have s360 : IsSigned 360 := by
    have := signed_of_int (m := 360) (k := 0) (by norm_num) (by norm_num) (by norm_num)
    simpa using this
  have sneg : ∀ x, IsSigned x → IsSigned (-x) := fun x h => by unfold IsSigned at *; rwa [abs_neg]
  have e1 : fl ((a : ℚ) + b) ≤ 360 := by
    rw [← fl_signed s360]; exact fl_mono (by linarith [ha.2, hb.2])
  have e2 : -360 ≤ fl ((a : ℚ) + b) := by
    rw [← fl_signed (sneg _ s360)]; exact fl_mono (by linarith [ha.1, hb.1])
  unfold midDouble
  rw [abs_le]
  constructor
  · have : fl (-180) ≤ fl (fl ((a : ℚ) + b) / 2) := fl_mono (by linarith)
    rwa [fl_signed (sneg _ s180)] at this
  · have : fl (fl ((a : ℚ) + b) / 2) ≤ fl 180 := fl_mono (by linarith)
    rwa [fl_signed s180] at this

/-- The midpoint of two numbers of degrees. -/
def midDegrees (a b : Degrees) : Degrees := ⟨midDouble a b, mid_degrees a b⟩

theorem degrees_small (a : Degrees) : |(a : ℚ)| < 2 ^ 971 := lt_of_le_of_lt a.2.2 (by norm_num)

/-- C110.  What the theorems about boxes and regions assume of the midpoint holds of that of doubles. -/
theorem C110_midpoint : Between midDegrees := fun hi lo h =>
  (C110_between hi.2.1 lo.2.1 (degrees_small hi) (degrees_small lo) h).2

/-- C110.  The center of a box is in the box. -/
theorem C110_center (b : Bbox Degrees) (hb : Geo.Proper b) :
    Covers b (b.center midDegrees).1 (b.center midDegrees).2 :=
  ⟨(C110_midpoint _ _ hb.1).1, (C110_midpoint _ _ hb.1).2, (C110_midpoint _ _ hb.2).1, (C110_midpoint _ _ hb.2).2⟩

/-- C110.  The box of each child region lies within the box of its parent. -/
theorem C110_children (b : Bbox Degrees) (hb : Geo.Proper b) (q : Quadrant) :
    Within (childBox midDegrees b q) b := (C58_inside midDegrees C110_midpoint b hb q).1

/-! ## The quadtree is exact -/

/-- The edges of the exact quadtree over the square from -180 to 180: the circle in `2 ^ d` equal parts. -/
def edge (d : ℕ) (i : ℕ) : ℚ := -180 + 360 * i / 2 ^ d

theorem edge_eq (d i : ℕ) : edge d i = ((45 * (2 * i - 2 ^ d) : ℤ) : ℚ) * 2 ^ (2 - d : ℤ) := by
  unfold edge
  rw [zpow_sub₀ (by norm_num), zpow_natCast]
  push_cast
  field_simp
  ring

theorem pow_le_of {d : ℕ} (hd : d ≤ 47) : (2 : ℤ) ^ d ≤ 2 ^ 47 := pow_le_pow_right₀ (by norm_num) hd

theorem edge_signed {d i : ℕ} (hd : d ≤ 47) (hi : i ≤ 2 ^ d) : IsSigned (edge d i) := by
  rw [edge_eq]
  have h2 := pow_le_of hd
  have hi' : (i : ℤ) ≤ 2 ^ d := by exact_mod_cast hi
  refine signed_of_int ?_ (by omega) (by omega)
  rw [abs_lt]
  constructor <;> omega

theorem edge_mid {d i : ℕ} (hd : d < 47) (hi : i < 2 ^ d) : midDouble (edge d (i + 1)) (edge d i) = edge (d + 1) (2 * i + 1) ∧
    midDouble (edge d i) (edge d (i + 1)) = edge (d + 1) (2 * i + 1) := by
  have h2 := pow_le_of (d := d) (by omega)
  have hi' : (i : ℤ) < 2 ^ d := by exact_mod_cast hi
  have hs : IsSigned (edge d (i + 1) + edge d i) := by
    have e : edge d (i + 1) + edge d i = ((45 * (2 * i + 1 - 2 ^ d) : ℤ) : ℚ) * 2 ^ (3 - d : ℤ) := by
      rw [edge_eq, edge_eq, show (3 - d : ℤ) = (2 - d) + 1 by ring, zpow_add_one₀ (by norm_num)]
      push_cast
      ring
    rw [e]
    refine signed_of_int ?_ (by omega) (by omega)
    rw [abs_lt]
    constructor <;> omega
  have hh : (edge d (i + 1) + edge d i) / 2 = edge (d + 1) (2 * i + 1) := by
    unfold edge
    push_cast
    rw [pow_succ]
    field_simp
    ring
  have he : IsSigned (edge (d + 1) (2 * i + 1)) := edge_signed (by omega) (by
    have : 2 ^ (d + 1) = 2 * 2 ^ d := by ring
    omega)
  unfold midDouble
  constructor
  · rw [fl_signed hs, hh, fl_signed he]
  · rw [add_comm, fl_signed hs, hh, fl_signed he]

theorem edge_double (d i : ℕ) : edge (d + 1) (2 * i) = edge d i := by
  unfold edge
  push_cast
  rw [pow_succ]
  field_simp

/-- The world square of the regionator. -/
def world : Bbox Degrees :=
  ⟨⟨edge 0 1, by have := edge_signed (d := 0) (i := 1) (by norm_num) (by norm_num); exact ⟨this, by norm_num [edge]⟩⟩,
   ⟨edge 0 0, by have := edge_signed (d := 0) (i := 0) (by norm_num) (by norm_num); exact ⟨this, by norm_num [edge]⟩⟩,
   ⟨edge 0 1, by have := edge_signed (d := 0) (i := 1) (by norm_num) (by norm_num); exact ⟨this, by norm_num [edge]⟩⟩,
   ⟨edge 0 0, by have := edge_signed (d := 0) (i := 0) (by norm_num) (by norm_num); exact ⟨this, by norm_num [edge]⟩⟩⟩

theorem world_is : (world.north : ℚ) = 180 ∧ (world.south : ℚ) = -180 ∧ (world.east : ℚ) = 180 ∧ (world.west : ℚ) = -180 := by
  refine ⟨?_, ?_, ?_, ?_⟩ <;> norm_num [world, edge]

/-- The box is the cell in row `i` and column `j` of the exact quadtree at level `d`. -/
def ExactCell (d i j : ℕ) (b : Bbox Degrees) : Prop :=
  (b.south : ℚ) = edge d i ∧ (b.north : ℚ) = edge d (i + 1) ∧ (b.west : ℚ) = edge d j ∧ (b.east : ℚ) = edge d (j + 1)

/-- C110.  Down to level 47 halving the world again and again with doubles makes no rounding error: every cell is a cell
of the exact quadtree. -/
theorem C110_exact {d : ℕ} {b : Bbox Degrees} (h : Cell midDegrees world d b) (hd : d ≤ 47) :
    ∃ i j, i < 2 ^ d ∧ j < 2 ^ d ∧ ExactCell d i j b := by
  induction h with
  | root => exact ⟨0, 0, by norm_num, by norm_num, rfl, rfl, rfl, rfl⟩
  | @child d b c _ hq ih =>
    obtain ⟨i, j, hi, hj, es, en, ew, ee⟩ := ih (by omega)
    have hp : 2 ^ (d + 1) = 2 * 2 ^ d := by ring
    have ml : ((midDegrees b.north b.south : Degrees) : ℚ) = edge (d + 1) (2 * i + 1) := by
      show midDouble b.north b.south = _
      rw [en, es]
      exact (edge_mid (by omega) hi).1
    have mo : ((midDegrees b.east b.west : Degrees) : ℚ) = edge (d + 1) (2 * j + 1) := by
      show midDouble b.east b.west = _
      rw [ee, ew]
      exact (edge_mid (by omega) hj).1
    have s1 : (b.south : ℚ) = edge (d + 1) (2 * i) := by rw [es, edge_double]
    have n1 : (b.north : ℚ) = edge (d + 1) (2 * i + 1 + 1) := by
      rw [en, show 2 * i + 1 + 1 = 2 * (i + 1) by ring, edge_double]
    have w1 : (b.west : ℚ) = edge (d + 1) (2 * j) := by rw [ew, edge_double]
    have e1 : (b.east : ℚ) = edge (d + 1) (2 * j + 1 + 1) := by
      rw [ee, show 2 * j + 1 + 1 = 2 * (j + 1) by ring, edge_double]
    cases hq with
    | nw => exact ⟨2 * i + 1, 2 * j, by omega, by omega, ml, n1, w1, mo⟩
    | ne => exact ⟨2 * i + 1, 2 * j + 1, by omega, by omega, ml, n1, mo, e1⟩
    | sw => exact ⟨2 * i, 2 * j, by omega, by omega, s1, ml, w1, mo⟩
    | se => exact ⟨2 * i, 2 * j + 1, by omega, by omega, s1, ml, mo, e1⟩

/-- C110.  Aligning a box gives a cell of the exact quadtree, at level 25 or above, that holds the box. -/
theorem C110_aligned {r b : Bbox Degrees} (h : createAligned midDegrees world.south world.north r = some b) :
    Within r b ∧ ∃ d i j, d ≤ 25 ∧ i < 2 ^ d ∧ j < 2 ^ d ∧ ExactCell d i j b := by
  obtain ⟨h1, d, hd, hc⟩ := (C42_world midDegrees world.south world.north r).2 b h
  obtain ⟨i, j, hi, hj, he⟩ := C110_exact (b := b) hc (by omega)
  exact ⟨h1, d, i, j, hd, hi, hj, he⟩

/-! ## What is written of it -/

theorem edge_le {d i : ℕ} (hi : i ≤ 2 ^ d) : |edge d i| ≤ 180 := by
  unfold edge
  have h2 : (0 : ℚ) < 2 ^ d := by positivity
  have hi' : (i : ℚ) ≤ 2 ^ d := by exact_mod_cast hi
  have h0 : (0 : ℚ) ≤ 360 * i / 2 ^ d := by positivity
  have h3 : 360 * (i : ℚ) / 2 ^ d ≤ 360 := by rw [div_le_iff₀ h2]; linarith
  rw [abs_le]
  constructor <;> linarith

theorem edge_fifteen {d i : ℕ} (hd : d ≤ 15) (hi : i ≤ 2 ^ d) : Fifteen |edge d i| := by
  have hle := edge_le hi
  have key : ∃ n : ℤ, edge d i = n * 10 ^ (-12 : ℤ) := by
    rcases Nat.eq_zero_or_pos d with rfl | h0
    · exact ⟨(-180 + 360 * i) * 10 ^ 12, by unfold edge; norm_num; ring⟩
    · refine ⟨45 * (i - 2 ^ (d - 1)) * 2 ^ (15 - d) * 5 ^ 12, ?_⟩
      have e1 : (2 : ℚ) ^ d = 2 * 2 ^ (d - 1) := by
        rw [← pow_succ']; congr 1; omega
      have e2 : (2 : ℚ) ^ d * 2 ^ (15 - d) = 2 ^ 15 := by
        rw [← pow_add]; congr 1; omega
      have h2 : (2 : ℚ) ^ d ≠ 0 := by positivity
      unfold edge
      push_cast
      have e3 : (2 : ℚ) ^ (15 - d) = 2 ^ 15 / 2 ^ d := by rw [eq_div_iff h2]; linarith
      have e4 : (2 : ℚ) ^ (d - 1) = 2 ^ d / 2 := by rw [e1]; ring
      rw [e3, e4]
      field_simp
      norm_num
      ring
  obtain ⟨n, hn⟩ := key
  have habs : |edge d i| = n.natAbs * 10 ^ (-12 : ℤ) := by
    rw [hn, abs_mul, abs_of_pos (zpow_pos (by norm_num : (0 : ℚ) < 10) _), Nat.cast_natAbs]
    push_cast
    rfl
  refine ⟨n.natAbs, -12, ?_, habs⟩
  rw [habs] at hle
  have h12 : (10 : ℚ) ^ (-12 : ℤ) = 1 / 10 ^ 12 := by norm_num
  rw [h12] at hle
  have h1 : (n.natAbs : ℚ) ≤ 180 * 10 ^ 12 := by linarith
  have h2 : n.natAbs ≤ 180 * 10 ^ 12 := by exact_mod_cast h1
  omega

theorem edge_small {d i : ℕ} (hd : d ≤ 47) : edge d i = 0 ∨ 10 ^ (-308 : ℤ) ≤ |edge d i| := by
  rw [edge_eq]
  by_cases hz : (45 * (2 * i - 2 ^ d) : ℤ) = 0
  · left; rw [hz]; simp
  · right
    rw [abs_mul, abs_of_pos (zpow_pos (by norm_num : (0 : ℚ) < 2) _)]
    have h1 : (1 : ℚ) ≤ |((45 * (2 * i - 2 ^ d) : ℤ) : ℚ)| := by
      have : (1 : ℤ) ≤ |(45 * (2 * i - 2 ^ d) : ℤ)| := Int.one_le_abs hz
      exact_mod_cast this
    refine le_trans ?_ (le_mul_of_one_le_left (zpow_pos (by norm_num) _).le h1)
    refine le_trans ?_ (two_le (by omega : (-45 : ℤ) ≤ 2 - d))
    norm_num

/-- C110.  Down to level 15 the edges of a region are written exactly.  Missing from the full statement: deeper levels,
whose edges have more than 15 digits (`C110_written_violated`). -/
theorem C110_written_partial {d i : ℕ} (hd : d ≤ 15) (hi : i ≤ 2 ^ d) :
    Stands (writeDouble (decide (edge d i < 0), |edge d i|)) (decide (edge d i < 0)) |edge d i| := by
  have h := written_fifteen (b := decide (edge d i < 0)) (edge_fifteen hd hi) (by
    rcases edge_small (d := d) (i := i) (by omega) with h | h
    · left; rw [h]; simp
    · exact Or.inr ⟨h, le_trans (edge_le hi) (by norm_num)⟩)
  rwa [toDouble_double (edge_signed (by omega) hi)] at h

/-- C110.  The edges of deeper regions are not written exactly: the first one of level 16 to the east of -180. -/
theorem C110_written_violated : edge 16 1 = -(179.9945068359375 : ℚ) ∧
    writeDouble (true, 179.9945068359375) = "-179.994506835938".toList ∧
    readDouble (writeDouble (true, 179.9945068359375)) ≠ (true, 179.9945068359375) := by
  refine ⟨by norm_num [edge], by decide +kernel, by decide +kernel⟩

theorem one_signed : IsSigned 1 ∧ |(1 : ℚ)| ≤ 180 := by
  refine ⟨?_, by norm_num⟩
  have := signed_of_int (m := 1) (k := 0) (by norm_num) (by norm_num) (by norm_num)
  simpa using this

/-- The double just below 1. -/
def below : ℚ := 9007199254740991 / 9007199254740992

theorem below_signed : IsSigned below ∧ |below| ≤ 180 := by
  refine ⟨?_, by norm_num [below, abs_of_pos]⟩
  have := signed_of_int (m := 9007199254740991) (k := -53) (by norm_num) (by norm_num) (by norm_num)
  have e : ((9007199254740991 : ℤ) : ℚ) * 2 ^ (-53 : ℤ) = below := by norm_num [below]
  rwa [e] at this

/-- C110.  Two doubles side by side: the midpoint is one of them, and the child region is as high as its parent. -/
theorem C110_shrinks_violated : ∃ b : Bbox Degrees, (b.south : ℚ) < b.north ∧
    (childBox midDegrees b .sw).north = b.north ∧ (childBox midDegrees b .sw).south = b.south := by
  refine ⟨⟨⟨1, one_signed⟩, ⟨below, below_signed⟩, ⟨1, one_signed⟩, ⟨below, below_signed⟩⟩, by norm_num [below], ?_, rfl⟩
  apply Subtype.ext
  show midDouble 1 below = 1
  decide +kernel

/-! ## Non-vacuity -/

/-- A box that is not the world: from -10.5 to 20.25 and from 3 to 4. -/
example : ∃ b : Bbox Degrees, Geo.Proper b ∧ (b.north : ℚ) = 81 / 4 ∧ (b.south : ℚ) = -21 / 2 ∧
    ((b.center midDegrees).1 : ℚ) = 39 / 8 := by
  have e1 := signed_of_int (m := 81) (k := -2) (by norm_num) (by norm_num) (by norm_num)
  have e2 := signed_of_int (m := -21) (k := -1) (by norm_num) (by norm_num) (by norm_num)
  have f1 : ((81 : ℤ) : ℚ) * 2 ^ (-2 : ℤ) = 81 / 4 := by norm_num
  have f2 : ((-21 : ℤ) : ℚ) * 2 ^ (-1 : ℤ) = -21 / 2 := by norm_num
  rw [f1] at e1
  rw [f2] at e2
  refine ⟨⟨⟨81 / 4, e1, by norm_num [abs_of_pos]⟩, ⟨-21 / 2, e2, by norm_num [abs_le]⟩, ⟨81 / 4, e1, by norm_num [abs_of_pos]⟩,
    ⟨-21 / 2, e2, by norm_num [abs_le]⟩⟩, ⟨?_, ?_⟩, rfl, rfl, ?_⟩
  · show (-21 / 2 : ℚ) ≤ 81 / 4; norm_num
  · show (-21 / 2 : ℚ) ≤ 81 / 4; norm_num
  · show midDouble (81 / 4) (-21 / 2) = 39 / 8
    decide +kernel

/-- The sum of these two is rounded. -/
example : fl (1 + below) = 2 ∧ (1 : ℚ) + below ≠ 2 := by
  constructor
  · decide +kernel
  · norm_num [below]

/-- The north-west quarter of the world. -/
example : Cell midDegrees world 1 (childBox midDegrees world .nw) ∧ ((childBox midDegrees world .nw).south : ℚ) = 0 := by
  refine ⟨.child .root .nw, ?_⟩
  show midDouble (edge 0 1) (edge 0 0) = 0
  decide +kernel

/-- Aligning the point 1, 1 goes down to a cell. -/
example : ∃ b, createAligned midDegrees world.south world.north ⟨⟨1, one_signed⟩, ⟨1, one_signed⟩, ⟨1, one_signed⟩, ⟨1, one_signed⟩⟩
    = some b := by
  rcases h : createAligned midDegrees world.south world.north ⟨⟨1, one_signed⟩, ⟨1, one_signed⟩, ⟨1, one_signed⟩, ⟨1, one_signed⟩⟩
    with _ | b
  · exfalso
    refine ((C42_world _ _ _ _).1.1 h) ⟨?_, ?_, ?_, ?_⟩
    · show edge 0 0 ≤ (1 : ℚ); norm_num [edge]
    · show (1 : ℚ) ≤ edge 0 1; norm_num [edge]
    · show edge 0 0 ≤ (1 : ℚ); norm_num [edge]
    · show (1 : ℚ) ≤ edge 0 1; norm_num [edge]
  · exact ⟨b, rfl⟩

end Kml.Ieee
