import Verif.Spec.Geo
import Mathlib.Order.MinMax
import Mathlib.Data.List.Perm.Basic
/-! Properties C41 and C42: bounding boxes and quadtree alignment. -/
namespace Kml.Geo
variable {K : Type u} [LinearOrder K]

theorem contains_iff (b : Bbox K) (lat lon : K) : b.contains lat lon = true ↔ Covers b lat lon := by
  simp only [Bbox.contains, Covers, Bool.and_eq_true, decide_eq_true_eq]; tauto

theorem containedByBbox_iff (b c : Bbox K) : b.containedByBbox c = true ↔ Within b c := by
  simp only [Bbox.containedByBbox, Bbox.containedByBox, Within, Bool.and_eq_true, decide_eq_true_eq]; tauto

/-! #### C41 -/

/-- One expansion: by a position or by a box. -/
inductive Expansion (K : Type u) where
  | latLon (lat lon : K)
  | box (b : Bbox K)

def expand (b : Bbox K) : Expansion K → Bbox K
  | .latLon lat lon => b.expandLatLon lat lon
  | .box c => b.expandFromBbox c

/-- The box covers what it was expanded with. -/
def Expansion.In (b : Bbox K) : Expansion K → Prop
  | .latLon lat lon => Covers b lat lon
  | .box c => Within c b

/-- A position, or a box with at least one point. -/
def Expansion.Ok : Expansion K → Prop
  | .latLon _ _ => True
  | .box c => Proper c

theorem expandLatitude_eq (b : Bbox K) (x : K) :
    b.expandLatitude x = ⟨max b.north x, min b.south x, b.east, b.west⟩ := by
  obtain ⟨n, s, e, w⟩ := b
  simp only [Bbox.expandLatitude]
  by_cases h1 : n < x <;> simp only [h1, if_true, if_false] <;> by_cases h2 : x < s <;> simp only [h2, if_true, if_false]
  · rw [max_eq_right (le_of_lt h1), min_eq_right (le_of_lt h2)]
  · rw [max_eq_right (le_of_lt h1), min_eq_left (not_lt.1 h2)]
  · rw [max_eq_left (not_lt.1 h1), min_eq_right (le_of_lt h2)]
  · rw [max_eq_left (not_lt.1 h1), min_eq_left (not_lt.1 h2)]

theorem expandLongitude_eq (b : Bbox K) (x : K) :
    b.expandLongitude x = ⟨b.north, b.south, max b.east x, min b.west x⟩ := by
  obtain ⟨n, s, e, w⟩ := b
  simp only [Bbox.expandLongitude]
  by_cases h1 : e < x <;> simp only [h1, if_true, if_false] <;> by_cases h2 : x < w <;> simp only [h2, if_true, if_false]
  · rw [max_eq_right (le_of_lt h1), min_eq_right (le_of_lt h2)]
  · rw [max_eq_right (le_of_lt h1), min_eq_left (not_lt.1 h2)]
  · rw [max_eq_left (not_lt.1 h1), min_eq_right (le_of_lt h2)]
  · rw [max_eq_left (not_lt.1 h1), min_eq_left (not_lt.1 h2)]

theorem within_expand (b c : Bbox K) (x : Expansion K) (hx : x.Ok) :
    Within (expand b x) c ↔ Within b c ∧ x.In c := by
  cases x with
  | latLon lat lon =>
    simp only [expand, Bbox.expandLatLon, expandLatitude_eq, expandLongitude_eq, Within, Expansion.In, Covers,
      max_le_iff, le_min_iff]
    tauto
  | box d =>
    simp only [expand, Bbox.expandFromBbox, expandLatitude_eq, expandLongitude_eq, Within, Expansion.In,
      max_le_iff, le_min_iff]
    obtain ⟨h1, h2⟩ := hx
    constructor
    · tauto
    · rintro ⟨⟨a1, a2, a3, a4⟩, b1, b2, b3, b4⟩
      exact ⟨⟨⟨a1, le_trans b1 h1⟩, b1⟩, ⟨⟨a2, b2⟩, le_trans h1 b2⟩, ⟨⟨a3, le_trans b3 h2⟩, b3⟩, ⟨a4, b4⟩, le_trans h2 b4⟩

/-- The boxes around a box that was expanded are exactly the boxes around the original one that cover everything it
was expanded with: the result is the smallest of them. -/
theorem C41_smallest_around (start : Bbox K) (xs : List (Expansion K)) (h : ∀ x ∈ xs, x.Ok) (c : Bbox K) :
    Within (xs.foldl expand start) c ↔ Within start c ∧ ∀ x ∈ xs, x.In c := by
  induction xs generalizing start with
  | nil => simp
  | cons x xs ih =>
    simp only [List.foldl_cons]
    rw [ih _ (fun y hy => h y (by simp [hy])), within_expand _ _ _ (h x (by simp))]
    simp [and_assoc]

/-- After any expansions the box covers everything it was expanded with. -/
theorem C41_contains (start : Bbox K) (xs : List (Expansion K)) (h : ∀ x ∈ xs, x.Ok) (x : Expansion K) (hx : x ∈ xs) :
    x.In (xs.foldl expand start) :=
  ((C41_smallest_around start xs h _).1 ⟨le_refl _, le_refl _, le_refl _, le_refl _⟩).2 x hx

/-- The same in terms of the API: `Contains` and `ContainedByBbox` answer yes. -/
theorem C41_api (start : Bbox K) (xs : List (Expansion K)) (h : ∀ x ∈ xs, x.Ok) :
    (∀ lat lon, .latLon lat lon ∈ xs → (xs.foldl expand start).contains lat lon = true) ∧
    (∀ b, .box b ∈ xs → b.containedByBbox (xs.foldl expand start) = true) :=
  ⟨fun _ _ hx => (contains_iff _ _ _).2 (C41_contains start xs h _ hx),
   fun _ hx => (containedByBbox_iff _ _).2 (C41_contains start xs h _ hx)⟩

theorem bbox_eq_of_within {a b : Bbox K} (h1 : Within a b) (h2 : Within b a) : a = b := by
  obtain ⟨n, s, e, w⟩ := a
  obtain ⟨n', s', e', w'⟩ := b
  obtain ⟨a1, a2, a3, a4⟩ := h1
  obtain ⟨b1, b2, b3, b4⟩ := h2
  simp only [Bbox.mk.injEq]
  exact ⟨le_antisymm a2 b2, le_antisymm b1 a1, le_antisymm a4 b4, le_antisymm b3 a3⟩

/-- The order of the expansions does not matter. -/
theorem C41_order (start : Bbox K) (xs ys : List (Expansion K)) (h : ∀ x ∈ xs, x.Ok) (hp : xs.Perm ys) :
    xs.foldl expand start = ys.foldl expand start := by
  have h' : ∀ y ∈ ys, y.Ok := fun y hy => h y (hp.mem_iff.2 hy)
  have refl : ∀ b : Bbox K, Within b b := fun b => ⟨le_refl _, le_refl _, le_refl _, le_refl _⟩
  apply bbox_eq_of_within
  · rw [C41_smallest_around _ _ h]
    have := (C41_smallest_around start ys h' _).1 (refl _)
    exact ⟨this.1, fun x hx => this.2 x (hp.mem_iff.1 hx)⟩
  · rw [C41_smallest_around _ _ h']
    have := (C41_smallest_around start xs h _).1 (refl _)
    exact ⟨this.1, fun x hx => this.2 x (hp.mem_iff.2 hx)⟩

/-- All coordinates are within the limits the default box is made for. -/
def Expansion.InRange (lo hi : K) (x : Expansion K) : Prop := x.In ⟨hi, lo, hi, lo⟩

/-- Starting from a default box, the result is the smallest box around everything it was expanded with. -/
theorem C41_smallest (lo hi : K) (xs : List (Expansion K)) (h : ∀ x ∈ xs, x.Ok) (hr : ∀ x ∈ xs, x.InRange lo hi)
    (hne : xs ≠ []) (c : Bbox K) :
    Within (xs.foldl expand (Bbox.init lo hi)) c ↔ ∀ x ∈ xs, x.In c := by
  rw [C41_smallest_around _ _ h]
  refine ⟨fun h => h.2, fun hc => ⟨?_, hc⟩⟩
  cases xs with
  | nil => exact absurd rfl hne
  | cons x xs =>
    have h0 := h x (by simp)
    have h1 := hr x (by simp)
    have h2 := hc x (by simp)
    cases x with
    | latLon lat lon =>
      obtain ⟨a1, a2, a3, a4⟩ := h1
      obtain ⟨b1, b2, b3, b4⟩ := h2
      exact ⟨le_trans b1 a2, le_trans a1 b2, le_trans b3 a4, le_trans a3 b4⟩
    | box d =>
      obtain ⟨a1, a2, a3, a4⟩ := h1
      obtain ⟨b1, b2, b3, b4⟩ := h2
      obtain ⟨c1, c2⟩ := h0
      exact ⟨le_trans b1 (le_trans c1 a2), le_trans (le_trans a1 c1) b2, le_trans b3 (le_trans c2 a4),
        le_trans (le_trans a3 c2) b4⟩

/-- A default box that was not expanded covers no position, if the limits are not equal. -/
theorem C41_default_empty (lo hi : K) (h : lo < hi) (lat lon : K) : (Bbox.init lo hi).contains lat lon = false := by
  rw [← Bool.not_eq_true, contains_iff]
  rintro ⟨h1, h2, _⟩
  exact absurd (le_trans h1 h2) (not_le.2 h)

/-- Three expansions that meet the hypotheses, and what comes out. -/
example :
    (∀ x ∈ ([.latLon 10 20, .latLon (-5) 30, .box ⟨12, 11, 22, 21⟩] : List (Expansion Int)), x.Ok ∧ x.InRange (-180) 180) ∧
    ([.latLon 10 20, .latLon (-5) 30, .box ⟨12, 11, 22, 21⟩] : List (Expansion Int)).foldl expand (Bbox.init (-180) 180)
      = ⟨12, -5, 30, 20⟩ := by
  refine ⟨?_, by decide⟩
  intro x hx
  simp only [List.mem_cons, List.not_mem_nil, or_false] at hx
  rcases hx with rfl | rfl | rfl <;>
    simp [Expansion.Ok, Expansion.InRange, Expansion.In, Covers, Within, Proper]

/-- The restriction to proper boxes is needed: expanding by a default (empty) box gives the whole world. -/
theorem C41_empty_box_violated :
    (Bbox.init (-180) 180 : Bbox Int).expandFromBbox (Bbox.init (-180) 180) = ⟨180, -180, 180, -180⟩ := by decide

/-- The restriction to the limits is needed: beyond them the box is not the smallest. -/
theorem C41_range_violated : (Bbox.init (-180) 180 : Bbox Int).expandLatLon 200 0 = ⟨200, 180, 0, 0⟩ := by decide

/-! #### C42 -/

theorem quarter_within {mid : K → K → K} (hm : Between mid) {b c : Bbox K} (hb : Proper b) (h : Quarter mid b c) :
    Within c b ∧ Proper c := by
  have h1 := hm b.north b.south hb.1
  have h2 := hm b.east b.west hb.2
  cases h <;> exact ⟨⟨by simp_all, by simp_all, by simp_all, by simp_all⟩, by simp_all, by simp_all⟩

theorem alignStep_spec (mid : K → K → K) (r qt : Bbox K) :
    (∀ q, r.alignStep mid qt = some q → Quarter mid qt q ∧ Within r q) ∧
    (r.alignStep mid qt = none → ∀ q, Quarter mid qt q → ¬ Within r q) := by
  simp only [Bbox.alignStep]
  split
  · rename_i h
    refine ⟨fun q hq => ?_, fun h => by cases h⟩
    cases hq
    exact ⟨.ne, (containedByBbox_iff _ _).1 h⟩
  · rename_i h1
    split
    · rename_i h
      refine ⟨fun q hq => ?_, fun h => by cases h⟩
      cases hq
      exact ⟨.nw, (containedByBbox_iff _ _).1 h⟩
    · rename_i h2
      split
      · rename_i h
        refine ⟨fun q hq => ?_, fun h => by cases h⟩
        cases hq
        exact ⟨.se, (containedByBbox_iff _ _).1 h⟩
      · rename_i h3
        split
        · rename_i h
          refine ⟨fun q hq => ?_, fun h => by cases h⟩
          cases hq
          exact ⟨.sw, (containedByBbox_iff _ _).1 h⟩
        · rename_i h4
          refine ⟨fun q hq => (by cases hq), fun _ q hq hw => ?_⟩
          have hw' := (containedByBbox_iff _ _).2 hw
          cases hq
          · exact h2 hw'
          · exact h1 hw'
          · exact h4 hw'
          · exact h3 hw'

theorem align_cell (mid : K → K → K) (root r : Bbox K) : ∀ (depth d : Nat) (qt : Bbox K), Cell mid root d qt → Within r qt →
    ∃ d', d' ≤ d + depth + 1 ∧ Cell mid root d' (r.align mid qt depth) ∧ Within r (r.align mid qt depth) ∧
      (d' = d + depth + 1 ∨ ∀ q, Quarter mid (r.align mid qt depth) q → ¬ Within r q) := by
  intro depth
  induction depth with
  | zero =>
    intro d qt hc hw
    rw [Bbox.align]
    have hs := alignStep_spec mid r qt
    cases h : r.alignStep mid qt with
    | none => exact ⟨d, by omega, hc, hw, Or.inr (hs.2 h)⟩
    | some q =>
      obtain ⟨h1, h2⟩ := hs.1 q h
      exact ⟨d + 1, by omega, .child hc h1, h2, Or.inl (by omega)⟩
  | succ n ih =>
    intro d qt hc hw
    rw [Bbox.align]
    have hs := alignStep_spec mid r qt
    cases h : r.alignStep mid qt with
    | none => exact ⟨d, by omega, hc, hw, Or.inr (hs.2 h)⟩
    | some q =>
      obtain ⟨h1, h2⟩ := hs.1 q h
      obtain ⟨d', e1, e2, e3, e4⟩ := ih (d + 1) q (.child hc h1) h2
      refine ⟨d', by omega, e2, e3, ?_⟩
      rcases e4 with e4 | e4
      · exact Or.inl (by omega)
      · exact Or.inr e4

/-- Aligning a box within a quadtree gives a cell of the quadtree that still holds the box; no quarter of that cell
holds it, unless the cell is at the last level.  Missing from the full property: the last level is one more than the
requested depth. -/
theorem C42_align_partial (mid : K → K → K) (r root : Bbox K) (depth : Nat) (h : Within r root) :
    ∃ level, level ≤ depth + 1 ∧ Cell mid root level (r.align mid root depth) ∧ Within r (r.align mid root depth) ∧
      (level = depth + 1 ∨ ∀ q, Quarter mid (r.align mid root depth) q → ¬ Within r q) := by
  obtain ⟨d, h1, h2, h3, h4⟩ := align_cell mid root r depth 0 root .root h
  exact ⟨d, by omega, h2, h3, by rcases h4 with h4 | h4; exact Or.inl (by omega); exact Or.inr h4⟩

/-- A box that is not in the quadtree leaves the quadtree as it is or descends to no cell that leaves it: the result
is always a cell of the quadtree. -/
theorem C42_always_cell (mid : K → K → K) (r root : Bbox K) (depth : Nat) :
    ∃ level, level ≤ depth + 1 ∧ Cell mid root level (r.align mid root depth) := by
  have : ∀ (depth d : Nat) (qt : Bbox K), Cell mid root d qt →
      ∃ d', d' ≤ d + depth + 1 ∧ Cell mid root d' (r.align mid qt depth) := by
    intro depth
    induction depth with
    | zero =>
      intro d qt hc
      rw [Bbox.align]
      cases h : r.alignStep mid qt with
      | none => exact ⟨d, by omega, hc⟩
      | some q => exact ⟨d + 1, by omega, .child hc ((alignStep_spec mid r qt).1 q h).1⟩
    | succ n ih =>
      intro d qt hc
      rw [Bbox.align]
      cases h : r.alignStep mid qt with
      | none => exact ⟨d, by omega, hc⟩
      | some q =>
        obtain ⟨d', e1, e2⟩ := ih (d + 1) q (.child hc ((alignStep_spec mid r qt).1 q h).1)
        exact ⟨d', by omega, e2⟩
  obtain ⟨d, h1, h2⟩ := this depth 0 root .root
  exact ⟨d, by omega, h2⟩

/-- Every cell of a quadtree lies within its root. -/
theorem C42_cells_within (mid : K → K → K) (hm : Between mid) (root : Bbox K) (hr : Proper root) (d : Nat) (b : Bbox K)
    (h : Cell mid root d b) : Within b root ∧ Proper b := by
  induction h with
  | root => exact ⟨⟨le_refl _, le_refl _, le_refl _, le_refl _⟩, hr⟩
  | child _ hq ih =>
    obtain ⟨⟨a1, a2, a3, a4⟩, hp⟩ := ih
    obtain ⟨⟨b1, b2, b3, b4⟩, hp'⟩ := quarter_within hm hp hq
    exact ⟨⟨le_trans a1 b1, le_trans b2 a2, le_trans a3 b3, le_trans b4 a4⟩, hp'⟩

/-- The alignment for regions: it fails exactly for boxes that leave the world square; otherwise the result holds the
box and is a cell of the quadtree over the world square. -/
theorem C42_world (mid : K → K → K) (lo hi : K) (r : Bbox K) :
    (createAligned mid lo hi r = none ↔ ¬ Within r ⟨hi, lo, hi, lo⟩) ∧
    (∀ b, createAligned mid lo hi r = some b → Within r b ∧ ∃ level, level ≤ 25 ∧ Cell mid ⟨hi, lo, hi, lo⟩ level b) := by
  simp only [createAligned]
  constructor
  · rw [← containedByBbox_iff]; split <;> simp_all
  · intro b hb
    split at hb
    · rename_i hc
      cases hb
      obtain ⟨d, h1, h2, h3, _⟩ := C42_align_partial mid r ⟨hi, lo, hi, lo⟩ 24 ((containedByBbox_iff _ _).1 hc)
      exact ⟨h3, d, h1, h2⟩
    · cases hb

example : Between (fun a b : Int => (a + b) / 2) := by intro a b h; simp only; omega
example : Within (⟨30, 20, 40, 35⟩ : Bbox Int) ⟨128, 0, 128, 0⟩ ∧
    (⟨30, 20, 40, 35⟩ : Bbox Int).align (fun a b => (a + b) / 2) ⟨128, 0, 128, 0⟩ 10 = ⟨32, 16, 48, 32⟩ := by
  exact ⟨by simp [Within], by decide⟩

/-- The full property fails: asked for depth 0, the alignment still descends one level. -/
theorem C42_depth_violated :
    (⟨30, 20, 40, 35⟩ : Bbox Int).align (fun a b => (a + b) / 2) ⟨128, 0, 128, 0⟩ 0 = ⟨64, 0, 64, 0⟩ := by decide

end Kml.Geo
