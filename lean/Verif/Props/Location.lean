import Verif.Model.Location
import Verif.Props.Bbox
/-! Property C43: feature bounds. -/
namespace Kml.Geo
variable {K : Type u} [LinearOrder K]

/-! #### Specification: the positions of a feature -/

def coordsOf (c : Coords K) : List (Pos K) := c.getD []

mutual
/-- All positions of a geometry. -/
def Geometry.positions : Geometry K → List (Pos K)
  | .point c => coordsOf c
  | .lineString c => coordsOf c
  | .linearRing c => coordsOf c
  | .polygon outer inner => coordsOf ((outer.getD none).getD none) ++ inner.flatMap coordsOf
  | .model l => l.toList
  | .multi gs => Geometry.positionsList gs
  | .track ps => ps
def Geometry.positionsList : List (Geometry K) → List (Pos K)
  | [] => []
  | g :: gs => g.positions ++ Geometry.positionsList gs
end

mutual
/-- All positions of a feature and the features in it. -/
def Feature.positions : Feature K → List (Pos K)
  | .placemark g => (g.map Geometry.positions).getD []
  | .photoOverlay p => coordsOf (p.getD none)
  | .container fs => Feature.positionsList fs
  | .other => []
def Feature.positionsList : List (Feature K) → List (Pos K)
  | [] => []
  | f :: fs => f.positions ++ Feature.positionsList fs
end

mutual
/-- No track and no polygon with inner boundaries. -/
def Geometry.Simple : Geometry K → Prop
  | .polygon _ inner => inner = []
  | .multi gs => Geometry.SimpleList gs
  | .track _ => False
  | _ => True
def Geometry.SimpleList : List (Geometry K) → Prop
  | [] => True
  | g :: gs => g.Simple ∧ Geometry.SimpleList gs
end

mutual
def Feature.Simple : Feature K → Prop
  | .placemark (some g) => g.Simple
  | .container fs => Feature.SimpleList fs
  | _ => True
def Feature.SimpleList : List (Feature K) → Prop
  | [] => True
  | f :: fs => f.Simple ∧ Feature.SimpleList fs
end

/-- The box expanded by each position. -/
def around (b : Bbox K) (ps : List (Pos K)) : Bbox K := ps.foldl (fun b p => b.expandLatLon p.1 p.2) b

theorem around_append (b : Bbox K) (ps qs : List (Pos K)) : around b (ps ++ qs) = around (around b ps) qs := by
  simp [around]

theorem coordinatesBounds_eq (c : Coords K) (b : Bbox K) :
    coordinatesBounds c b = (!(coordsOf c).isEmpty, around b (coordsOf c)) := by
  cases c <;> simp [coordinatesBounds, coordsOf, around]

theorem not_isEmpty_append (ps qs : List α) : (!(ps ++ qs).isEmpty) = (!ps.isEmpty || !qs.isEmpty) := by
  cases ps <;> simp

theorem geometryBounds_eq (g : Geometry K) (hs : g.Simple) (b : Bbox K) :
    geometryBounds g b = (!g.positions.isEmpty, around b g.positions) := by
  refine Geometry.rec (motive_1 := fun g => g.Simple → ∀ b, geometryBounds g b = (!g.positions.isEmpty, around b g.positions))
    (motive_2 := fun gs => Geometry.SimpleList gs → ∀ b, geometriesBounds gs b
      = (!(Geometry.positionsList gs).isEmpty, around b (Geometry.positionsList gs)))
    ?_ ?_ ?_ ?_ ?_ ?_ ?_ ?_ ?_ g hs b
  · intro c _ b; simp only [geometryBounds, Geometry.positions, coordinatesBounds_eq]
  · intro c _ b; simp only [geometryBounds, Geometry.positions, coordinatesBounds_eq]
  · intro c _ b; simp only [geometryBounds, Geometry.positions, coordinatesBounds_eq]
  · intro o i hs b
    simp only [Geometry.Simple] at hs
    subst hs
    rcases o with _ | _ | c
    · simp [geometryBounds, Geometry.positions, coordsOf, around]
    · simp [geometryBounds, Geometry.positions, coordsOf, around]
    · simp only [geometryBounds, Geometry.positions, coordinatesBounds_eq]
      simp
  · intro l _ b
    cases l <;> simp [geometryBounds, Geometry.positions, around]
  · intro gs ih hs b
    simp only [geometryBounds, Geometry.positions]
    exact ih (by simpa only [Geometry.Simple] using hs) b
  · intro ps hs; simp [Geometry.Simple] at hs
  · intro _ b; simp [geometriesBounds, Geometry.positionsList, around]
  · intro g gs ih1 ih2 hs b
    simp only [Geometry.SimpleList] at hs
    simp only [geometriesBounds, Geometry.positionsList, ih1 hs.1, ih2 hs.2, around_append, not_isEmpty_append]

theorem featureBounds_eq (f : Feature K) (hs : f.Simple) (b : Bbox K) :
    featureBounds f b = (!f.positions.isEmpty, around b f.positions) := by
  refine Feature.rec (motive_1 := fun f => f.Simple → ∀ b, featureBounds f b = (!f.positions.isEmpty, around b f.positions))
    (motive_2 := fun fs => Feature.SimpleList fs → ∀ b, featuresBounds fs b
      = (!(Feature.positionsList fs).isEmpty, around b (Feature.positionsList fs)))
    ?_ ?_ ?_ ?_ ?_ ?_ f hs b
  · intro g hs b
    cases g with
    | none => simp [featureBounds, Feature.positions, around]
    | some g =>
      simp only [featureBounds, Feature.positions, Option.map_some, Option.getD_some]
      exact geometryBounds_eq g (by simpa only [Feature.Simple] using hs) b
  · intro p _ b
    cases p with
    | none => simp [featureBounds, Feature.positions, coordsOf, around]
    | some c => simp only [featureBounds, Feature.positions, coordinatesBounds_eq, Option.getD_some]
  · intro fs ih hs b
    simp only [featureBounds, Feature.positions]
    exact ih (by simpa only [Feature.Simple] using hs) b
  · intro _ b; simp [featureBounds, Feature.positions, around]
  · intro _ b; simp [featuresBounds, Feature.positionsList, around]
  · intro f fs ih1 ih2 hs b
    simp only [Feature.SimpleList] at hs
    simp only [featuresBounds, Feature.positionsList, ih1 hs.1, ih2 hs.2, around_append, not_isEmpty_append]

theorem within_around (b c : Bbox K) (ps : List (Pos K)) :
    Within (around b ps) c ↔ Within b c ∧ ∀ p ∈ ps, Covers c p.1 p.2 := by
  have := C41_smallest_around b (ps.map fun p => .latLon p.1 p.2) (by
    intro x hx
    obtain ⟨p, _, rfl⟩ := List.mem_map.1 hx
    trivial) c
  rw [List.foldl_map, List.forall_mem_map] at this
  exact this

/-- Bounds are reported exactly for the features that have some position, and then they cover every position of the
feature.  Missing from the full property: features with tracks or with inner boundaries of polygons. -/
theorem C43_covers_partial (f : Feature K) (hs : f.Simple) (b : Bbox K) :
    ((featureBounds f b).1 = true ↔ f.positions ≠ []) ∧
    ∀ p ∈ f.positions, Covers (featureBounds f b).2 p.1 p.2 := by
  rw [featureBounds_eq f hs]
  refine ⟨by simp, ?_⟩
  exact ((within_around b (around b f.positions) f.positions).1 ⟨le_refl _, le_refl _, le_refl _, le_refl _⟩).2

/-- And they are the smallest such bounds, when started from a default box with positions in the limits. -/
theorem C43_smallest_partial (f : Feature K) (hs : f.Simple) (lo hi : K) (hne : f.positions ≠ [])
    (hr : ∀ p ∈ f.positions, lo ≤ p.1 ∧ p.1 ≤ hi ∧ lo ≤ p.2 ∧ p.2 ≤ hi) (c : Bbox K) :
    Within (featureBounds f (Bbox.init lo hi)).2 c ↔ ∀ p ∈ f.positions, Covers c p.1 p.2 := by
  rw [featureBounds_eq f hs]
  have := C41_smallest lo hi (f.positions.map fun p => .latLon p.1 p.2) (by
    intro x hx
    obtain ⟨p, _, rfl⟩ := List.mem_map.1 hx
    trivial) (by
    intro x hx
    obtain ⟨p, hp, rfl⟩ := List.mem_map.1 hx
    exact hr p hp) (by simpa using hne) c
  rw [List.foldl_map, List.forall_mem_map] at this
  exact this

mutual
/-- The geometry with its tracks and the inner boundaries of its polygons taken out. -/
def Geometry.plain : Geometry K → Geometry K
  | .polygon outer _ => .polygon outer []
  | .multi gs => .multi (Geometry.plainList gs)
  | .track _ => .multi []
  | g => g
def Geometry.plainList : List (Geometry K) → List (Geometry K)
  | [] => []
  | g :: gs => g.plain :: Geometry.plainList gs
end

mutual
/-- The feature with the tracks and the inner boundaries of polygons taken out. -/
def Feature.plain : Feature K → Feature K
  | .placemark (some g) => .placemark (some g.plain)
  | .container fs => .container (Feature.plainList fs)
  | f => f
def Feature.plainList : List (Feature K) → List (Feature K)
  | [] => []
  | f :: fs => f.plain :: Feature.plainList fs
end

theorem geometry_plain (g : Geometry K) : g.plain.Simple ∧ ∀ b, geometryBounds g b = geometryBounds g.plain b := by
  refine Geometry.rec (motive_1 := fun g => g.plain.Simple ∧ ∀ b, geometryBounds g b = geometryBounds g.plain b)
    (motive_2 := fun gs => Geometry.SimpleList (Geometry.plainList gs) ∧
      ∀ b, geometriesBounds gs b = geometriesBounds (Geometry.plainList gs) b)
    ?_ ?_ ?_ ?_ ?_ ?_ ?_ ?_ ?_ g
  · intro c; exact ⟨by simp [Geometry.plain, Geometry.Simple], fun b => rfl⟩
  · intro c; exact ⟨by simp [Geometry.plain, Geometry.Simple], fun b => rfl⟩
  · intro c; exact ⟨by simp [Geometry.plain, Geometry.Simple], fun b => rfl⟩
  · intro o i
    refine ⟨by simp [Geometry.plain, Geometry.Simple], fun b => ?_⟩
    rcases o with _ | _ | c <;> rfl
  · intro l; exact ⟨by simp [Geometry.plain, Geometry.Simple], fun b => rfl⟩
  · intro gs ih
    exact ⟨by simpa only [Geometry.plain, Geometry.Simple] using ih.1,
      fun b => by simpa only [Geometry.plain, geometryBounds] using ih.2 b⟩
  · intro ps
    exact ⟨by simp [Geometry.plain, Geometry.Simple, Geometry.SimpleList],
      fun b => by simp [Geometry.plain, geometryBounds, geometriesBounds]⟩
  · exact ⟨by simp [Geometry.plainList, Geometry.SimpleList], fun b => rfl⟩
  · intro g gs h1 h2
    refine ⟨by simpa only [Geometry.plainList, Geometry.SimpleList] using ⟨h1.1, h2.1⟩, fun b => ?_⟩
    simp only [Geometry.plainList, geometriesBounds, h1.2, h2.2]

theorem feature_plain (f : Feature K) : f.plain.Simple ∧ ∀ b, featureBounds f b = featureBounds f.plain b := by
  refine Feature.rec (motive_1 := fun f => f.plain.Simple ∧ ∀ b, featureBounds f b = featureBounds f.plain b)
    (motive_2 := fun fs => Feature.SimpleList (Feature.plainList fs) ∧
      ∀ b, featuresBounds fs b = featuresBounds (Feature.plainList fs) b)
    ?_ ?_ ?_ ?_ ?_ ?_ f
  · intro g
    cases g with
    | none => exact ⟨by simp [Feature.plain, Feature.Simple], fun b => rfl⟩
    | some g =>
      obtain ⟨h1, h2⟩ := geometry_plain g
      exact ⟨by simpa only [Feature.plain, Feature.Simple] using h1,
        fun b => by simpa only [Feature.plain, featureBounds] using h2 b⟩
  · intro p; exact ⟨by simp [Feature.plain, Feature.Simple], fun b => rfl⟩
  · intro fs ih
    exact ⟨by simpa only [Feature.plain, Feature.Simple] using ih.1,
      fun b => by simpa only [Feature.plain, featureBounds] using ih.2 b⟩
  · exact ⟨by simp [Feature.plain, Feature.Simple], fun b => rfl⟩
  · exact ⟨by simp [Feature.plainList, Feature.SimpleList], fun b => rfl⟩
  · intro f fs h1 h2
    refine ⟨by simpa only [Feature.plainList, Feature.SimpleList] using ⟨h1.1, h2.1⟩, fun b => ?_⟩
    simp only [Feature.plainList, featuresBounds, h1.2, h2.2]

/-- **C43, exactly.** Tracks and the inner boundaries of polygons are all that is ignored: whatever the feature,
bounds are reported if and only if some position is left without them, and the bounds are the smallest box around the box
given and the positions that are left. -/
theorem C43_exact (f : Feature K) (b : Bbox K) :
    ((featureBounds f b).1 = true ↔ f.plain.positions ≠ []) ∧
    ∀ c, Within (featureBounds f b).2 c ↔ Within b c ∧ ∀ p ∈ f.plain.positions, Covers c p.1 p.2 := by
  obtain ⟨h1, h2⟩ := feature_plain f
  rw [h2 b, featureBounds_eq _ h1]
  exact ⟨by simp, fun c => within_around b c _⟩

example : (Feature.container [.placemark (some (.multi [.track [(1, 2)], .polygon (some (some (some [(0, 0), (5, 30)]))) [some [(9, 9)]]])),
    .placemark (some (.point (some [(7, 3)])))] : Feature Int).plain.positions = [(0, 0), (5, 30), (7, 3)] := by
  simp [Feature.plain, Feature.plainList, Geometry.plain, Geometry.plainList, Feature.positions, Feature.positionsList,
    Geometry.positions, Geometry.positionsList, coordsOf]

theorem exists_greatest {α : Type v} (f : α → K) {l : List α} (h : l ≠ []) : ∃ x ∈ l, ∀ y ∈ l, f y ≤ f x := by
  induction l with
  | nil => exact absurd rfl h
  | cons a l ih =>
    by_cases hl : l = []
    · exact ⟨a, by simp, fun y hy => by rw [hl] at hy; rw [List.mem_singleton.1 hy]⟩
    · obtain ⟨x, hx, hx'⟩ := ih hl
      rcases le_total (f a) (f x) with hc | hc
      · refine ⟨x, by simp [hx], fun y hy => ?_⟩
        rcases List.mem_cons.1 hy with rfl | hy
        · exact hc
        · exact hx' y hy
      · refine ⟨a, by simp, fun y hy => ?_⟩
        rcases List.mem_cons.1 hy with rfl | hy
        · exact le_refl _
        · exact le_trans (hx' y hy) hc

theorem exists_least {α : Type v} (f : α → K) {l : List α} (h : l ≠ []) : ∃ x ∈ l, ∀ y ∈ l, f x ≤ f y := by
  induction l with
  | nil => exact absurd rfl h
  | cons a l ih =>
    by_cases hl : l = []
    · exact ⟨a, by simp, fun y hy => by rw [hl] at hy; rw [List.mem_singleton.1 hy]⟩
    · obtain ⟨x, hx, hx'⟩ := ih hl
      rcases le_total (f x) (f a) with hc | hc
      · refine ⟨x, by simp [hx], fun y hy => ?_⟩
        rcases List.mem_cons.1 hy with rfl | hy
        · exact hc
        · exact hx' y hy
      · refine ⟨a, by simp, fun y hy => ?_⟩
        rcases List.mem_cons.1 hy with rfl | hy
        · exact le_refl _
        · exact le_trans hc (hx' y hy)

/-- **C43, a single position.** A position is reported for a feature exactly when bounds are.  It is the center of the
smallest box around the positions left without tracks and inner boundaries, and so, as a midpoint lies between the numbers
it is of, within every box that covers these positions. -/
theorem C43_latlon (mid : K → K → K) (hm : Between mid) (lo hi : K) (f : Feature K)
    (hr : ∀ p ∈ f.plain.positions, lo ≤ p.1 ∧ p.1 ≤ hi ∧ lo ≤ p.2 ∧ p.2 ≤ hi) :
    (featureLatLon mid lo hi f = none ↔ f.plain.positions = []) ∧
    ∀ p, featureLatLon mid lo hi f = some p →
      (∃ n ∈ f.plain.positions, ∃ s ∈ f.plain.positions, ∃ e ∈ f.plain.positions, ∃ w ∈ f.plain.positions,
        (∀ q ∈ f.plain.positions, s.1 ≤ q.1 ∧ q.1 ≤ n.1 ∧ w.2 ≤ q.2 ∧ q.2 ≤ e.2) ∧ p = (mid n.1 s.1, mid e.2 w.2)) ∧
      ∀ c, (∀ q ∈ f.plain.positions, Covers c q.1 q.2) → Covers c p.1 p.2 := by
  obtain ⟨hs, hb⟩ := feature_plain f
  have heq : featureLatLon mid lo hi f = if f.plain.positions.isEmpty then none else
      some ((around (Bbox.init lo hi) f.plain.positions).center mid) := by
    unfold featureLatLon
    simp only [hb, featureBounds_eq _ hs]
    cases f.plain.positions.isEmpty <;> rfl
  have hsm : f.plain.positions ≠ [] → ∀ c, Within (around (Bbox.init lo hi) f.plain.positions) c ↔
      ∀ p ∈ f.plain.positions, Covers c p.1 p.2 := by
    intro hne c
    have := C43_smallest_partial f.plain hs lo hi hne hr c
    rwa [featureBounds_eq _ hs] at this
  generalize f.plain.positions = ps at *
  rw [heq]
  constructor
  · cases ps <;> simp
  · intro p hp
    cases hps : ps.isEmpty with
    | true => rw [hps] at hp; cases hp
    | false =>
      rw [hps] at hp
      simp only [Bool.false_eq_true, if_false, Option.some.injEq] at hp
      have hne : ps ≠ [] := by rintro rfl; cases hps
      have hsm := hsm hne
      obtain ⟨n, hn, hn'⟩ := exists_greatest (fun q : Pos K => q.1) hne
      obtain ⟨s, hs1, hs'⟩ := exists_least (fun q : Pos K => q.1) hne
      obtain ⟨e, he, he'⟩ := exists_greatest (fun q : Pos K => q.2) hne
      obtain ⟨w, hw, hw'⟩ := exists_least (fun q : Pos K => q.2) hne
      have hin := (hsm ⟨n.1, s.1, e.2, w.2⟩).2 fun q hq => ⟨hs' q hq, hn' q hq, hw' q hq, he' q hq⟩
      have hcov := (hsm (around (Bbox.init lo hi) ps)).1 ⟨le_refl _, le_refl _, le_refl _, le_refl _⟩
      have e1 := le_antisymm hin.2.1 (hcov n hn).2.1
      have e2 := le_antisymm (hcov s hs1).1 hin.1
      have e3 := le_antisymm hin.2.2.2 (hcov e he).2.2.2
      have e4 := le_antisymm (hcov w hw).2.2.1 hin.2.2.1
      dsimp only at e1 e2 e3 e4
      have hpe : p = (mid n.1 s.1, mid e.2 w.2) := by
        rw [← hp]
        unfold Bbox.center
        rw [e1, e2, e3, e4]
      refine ⟨⟨n, hn, s, hs1, e, he, w, hw, fun q hq => ⟨hs' q hq, hn' q hq, hw' q hq, he' q hq⟩, hpe⟩, fun c hc => ?_⟩
      rw [hpe]
      have m1 := hm n.1 s.1 (hs' n hn)
      have m2 := hm e.2 w.2 (hw' e he)
      exact ⟨le_trans (hc s hs1).1 m1.1, le_trans m1.2 (hc n hn).2.1,
        le_trans (hc w hw).2.2.1 m2.1, le_trans m2.2 (hc e he).2.2.2⟩

example : featureLatLon (fun a b : Int => (a + b) / 2) (-180) 180 (Feature.container
    [.placemark (some (.point (some [(10, 20)]))), .placemark (some (.point (some [(0, 40)])))]) = some (5, 30) := by decide

/-- Whatever the feature: bounds never shrink. -/
theorem C43_monotone (f : Feature K) (b : Bbox K) : Within b (featureBounds f b).2 := by
  have tr : ∀ {a b c : Bbox K}, Within a b → Within b c → Within a c := fun h g =>
    ⟨le_trans g.1 h.1, le_trans h.2.1 g.2.1, le_trans g.2.2.1 h.2.2.1, le_trans h.2.2.2 g.2.2.2⟩
  have rf : ∀ b : Bbox K, Within b b := fun b => ⟨le_refl _, le_refl _, le_refl _, le_refl _⟩
  have ar : ∀ (b : Bbox K) ps, Within b (around b ps) := fun b ps => ((within_around b _ ps).1 (rf _)).1
  have hc : ∀ c (b : Bbox K), Within b (coordinatesBounds c b).2 := by
    intro c b; rw [coordinatesBounds_eq]; exact ar _ _
  have hg : ∀ (g : Geometry K) b, Within b (geometryBounds g b).2 := by
    intro g
    refine Geometry.rec (motive_1 := fun g => ∀ b, Within b (geometryBounds g b).2)
      (motive_2 := fun gs => ∀ b, Within b (geometriesBounds gs b).2) ?_ ?_ ?_ ?_ ?_ ?_ ?_ ?_ ?_ g
    · intro c b; exact hc c b
    · intro c b; exact hc c b
    · intro c b; exact hc c b
    · intro o i b
      rcases o with _ | _ | c
      · simp only [geometryBounds]; exact rf b
      · simp only [geometryBounds]; exact rf b
      · simp only [geometryBounds]; exact hc c b
    · intro l b
      cases l with
      | none => simp only [geometryBounds]; exact rf b
      | some p => simpa only [geometryBounds, around, List.foldl_cons, List.foldl_nil] using ar b [p]
    · intro gs ih b; exact ih b
    · intro ps b; exact rf b
    · intro b; exact rf b
    · intro g gs h1 h2 b; exact tr (h1 b) (h2 _)
  refine Feature.rec (motive_1 := fun f => ∀ b, Within b (featureBounds f b).2)
    (motive_2 := fun fs => ∀ b, Within b (featuresBounds fs b).2) ?_ ?_ ?_ ?_ ?_ ?_ f b
  · intro g b
    cases g with
    | none => exact rf b
    | some g => exact hg g b
  · intro p b
    cases p with
    | none => exact rf b
    | some c => exact hc c b
  · intro fs ih b; exact ih b
  · intro b; exact rf b
  · intro b; exact rf b
  · intro f fs h1 h2 b; exact tr (h1 b) (h2 _)

/-- A folder with two placemarks and a model: it meets the hypotheses, and the bounds found. -/
example :
    (Feature.container [.placemark (some (.point (some [(10, 20)]))),
      .container [.placemark (some (.multi [.polygon (some (some (some [(0, 0), (5, 30)]))) [], .model (some (-7, 1))])),
        .placemark none, .other]] : Feature Int).Simple ∧
    featureBounds (Feature.container [.placemark (some (.point (some [(10, 20)]))),
      .container [.placemark (some (.multi [.polygon (some (some (some [(0, 0), (5, 30)]))) [], .model (some (-7, 1))])),
        .placemark none, .other]] : Feature Int) (Bbox.init (-180) 180) = (true, ⟨10, -7, 30, 0⟩) := by
  refine ⟨?_, by decide⟩
  simp [Feature.Simple, Feature.SimpleList, Geometry.Simple, Geometry.SimpleList]

/-- The full property fails for tracks: a placemark with a track has positions, but no bounds are reported. -/
theorem C43_track_violated :
    (Feature.placemark (some (.track [(1, 2)])) : Feature Int).positions = [(1, 2)] ∧
    (featureBounds (Feature.placemark (some (.track [(1, 2)])) : Feature Int) (Bbox.init (-180) 180)).1 = false := by decide

/-- The full property fails for an inner boundary that reaches outside the outer one. -/
theorem C43_inner_violated :
    (9, 9) ∈ (Feature.placemark (some (.polygon (some (some (some [(1, 2)]))) [some [(9, 9)]])) : Feature Int).positions ∧
    (featureBounds (Feature.placemark (some (.polygon (some (some (some [(1, 2)]))) [some [(9, 9)]])) : Feature Int)
      (Bbox.init (-180) 180)).2.contains 9 9 = false := by decide

/-- **C43, placemarks and geometries.** `GetGeometryLatLon` and `GetPlacemarkLatLon` say of a geometry what `GetFeatureLatLon` says of a
placemark that has it (see `C43_latlon`). -/
theorem C43_placemark (mid : K → K → K) (lo hi : K) (g : Option (Geometry K)) :
    geometryLatLon mid lo hi g = featureLatLon mid lo hi (.placemark g) ∧
    placemarkLatLon mid lo hi (some g) = .ok (featureLatLon mid lo hi (.placemark g)) := by
  cases g with
  | none => exact ⟨rfl, rfl⟩
  | some g => exact ⟨rfl, rfl⟩

/-- **C43, points and models.** `GetPointLatLon` gives the first position of a point and `GetModelLatLon` the location of a model, and
false is answered if there is none. -/
theorem C43_first (ps : List (Pos K)) (p : Pos K) :
    (pointLatLon (some (some ps)) = ps.head?) ∧ pointLatLon (some (none : Coords K)) = none ∧ pointLatLon (none : Option (Coords K)) = none ∧
    modelLatLon (some (some p)) = some p ∧ modelLatLon (some (none : Option (Pos K))) = none ∧
    modelLatLon (none : Option (Option (Pos K))) = none := by
  refine ⟨?_, rfl, rfl, rfl, rfl, rfl⟩
  cases ps <;> rfl

/-- **C43, one position.** Of a point with one position, and of a model with a location, all functions say the same: that position. -/
theorem C43_agree (mid : K → K → K) (hm : Between mid) (lo hi : K) (p : Pos K)
    (hp : lo ≤ p.1 ∧ p.1 ≤ hi ∧ lo ≤ p.2 ∧ p.2 ≤ hi) :
    pointLatLon (some (some [p])) = some p ∧ geometryLatLon mid lo hi (some (.point (some [p]))) = some p ∧
    modelLatLon (some (some p)) = some p ∧ geometryLatLon mid lo hi (some (.model (some p))) = some p := by
  have mm : ∀ x : K, mid x x = x := fun x => le_antisymm (hm x x (le_refl x)).2 (hm x x (le_refl x)).1
  have key : ∀ f : Feature K, f.plain.positions = [p] → featureLatLon mid lo hi f = some p := by
    intro f hf
    have h := C43_latlon mid hm lo hi f (by rw [hf]; intro q hq; rw [List.mem_singleton.1 hq]; exact hp)
    cases hl : featureLatLon mid lo hi f with
    | none => rw [hf] at h; exact absurd (h.1.1 hl) (by simp)
    | some q =>
      obtain ⟨⟨n, hn, s, hs, e, he, w, hw, _, hq⟩, _⟩ := h.2 q hl
      rw [hf] at hn hs he hw
      rw [List.mem_singleton.1 hn, List.mem_singleton.1 hs, List.mem_singleton.1 he, List.mem_singleton.1 hw, mm, mm] at hq
      rw [hq]
  exact ⟨rfl, (C43_placemark mid lo hi _).1.trans (key _ rfl), rfl, (C43_placemark mid lo hi _).1.trans (key _ rfl)⟩

example : pointLatLon (some (some [((1 : Int), 2), (3, 4)])) = some (1, 2) := rfl

/-- Of a point with several positions they do not say the same. -/
theorem C43_points_violated :
    pointLatLon (some (some [((0 : Int), 0), (2, 4)])) = some (0, 0) ∧
    geometryLatLon (fun a b => (a + b) / 2) (-180) 180 (some (.point (some [((0 : Int), 0), (2, 4)]))) = some (1, 2) := by decide

end Kml.Geo
