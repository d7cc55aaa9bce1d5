import Mathlib.Geometry.Euclidean.Angle.Unoriented.TriangleInequality
import Mathlib.Analysis.InnerProductSpace.PiL2
import Mathlib.Tactic.Linarith
import Mathlib.Tactic.LinearCombination
import Mathlib.Tactic.FieldSimp
import Mathlib.Tactic.Positivity
import Verif.Model.MathUtil
import Verif.Spec.MathUtil
import Verif.Spec.Geo
import Verif.Props.Location
/-! Properties C89 and C90: distances and directions on the globe, and the view of a box. -/
namespace Kml.Sphere
open Real

theorem degToRad_deg (d : ℝ) : degToRad d = deg d := rfl

theorem deg_radToDeg (r : ℝ) : deg (radToDeg r) = r := by
  unfold deg radToDeg
  have := pi_ne_zero
  field_simp

theorem dot_units (lat1 lng1 lat2 lng2 : ℝ) : (unitAt lat1 lng1).dot (unitAt lat2 lng2) =
    cos (deg lat1) * cos (deg lat2) * cos (deg lng1 - deg lng2) + sin (deg lat1) * sin (deg lat2) := by
  simp only [Point.dot, unitAt, cos_sub]
  ring

theorem dot_self (lat lng : ℝ) : (unitAt lat lng).dot (unitAt lat lng) = 1 := by
  rw [dot_units, sub_self, cos_zero]
  nlinarith [sin_sq_add_cos_sq (deg lat)]

theorem lagrange (u v : Point) : (u.dot u) * (v.dot v) = (u.dot v) ^ 2 +
    ((u.x * v.y - u.y * v.x) ^ 2 + (u.x * v.z - u.z * v.x) ^ 2 + (u.y * v.z - u.z * v.y) ^ 2) := by
  simp only [Point.dot]
  ring

theorem dot_bounds (lat1 lng1 lat2 lng2 : ℝ) :
    -1 ≤ (unitAt lat1 lng1).dot (unitAt lat2 lng2) ∧ (unitAt lat1 lng1).dot (unitAt lat2 lng2) ≤ 1 := by
  have h := lagrange (unitAt lat1 lng1) (unitAt lat2 lng2)
  rw [dot_self, dot_self] at h
  have : (unitAt lat1 lng1).dot (unitAt lat2 lng2) ^ 2 ≤ 1 := by
    have h1 := sq_nonneg ((unitAt lat1 lng1).x * (unitAt lat2 lng2).y - (unitAt lat1 lng1).y * (unitAt lat2 lng2).x)
    have h2 := sq_nonneg ((unitAt lat1 lng1).x * (unitAt lat2 lng2).z - (unitAt lat1 lng1).z * (unitAt lat2 lng2).x)
    have h3 := sq_nonneg ((unitAt lat1 lng1).y * (unitAt lat2 lng2).z - (unitAt lat1 lng1).z * (unitAt lat2 lng2).y)
    linarith
  exact abs_le.1 ((sq_le_one_iff_abs_le_one _).1 this)

theorem half_angle (x : ℝ) : sin (x / 2) ^ 2 = (1 - cos x) / 2 := by
  rw [sin_sq_eq_half_sub, show 2 * (x / 2) = x by ring]
  ring

theorem two_arcsin {x : ℝ} (h1 : -1 ≤ x) (h2 : x ≤ 1) : 2 * arcsin (√((1 - x) / 2)) = arccos x := by
  have h3 := arccos_nonneg x
  have h4 := arccos_le_pi x
  have hx : (1 - x) / 2 = sin (arccos x / 2) ^ 2 := by rw [half_angle, cos_arccos h1 h2]
  rw [hx, sqrt_sq (sin_nonneg_of_nonneg_of_le_pi (by linarith) (by linarith)),
    arcsin_sin (by linarith [pi_pos]) (by linarith)]
  ring

/-- **C89, distances.** The distance between two places is the length of the shorter arc of the great circle through
them, for all latitudes and longitudes, also across the antimeridian and the poles. -/
theorem C89_distance (lat1 lng1 lat2 lng2 : ℝ) :
    distanceBetweenPoints lat1 lng1 lat2 lng2 = greatCircle (unitAt lat1 lng1) (unitAt lat2 lng2) := by
  obtain ⟨h1, h2⟩ := dot_bounds lat1 lng1 lat2 lng2
  unfold distanceBetweenPoints greatCircle radiansToMeters earthRadius
  simp only [degToRad_deg]
  rw [← two_arcsin h1 h2, mul_comm]
  congr 3
  congr 1
  rw [half_angle, half_angle, dot_units, cos_sub (deg lat1) (deg lat2)]
  ring

/-- The point as one of the Euclidean space of Mathlib. -/
noncomputable def Point.vec (u : Point) : EuclideanSpace ℝ (Fin 3) := !₂[u.x, u.y, u.z]

theorem inner_vec (u v : Point) : inner ℝ u.vec v.vec = u.dot v := by
  simp [Point.vec, Point.dot, PiLp.inner_apply, Fin.sum_univ_three]
  ring

theorem norm_vec (lat lng : ℝ) : ‖(unitAt lat lng).vec‖ = 1 := by
  rw [norm_eq_sqrt_real_inner, inner_vec, dot_self, sqrt_one]

theorem angle_vec (lat1 lng1 lat2 lng2 : ℝ) :
    InnerProductGeometry.angle (unitAt lat1 lng1).vec (unitAt lat2 lng2).vec =
      arccos ((unitAt lat1 lng1).dot (unitAt lat2 lng2)) := by
  unfold InnerProductGeometry.angle
  rw [norm_vec, norm_vec, inner_vec, mul_one, div_one]

theorem dot_comm (u v : Point) : u.dot v = v.dot u := by
  simp only [Point.dot]
  ring

theorem dot_eq_one {lat1 lng1 lat2 lng2 : ℝ} :
    (unitAt lat1 lng1).dot (unitAt lat2 lng2) = 1 ↔ unitAt lat1 lng1 = unitAt lat2 lng2 := by
  constructor
  · intro h
    have h1 := dot_self lat1 lng1
    have h2 := dot_self lat2 lng2
    generalize unitAt lat1 lng1 = u at *
    generalize unitAt lat2 lng2 = v at *
    obtain ⟨ux, uy, uz⟩ := u
    obtain ⟨vx, vy, vz⟩ := v
    simp only [Point.dot] at h h1 h2
    have h3 : (ux - vx) ^ 2 + (uy - vy) ^ 2 + (uz - vz) ^ 2 = 0 := by linear_combination h1 + h2 - 2 * h
    have e1 : ux - vx = 0 := by nlinarith [sq_nonneg (ux - vx), sq_nonneg (uy - vy), sq_nonneg (uz - vz)]
    have e2 : uy - vy = 0 := by nlinarith [sq_nonneg (ux - vx), sq_nonneg (uy - vy), sq_nonneg (uz - vz)]
    have e3 : uz - vz = 0 := by nlinarith [sq_nonneg (ux - vx), sq_nonneg (uy - vy), sq_nonneg (uz - vz)]
    rw [sub_eq_zero.1 e1, sub_eq_zero.1 e2, sub_eq_zero.1 e3]
  · intro h
    rw [h]
    exact dot_self _ _

/-- **C89, distances form a metric.** The distance is never negative and at most half the circumference; it is zero only
for the same place; it is the same both ways; a detour is never shorter. -/
theorem C89_metric (lat1 lng1 lat2 lng2 lat3 lng3 : ℝ) :
    0 ≤ distanceBetweenPoints lat1 lng1 lat2 lng2 ∧ distanceBetweenPoints lat1 lng1 lat2 lng2 ≤ 6366710 * π ∧
    (distanceBetweenPoints lat1 lng1 lat2 lng2 = 0 ↔ unitAt lat1 lng1 = unitAt lat2 lng2) ∧
    distanceBetweenPoints lat1 lng1 lat2 lng2 = distanceBetweenPoints lat2 lng2 lat1 lng1 ∧
    distanceBetweenPoints lat1 lng1 lat3 lng3 ≤
      distanceBetweenPoints lat1 lng1 lat2 lng2 + distanceBetweenPoints lat2 lng2 lat3 lng3 := by
  simp only [C89_distance, greatCircle]
  refine ⟨?_, ?_, ?_, ?_, ?_⟩
  · have := arccos_nonneg ((unitAt lat1 lng1).dot (unitAt lat2 lng2))
    linarith
  · have := arccos_le_pi ((unitAt lat1 lng1).dot (unitAt lat2 lng2))
    linarith
  · rw [mul_eq_zero, or_iff_right (by norm_num), arccos_eq_zero, ← dot_eq_one]
    exact ⟨fun h => le_antisymm (dot_bounds _ _ _ _).2 h, fun h => h.ge⟩
  · rw [dot_comm]
  · have := InnerProductGeometry.angle_le_angle_add_angle (unitAt lat1 lng1).vec (unitAt lat2 lng2).vec (unitAt lat3 lng3).vec
    simp only [angle_vec] at this
    linarith

/-! #### Directions -/

theorem fmod_int (x m : ℝ) : ∃ k : ℤ, fmod x m = x - k * m := by
  unfold fmod
  split
  · exact ⟨⌊x / m⌋, by ring⟩
  · exact ⟨⌈x / m⌉, by ring⟩

theorem fmod_small {x m : ℝ} (h1 : -m < x) (h2 : x < m) : fmod x m = x := by
  have hm : 0 < m := by linarith
  have h3 : x / m < 1 := (div_lt_one hm).2 h2
  have h4 : -1 < x / m := by rw [lt_div_iff₀ hm]; linarith
  unfold fmod
  split
  · rename_i h
    have : ⌊x / m⌋ = 0 := Int.floor_eq_iff.2 ⟨by simpa using h, by simpa using h3⟩
    rw [this]
    simp
  · rename_i h
    have : ⌈x / m⌉ = 0 := Int.ceil_eq_iff.2 ⟨by simpa using h4, by simpa using (not_le.1 h).le⟩
    rw [this]
    simp

theorem atan2_cos (y x : ℝ) : ‖(⟨x, y⟩ : ℂ)‖ * cos (atan2 y x) = x := Complex.norm_mul_cos_arg ⟨x, y⟩

theorem atan2_sin (y x : ℝ) : ‖(⟨x, y⟩ : ℂ)‖ * sin (atan2 y x) = y := Complex.norm_mul_sin_arg ⟨x, y⟩

theorem norm_of_sq {x y r : ℝ} (hr : 0 ≤ r) (h : x ^ 2 + y ^ 2 = r ^ 2) : ‖(⟨x, y⟩ : ℂ)‖ = r := by
  rw [Complex.norm_def, Complex.normSq_mk, show x * x + y * y = r ^ 2 by rw [← h]; ring, sqrt_sq hr]

theorem dot_north (lat1 lng1 lat2 lng2 : ℝ) : (unitAt lat2 lng2).dot (northAt lat1 lng1) =
    cos (deg lat1) * sin (deg lat2) - sin (deg lat1) * cos (deg lat2) * cos (deg lng2 - deg lng1) := by
  simp only [Point.dot, unitAt, northAt, cos_sub]
  ring

theorem dot_east (lat1 lng1 lat2 lng2 : ℝ) : (unitAt lat2 lng2).dot (eastAt lat1 lng1) =
    sin (deg lng2 - deg lng1) * cos (deg lat2) := by
  simp only [Point.dot, unitAt, eastAt, sin_sub]
  ring

/-- The three directions at a place are perpendicular and of length one. -/
theorem three_squares (lat1 lng1 lat2 lng2 : ℝ) : (unitAt lat2 lng2).dot (northAt lat1 lng1) ^ 2 +
    (unitAt lat2 lng2).dot (eastAt lat1 lng1) ^ 2 = 1 - (unitAt lat1 lng1).dot (unitAt lat2 lng2) ^ 2 := by
  rw [dot_north, dot_east, dot_units, show deg lng1 - deg lng2 = -(deg lng2 - deg lng1) by ring, cos_neg]
  have h1 := sin_sq_add_cos_sq (deg lat1)
  have h2 := sin_sq_add_cos_sq (deg lat2)
  have h3 := sin_sq_add_cos_sq (deg lng2 - deg lng1)
  generalize sin (deg lat1) = s1 at *
  generalize cos (deg lat1) = c1 at *
  generalize sin (deg lat2) = s2 at *
  generalize cos (deg lat2) = c2 at *
  generalize sin (deg lng2 - deg lng1) = s at *
  generalize cos (deg lng2 - deg lng1) = c at *
  linear_combination (s2 ^ 2 + c2 ^ 2 * c ^ 2) * h1 + h2 + c2 ^ 2 * h3

/-- What the azimuth is, with no case left out. -/
theorem azimuth_core (lat1 lng1 lat2 lng2 : ℝ) :
    (unitAt lat2 lng2).dot (northAt lat1 lng1) = sin (arccos ((unitAt lat1 lng1).dot (unitAt lat2 lng2))) *
      cos (deg (azimuthBetweenPoints lat1 lng1 lat2 lng2)) ∧
    (unitAt lat2 lng2).dot (eastAt lat1 lng1) = sin (arccos ((unitAt lat1 lng1).dot (unitAt lat2 lng2))) *
      sin (deg (azimuthBetweenPoints lat1 lng1 lat2 lng2)) := by
  have hn : ‖(⟨(unitAt lat2 lng2).dot (northAt lat1 lng1), (unitAt lat2 lng2).dot (eastAt lat1 lng1)⟩ : ℂ)‖ =
      sin (arccos ((unitAt lat1 lng1).dot (unitAt lat2 lng2))) := by
    refine norm_of_sq (sin_nonneg_of_nonneg_of_le_pi (arccos_nonneg _) (arccos_le_pi _)) ?_
    rw [three_squares, sin_sq, cos_arccos (dot_bounds _ _ _ _).1 (dot_bounds _ _ _ _).2]
  have ha : deg (azimuthBetweenPoints lat1 lng1 lat2 lng2) =
      atan2 ((unitAt lat2 lng2).dot (eastAt lat1 lng1)) ((unitAt lat2 lng2).dot (northAt lat1 lng1)) := by
    unfold azimuthBetweenPoints
    simp only [degToRad_deg, deg_radToDeg]
    rw [← dot_east lat1 lng1, ← dot_north]
    have h1 := Complex.neg_pi_lt_arg ⟨(unitAt lat2 lng2).dot (northAt lat1 lng1), (unitAt lat2 lng2).dot (eastAt lat1 lng1)⟩
    have h2 := Complex.arg_le_pi ⟨(unitAt lat2 lng2).dot (northAt lat1 lng1), (unitAt lat2 lng2).dot (eastAt lat1 lng1)⟩
    refine fmod_small ?_ ?_ <;> unfold atan2 <;> linarith [pi_pos]
  rw [ha, ← hn]
  exact ⟨(atan2_cos _ _).symm, (atan2_sin _ _).symm⟩

theorem azimuth_range (lat1 lng1 lat2 lng2 : ℝ) :
    -180 < azimuthBetweenPoints lat1 lng1 lat2 lng2 ∧ azimuthBetweenPoints lat1 lng1 lat2 lng2 ≤ 180 := by
  unfold azimuthBetweenPoints
  simp only [degToRad_deg]
  rw [← dot_east lat1 lng1, ← dot_north]
  have h1 := Complex.neg_pi_lt_arg ⟨(unitAt lat2 lng2).dot (northAt lat1 lng1), (unitAt lat2 lng2).dot (eastAt lat1 lng1)⟩
  have h2 := Complex.arg_le_pi ⟨(unitAt lat2 lng2).dot (northAt lat1 lng1), (unitAt lat2 lng2).dot (eastAt lat1 lng1)⟩
  rw [fmod_small (by unfold atan2; linarith [pi_pos]) (by unfold atan2; linarith [pi_pos])]
  unfold radToDeg atan2
  generalize Complex.arg _ = t at *
  constructor
  · rw [lt_div_iff₀ pi_pos]; linarith
  · rw [div_le_iff₀ pi_pos]; linarith

theorem same_direction {k k' a b : ℝ} (hk : 0 < k) (hk' : 0 < k') (h1 : k * cos (deg a) = k' * cos (deg b))
    (h2 : k * sin (deg a) = k' * sin (deg b)) (ha : -180 < a ∧ a ≤ 180) (hb : -180 < b ∧ b ≤ 180) : a = b := by
  have range : ∀ t : ℝ, -180 < t ∧ t ≤ 180 → deg t ∈ Set.Ioc (-π) π := by
    intro t ht
    unfold deg
    constructor
    · rw [lt_div_iff₀ (by norm_num)]; nlinarith [pi_pos]
    · rw [div_le_iff₀ (by norm_num)]; nlinarith [pi_pos]
  have e1 := Complex.arg_mul_cos_add_sin_mul_I hk (range a ha)
  have e2 := Complex.arg_mul_cos_add_sin_mul_I hk' (range b hb)
  have : (k : ℂ) * (Complex.cos (deg a) + Complex.sin (deg a) * Complex.I) =
      k' * (Complex.cos (deg b) + Complex.sin (deg b) * Complex.I) := by
    rw [← Complex.ofReal_cos, ← Complex.ofReal_sin, ← Complex.ofReal_cos, ← Complex.ofReal_sin]
    apply Complex.ext <;> simpa using by assumption
  rw [this, e2] at e1
  unfold deg at e1
  have := pi_ne_zero
  field_simp at e1
  linarith

/-- **C89, directions.** The azimuth is above -180 and at most 180 degrees, and unless the places are the same or
opposite it is the direction from the first to the second, and the only one in that range. -/
theorem C89_azimuth (lat1 lng1 lat2 lng2 : ℝ) :
    (-180 < azimuthBetweenPoints lat1 lng1 lat2 lng2 ∧ azimuthBetweenPoints lat1 lng1 lat2 lng2 ≤ 180) ∧
    (0 < distanceBetweenPoints lat1 lng1 lat2 lng2 → distanceBetweenPoints lat1 lng1 lat2 lng2 < 6366710 * π →
      ∀ a, -180 < a → a ≤ 180 →
        (Heads lat1 lng1 (unitAt lat2 lng2) a ↔ a = azimuthBetweenPoints lat1 lng1 lat2 lng2)) := by
  have hr := azimuth_range lat1 lng1 lat2 lng2
  refine ⟨hr, fun h1 h2 a ha ha' => ?_⟩
  rw [C89_distance, greatCircle] at h1 h2
  have hpos : 0 < sin (arccos ((unitAt lat1 lng1).dot (unitAt lat2 lng2))) :=
    sin_pos_of_pos_of_lt_pi (by linarith) (by linarith)
  obtain ⟨c1, c2⟩ := azimuth_core lat1 lng1 lat2 lng2
  constructor
  · rintro ⟨k, hk, e1, e2⟩
    exact same_direction hk hpos (by rw [← e1, c1]) (by rw [← e2, c2]) ⟨ha, ha'⟩ hr
  · rintro rfl
    exact ⟨_, hpos, c1, c2⟩

/-! #### Going a distance in a direction -/

theorem radial_lat_bounds (s c d r : ℝ) (h : s ^ 2 + c ^ 2 = 1) :
    -1 ≤ s * cos d + c * sin d * cos r ∧ s * cos d + c * sin d * cos r ≤ 1 := by
  have : (s * cos d + c * sin d * cos r) ^ 2 ≤ 1 := by
    have h1 := sin_sq_add_cos_sq d
    have h2 := sin_sq_add_cos_sq r
    generalize sin d = sd at *
    generalize cos d = cd at *
    generalize sin r = sr at *
    generalize cos r = cr at *
    have key : 1 - (s * cd + c * sd * cr) ^ 2 = (s * sd * cr - c * cd) ^ 2 + (sd * sr) ^ 2 := by
      linear_combination (-(cd ^ 2) - sd ^ 2 * cr ^ 2) * h - h1 - sd ^ 2 * h2
    nlinarith [sq_nonneg (s * sd * cr - c * cd), sq_nonneg (sd * sr)]
  exact abs_le.1 ((sq_le_one_iff_abs_le_one _).1 this)

theorem cos_deg_nonneg {lat : ℝ} (h1 : -90 ≤ lat) (h2 : lat ≤ 90) : 0 ≤ cos (deg lat) := by
  apply cos_nonneg_of_neg_pi_div_two_le_of_le
  · unfold deg; nlinarith [pi_pos]
  · unfold deg; nlinarith [pi_pos]

theorem cos_deg_pos {lat : ℝ} (h1 : -90 < lat) (h2 : lat < 90) : 0 < cos (deg lat) := by
  apply cos_pos_of_mem_Ioo
  constructor
  · unfold deg; nlinarith [pi_pos]
  · unfold deg; nlinarith [pi_pos]

/-- Where one gets, in terms of the three directions at the start. -/
theorem radial_core {lat : ℝ} (lng distance radial : ℝ) (h1 : -90 ≤ lat) (h2 : lat ≤ 90) :
    (unitAt lat lng).dot (unitAt (latLngOnRadial lat lng distance radial).1 (latLngOnRadial lat lng distance radial).2) =
      cos (distance / 6366710) ∧
    (-90 < lat → lat < 90 →
      (unitAt (latLngOnRadial lat lng distance radial).1 (latLngOnRadial lat lng distance radial).2).dot (northAt lat lng) =
        sin (distance / 6366710) * cos (deg radial) ∧
      (unitAt (latLngOnRadial lat lng distance radial).1 (latLngOnRadial lat lng distance radial).2).dot (eastAt lat lng) =
        sin (distance / 6366710) * sin (deg radial)) := by
  have hsc := sin_sq_add_cos_sq (deg lat)
  obtain ⟨hb1, hb2⟩ := radial_lat_bounds _ _ (distance / 6366710) (deg radial) hsc
  obtain ⟨k, hk⟩ := fmod_int (deg lng + atan2 (sin (deg radial) * sin (distance / 6366710) * cos (deg lat))
    (cos (distance / 6366710) - sin (deg lat) *
      (sin (deg lat) * cos (distance / 6366710) + cos (deg lat) * sin (distance / 6366710) * cos (deg radial))) + π) (2 * π)
  have e1 : sin (deg (latLngOnRadial lat lng distance radial).1) =
      sin (deg lat) * cos (distance / 6366710) + cos (deg lat) * sin (distance / 6366710) * cos (deg radial) := by
    simp only [latLngOnRadial, deg_radToDeg, metersToRadians, earthRadius, degToRad_deg]
    exact sin_arcsin hb1 hb2
  have e2 : 0 ≤ cos (deg (latLngOnRadial lat lng distance radial).1) := by
    simp only [latLngOnRadial, deg_radToDeg, metersToRadians, earthRadius, degToRad_deg]
    exact cos_arcsin_nonneg _
  have e3 : deg (latLngOnRadial lat lng distance radial).2 = deg lng +
      atan2 (sin (deg radial) * sin (distance / 6366710) * cos (deg lat)) (cos (distance / 6366710) - sin (deg lat) *
        (sin (deg lat) * cos (distance / 6366710) + cos (deg lat) * sin (distance / 6366710) * cos (deg radial))) -
      k * (2 * π) := by
    simp only [latLngOnRadial, deg_radToDeg, metersToRadians, earthRadius, degToRad_deg]
    rw [sin_arcsin hb1 hb2, hk]
    ring
  have hc := cos_deg_nonneg h1 h2
  have hcpos : -90 < lat → lat < 90 → 0 < cos (deg lat) := cos_deg_pos
  rw [dot_units, dot_north, dot_east]
  rw [show deg lng - deg (latLngOnRadial lat lng distance radial).2 = -(deg (latLngOnRadial lat lng distance radial).2 - deg lng) by ring, cos_neg]
  have hs2 := sin_sq_add_cos_sq (deg (latLngOnRadial lat lng distance radial).1)
  generalize (latLngOnRadial lat lng distance radial).1 = lat2 at *
  generalize (latLngOnRadial lat lng distance radial).2 = lng2 at *
  have hd := sin_sq_add_cos_sq (distance / 6366710)
  have hr := sin_sq_add_cos_sq (deg radial)
  generalize sin (deg lat) = s at *
  generalize cos (deg lat) = c at *
  generalize sin (distance / 6366710) = sd at *
  generalize cos (distance / 6366710) = cd at *
  generalize sin (deg radial) = sr at *
  generalize cos (deg radial) = cr at *
  generalize sin (deg lat2) = s2 at *
  generalize cos (deg lat2) = c2 at *
  rw [← e1] at e3
  have hnorm : ‖(⟨cd - s * s2, sr * sd * c⟩ : ℂ)‖ = c * c2 := by
    refine norm_of_sq (mul_nonneg hc e2) ?_
    have : (c * c2) ^ 2 = c ^ 2 * (1 - s2 ^ 2) := by rw [mul_pow, show c2 ^ 2 = 1 - s2 ^ 2 by linarith]
    rw [this, e1]
    linear_combination ((s * cd + c * sd * cr) ^ 2 - cd ^ 2) * hsc + c ^ 2 * hd + c ^ 2 * sd ^ 2 * hr
  have hcos : cos (deg lng2 - deg lng) = cos (atan2 (sr * sd * c) (cd - s * s2)) := by
    rw [e3, show deg lng + atan2 (sr * sd * c) (cd - s * s2) - k * (2 * π) - deg lng =
      atan2 (sr * sd * c) (cd - s * s2) - k * (2 * π) by ring, cos_sub_int_mul_two_pi]
  have hsin : sin (deg lng2 - deg lng) = sin (atan2 (sr * sd * c) (cd - s * s2)) := by
    rw [e3, show deg lng + atan2 (sr * sd * c) (cd - s * s2) - k * (2 * π) - deg lng =
      atan2 (sr * sd * c) (cd - s * s2) - k * (2 * π) by ring, sin_sub_int_mul_two_pi]
  have hx := atan2_cos (sr * sd * c) (cd - s * s2)
  have hy := atan2_sin (sr * sd * c) (cd - s * s2)
  rw [hnorm, ← hcos] at hx
  rw [hnorm, ← hsin] at hy
  generalize cos (deg lng2 - deg lng) = C at *
  generalize sin (deg lng2 - deg lng) = S at *
  refine ⟨by rw [hx]; ring, fun ha hb => ?_⟩
  have hc0 : c ≠ 0 := (hcpos ha hb).ne'
  constructor
  · apply mul_left_cancel₀ hc0
    linear_combination (-s) * hx + s2 * hsc + e1
  · apply mul_left_cancel₀ hc0
    linear_combination hy

/-- **C89, going a distance in a direction.** From a place other than a pole, the point at a distance of at most half
the circumference on a radial is at that distance, and in that direction; its latitude is between -90 and 90.  From a
pole the distance is right as well. -/
theorem C89_radial (lat lng distance radial : ℝ) (h1 : -90 ≤ lat) (h2 : lat ≤ 90) (h3 : 0 ≤ distance)
    (h4 : distance ≤ 6366710 * π) :
    distanceBetweenPoints lat lng (latLngOnRadial lat lng distance radial).1 (latLngOnRadial lat lng distance radial).2 =
      distance ∧
    -90 ≤ (latLngOnRadial lat lng distance radial).1 ∧ (latLngOnRadial lat lng distance radial).1 ≤ 90 ∧
    (-90 < lat → lat < 90 → 0 < distance → distance < 6366710 * π →
      Heads lat lng (unitAt (latLngOnRadial lat lng distance radial).1 (latLngOnRadial lat lng distance radial).2) radial ∧
      (-180 < radial → radial ≤ 180 →
        azimuthBetweenPoints lat lng (latLngOnRadial lat lng distance radial).1 (latLngOnRadial lat lng distance radial).2 =
          radial)) := by
  obtain ⟨c1, c2⟩ := radial_core lng distance radial h1 h2
  have hd : distanceBetweenPoints lat lng (latLngOnRadial lat lng distance radial).1
      (latLngOnRadial lat lng distance radial).2 = distance := by
    rw [C89_distance, greatCircle, c1, arccos_cos (by positivity) (by rw [div_le_iff₀ (by norm_num)]; linarith)]
    ring
  refine ⟨hd, ?_, ?_, fun ha hb hp hq => ?_⟩
  · simp only [latLngOnRadial, radToDeg]
    rw [le_div_iff₀ pi_pos]
    have := neg_pi_div_two_le_arcsin (sin (degToRad lat) * cos (metersToRadians distance) +
      cos (degToRad lat) * sin (metersToRadians distance) * cos (degToRad radial))
    linarith
  · simp only [latLngOnRadial, radToDeg]
    rw [div_le_iff₀ pi_pos]
    have := arcsin_le_pi_div_two (sin (degToRad lat) * cos (metersToRadians distance) +
      cos (degToRad lat) * sin (metersToRadians distance) * cos (degToRad radial))
    linarith
  · have hpos : 0 < sin (distance / 6366710) := sin_pos_of_pos_of_lt_pi (by positivity) (by
      rw [div_lt_iff₀ (by norm_num)]; linarith)
    have hh : Heads lat lng (unitAt (latLngOnRadial lat lng distance radial).1
        (latLngOnRadial lat lng distance radial).2) radial := ⟨_, hpos, (c2 ha hb).1, (c2 ha hb).2⟩
    refine ⟨hh, fun hr hr' => ?_⟩
    exact (((C89_azimuth lat lng _ _).2 (by rw [hd]; exact hp) (by rw [hd]; exact hq) radial hr hr').1 hh).symm

/-- A point of the sphere is known by its parts in the three directions at a place. -/
theorem three_directions (lat lng : ℝ) (v w : Point) (h1 : (unitAt lat lng).dot v = (unitAt lat lng).dot w)
    (h2 : v.dot (northAt lat lng) = w.dot (northAt lat lng)) (h3 : v.dot (eastAt lat lng) = w.dot (eastAt lat lng)) :
    v = w := by
  have hs := sin_sq_add_cos_sq (deg lat)
  have hl := sin_sq_add_cos_sq (deg lng)
  obtain ⟨vx, vy, vz⟩ := v
  obtain ⟨wx, wy, wz⟩ := w
  simp only [Point.dot, unitAt, northAt, eastAt] at h1 h2 h3
  generalize sin (deg lat) = s at *
  generalize cos (deg lat) = c at *
  generalize sin (deg lng) = t at *
  generalize cos (deg lng) = d at *
  have ez : vz = wz := by linear_combination s * h1 + c * h2 - (vz - wz) * hs
  have er : d * vx + t * vy = d * wx + t * wy := by
    linear_combination c * h1 - s * h2 - (d * (vx - wx) + t * (vy - wy)) * hs
  have ex : vx = wx := by linear_combination d * er - t * h3 - (vx - wx) * hl
  have ey : vy = wy := by linear_combination t * er + d * h3 - (vy - wy) * hl
  rw [ex, ey, ez]

/-- **C89, there and back.** Going from a place other than a pole the distance to another place, in the direction of
that place, one gets there. -/
theorem C89_inverse (lat1 lng1 lat2 lng2 : ℝ) (h1 : -90 < lat1) (h2 : lat1 < 90) :
    unitAt
      (latLngOnRadial lat1 lng1 (distanceBetweenPoints lat1 lng1 lat2 lng2) (azimuthBetweenPoints lat1 lng1 lat2 lng2)).1
      (latLngOnRadial lat1 lng1 (distanceBetweenPoints lat1 lng1 lat2 lng2) (azimuthBetweenPoints lat1 lng1 lat2 lng2)).2 =
    unitAt lat2 lng2 := by
  obtain ⟨c1, c2⟩ := radial_core lng1 (distanceBetweenPoints lat1 lng1 lat2 lng2) (azimuthBetweenPoints lat1 lng1 lat2 lng2)
    h1.le h2.le
  obtain ⟨c2, c3⟩ := c2 h1 h2
  obtain ⟨a1, a2⟩ := azimuth_core lat1 lng1 lat2 lng2
  have hd : distanceBetweenPoints lat1 lng1 lat2 lng2 / 6366710 = arccos ((unitAt lat1 lng1).dot (unitAt lat2 lng2)) := by
    rw [C89_distance, greatCircle]
    field_simp
  rw [hd] at c1 c2 c3
  refine three_directions lat1 lng1 _ _ ?_ ?_ ?_
  · rw [c1, cos_arccos (dot_bounds _ _ _ _).1 (dot_bounds _ _ _ _).2]
  · rw [c2, a1]
  · rw [c3, a2]

/-- **C89, longitudes.** From an eastern longitude the point has a longitude of at least -180 and below 180 degrees.
(Nothing of that kind is promised from western ones, where the result may be below -180.) -/
theorem C89_longitude (lat lng distance radial : ℝ) (h : 0 ≤ lng) :
    -180 ≤ (latLngOnRadial lat lng distance radial).2 ∧ (latLngOnRadial lat lng distance radial).2 < 180 := by
  simp only [latLngOnRadial]
  have h1 : 0 ≤ degToRad lng := by unfold degToRad; positivity
  generalize degToRad lng = l at *
  have ha : ∀ y x, -π < atan2 y x := fun y x => Complex.neg_pi_lt_arg _
  have hd := ha (sin (degToRad radial) * sin (metersToRadians distance) * cos (degToRad lat))
    (cos (metersToRadians distance) - sin (degToRad lat) * sin (arcsin (sin (degToRad lat) * cos (metersToRadians distance) +
      cos (degToRad lat) * sin (metersToRadians distance) * cos (degToRad radial))))
  generalize atan2 _ _ = d at *
  have hp := pi_pos
  have hx : 0 ≤ l + d + π := by linarith
  generalize l + d + π = x at *
  have hq : 0 ≤ x / (2 * π) := by positivity
  have hf : fmod x (2 * π) = x - 2 * π * ⌊x / (2 * π)⌋ := by
    unfold fmod
    rw [if_pos hq]
  have h2 := Int.floor_le (x / (2 * π))
  have h3 := Int.lt_floor_add_one (x / (2 * π))
  generalize (⌊x / (2 * π)⌋ : ℝ) = k at *
  rw [le_div_iff₀ (by linarith)] at h2
  rw [div_lt_iff₀ (by linarith)] at h3
  rw [hf]
  unfold radToDeg
  constructor
  · rw [le_div_iff₀ hp]; nlinarith
  · rw [div_lt_iff₀ hp]; nlinarith

/-- **C89, slopes.** The height and the ground distance of a line of a given length and elevation are the sides of a
right triangle whose longest side it is.  The elevation between two places that are not above each other is between -90
and 90 degrees, and its tangent is the slope. -/
theorem C89_slopes (range elevation lat1 lng1 alt1 lat2 lng2 alt2 : ℝ) :
    0 ≤ groundDistance range elevation ∧ 0 ≤ heightOf range elevation ∧
    groundDistance range elevation ^ 2 + heightOf range elevation ^ 2 = range ^ 2 ∧
    (0 < distanceBetweenPoints lat1 lng1 lat2 lng2 →
      -90 < elevationBetweenPoints lat1 lng1 alt1 lat2 lng2 alt2 ∧ elevationBetweenPoints lat1 lng1 alt1 lat2 lng2 alt2 < 90 ∧
      tan (deg (elevationBetweenPoints lat1 lng1 alt1 lat2 lng2 alt2)) * distanceBetweenPoints lat1 lng1 lat2 lng2 =
        alt2 - alt1) ∧
    distanceBetweenPoints3d lat1 lng1 alt1 lat2 lng2 alt2 ^ 2 =
      distanceBetweenPoints lat1 lng1 lat2 lng2 ^ 2 + (alt1 - alt2) ^ 2 := by
  refine ⟨abs_nonneg _, abs_nonneg _, ?_, fun h => ⟨?_, ?_, ?_⟩, ?_⟩
  · unfold groundDistance heightOf
    rw [sq_abs, sq_abs]
    linear_combination range ^ 2 * sin_sq_add_cos_sq (degToRad elevation)
  · unfold elevationBetweenPoints radToDeg
    rw [lt_div_iff₀ pi_pos]
    have := neg_pi_div_two_lt_arctan ((alt2 - alt1) / distanceBetweenPoints lat1 lng1 lat2 lng2)
    linarith
  · unfold elevationBetweenPoints radToDeg
    rw [div_lt_iff₀ pi_pos]
    have := arctan_lt_pi_div_two ((alt2 - alt1) / distanceBetweenPoints lat1 lng1 lat2 lng2)
    linarith
  · unfold elevationBetweenPoints
    rw [deg_radToDeg, tan_arctan]
    exact div_mul_cancel₀ _ h.ne'
  · unfold distanceBetweenPoints3d
    rw [sq_sqrt (by positivity)]
    ring

/-! #### Examples -/

theorem deg_zero : deg 0 = 0 := by unfold deg; ring
theorem deg_90 : deg 90 = π / 2 := by unfold deg; ring

/-- A quarter of the equator. -/
theorem quarter_distance : distanceBetweenPoints 0 0 0 90 = 6366710 * (π / 2) := by
  rw [C89_distance, greatCircle, dot_units, deg_zero, deg_90]
  simp

/-- Due east, as in the comment in math_util.h. -/
example : azimuthBetweenPoints 0 0 0 90 = 90 := by
  have hp := pi_pos
  refine (((C89_azimuth 0 0 0 90).2 ?_ ?_ 90 (by norm_num) (by norm_num)).1 ⟨1, one_pos, ?_, ?_⟩).symm
  · rw [quarter_distance]; positivity
  · rw [quarter_distance]; linarith
  · rw [dot_north, deg_zero, deg_90]; simp
  · rw [dot_east, deg_zero, deg_90]; simp

/-! #### C90 -/

theorem dist_meridian {lat lat' : ℝ} (lng : ℝ) (h : |lat - lat'| ≤ 180) :
    greatCircle (unitAt lat lng) (unitAt lat' lng) = 6366710 * (|lat - lat'| * π / 180) := by
  unfold greatCircle
  have hx : (unitAt lat lng).dot (unitAt lat' lng) = cos (|lat - lat'| * π / 180) := by
    rw [dot_units, sub_self, cos_zero, mul_one, ← cos_sub, ← cos_abs]
    congr 1
    unfold deg
    rw [← sub_div, ← sub_mul, abs_div, abs_mul, abs_of_pos pi_pos]
    norm_num
  have hp := pi_pos
  rw [hx, arccos_cos (by positivity) (by rw [div_le_iff₀ (by norm_num)]; nlinarith)]

theorem dist_parallel {lat lng lng' lng'' : ℝ} (h1 : |lng - lng'| ≤ |lng - lng''|) (h2 : |lng - lng''| ≤ 180) :
    greatCircle (unitAt lat lng) (unitAt lat lng') ≤ greatCircle (unitAt lat lng) (unitAt lat lng'') := by
  unfold greatCircle
  have hp := pi_pos
  refine mul_le_mul_of_nonneg_left (antitone_arccos ?_) (by norm_num)
  rw [dot_units, dot_units]
  have hc : cos (deg lng - deg lng'') ≤ cos (deg lng - deg lng') := by
    have key : ∀ t, |deg lng - deg t| = |lng - t| * π / 180 := by
      intro t
      unfold deg
      rw [← sub_div, ← sub_mul, abs_div, abs_mul, abs_of_pos hp]
      norm_num
    rw [← cos_abs, ← cos_abs (deg lng - deg lng'), key, key]
    refine cos_le_cos_of_nonneg_of_le_pi (by positivity) ?_ ?_
    · rw [div_le_iff₀ (by norm_num)]; nlinarith
    · have := mul_le_mul_of_nonneg_right h1 hp.le
      linarith
  nlinarith [mul_self_nonneg (cos (deg lat))]

theorem span_30 (x : ℝ) : x * tan (degToRad 60) * 1.1 * tan (deg 30) = x * 1.1 := by
  have h1 : degToRad 60 = π / 3 := by unfold degToRad; ring
  have h2 : deg 30 = π / 6 := by unfold deg; ring
  rw [h1, h2, tan_pi_div_three, tan_pi_div_six]
  field_simp

/-- **C90.** The view of a box on the map is centered in the box, not closer than 1000 meters, and far enough away to
have in view what lies in the box due north, south, east and west of the center.  Missing from the full property: the
rest of the box. -/
theorem C90_box_partial (b : Geo.Bbox ℝ) (hp : Geo.Proper b) (h1 : -90 ≤ b.south) (h2 : b.north ≤ 90)
    (h3 : -180 ≤ b.west) (h4 : b.east ≤ 180) :
    Geo.Covers b (bboxLookAt b).latitude (bboxLookAt b).longitude ∧ 1000 ≤ (bboxLookAt b).range ∧
    (∀ lat, b.south ≤ lat → lat ≤ b.north →
      InView (bboxLookAt b).latitude (bboxLookAt b).longitude (bboxLookAt b).range lat (bboxLookAt b).longitude) ∧
    (∀ lng, b.west ≤ lng → lng ≤ b.east →
      InView (bboxLookAt b).latitude (bboxLookAt b).longitude (bboxLookAt b).range (bboxLookAt b).latitude lng) := by
  obtain ⟨hp1, hp2⟩ := hp
  obtain ⟨n, s, e, w⟩ := b
  simp only at *
  have hlat : (bboxLookAt ⟨n, s, e, w⟩).latitude = (n + s) / 2 := rfl
  have hlon : (bboxLookAt ⟨n, s, e, w⟩).longitude = (e + w) / 2 := rfl
  have hrange : 1000 ≤ (bboxLookAt ⟨n, s, e, w⟩).range := by
    unfold bboxLookAt
    dsimp only
    split
    · exact le_refl _
    · exact not_lt.1 ‹_›
  have htan : 0 ≤ tan (deg 30) := by
    have h2 : deg 30 = π / 6 := by unfold deg; ring
    rw [h2, tan_pi_div_six]
    positivity
  have hfar : ∀ dn dw : ℝ, distanceBetweenPoints ((n + s) / 2) ((e + w) / 2) n ((e + w) / 2) = dn →
      distanceBetweenPoints ((n + s) / 2) ((e + w) / 2) ((n + s) / 2) w = dw →
      √(dn ^ 2 + dw ^ 2) ≤ (bboxLookAt ⟨n, s, e, w⟩).range * tan (deg 30) := by
    intro dn dw e1 e2
    have hr : √(dn ^ 2 + dw ^ 2) * tan (degToRad 60) * 1.1 ≤ (bboxLookAt ⟨n, s, e, w⟩).range := by
      unfold bboxLookAt
      dsimp only
      rw [e1, e2]
      split
      · exact le_of_lt ‹_›
      · exact le_refl _
    have := mul_le_mul_of_nonneg_right hr htan
    rw [span_30] at this
    have := sqrt_nonneg (dn ^ 2 + dw ^ 2)
    linarith
  have hfar := hfar _ _ rfl rfl
  rw [C89_distance, C89_distance] at hfar
  rw [hlat, hlon]
  generalize (bboxLookAt ⟨n, s, e, w⟩).range = r at *
  refine ⟨⟨by linarith, by linarith, by linarith, by linarith⟩, hrange, ?_, ?_⟩
  · intro lat hl1 hl2
    unfold InView
    refine le_trans ?_ hfar
    refine le_trans ?_ (le_sqrt_of_sq_le (le_add_of_nonneg_right (sq_nonneg _)))
    have hn : |(n + s) / 2 - n| = (n - s) / 2 := by
      rw [show (n + s) / 2 - n = -((n - s) / 2) by ring, abs_neg, abs_of_nonneg (by linarith)]
    have hl : |(n + s) / 2 - lat| ≤ (n - s) / 2 := abs_le.2 ⟨by linarith, by linarith⟩
    rw [dist_meridian _ (by linarith), dist_meridian _ (by rw [hn]; linarith), hn]
    have := mul_le_mul_of_nonneg_right hl pi_pos.le
    linarith
  · intro lng hl1 hl2
    unfold InView
    refine le_trans ?_ hfar
    refine le_trans ?_ (le_sqrt_of_sq_le (le_add_of_nonneg_left (sq_nonneg _)))
    have hw : |(e + w) / 2 - w| = (e - w) / 2 := by
      rw [show (e + w) / 2 - w = (e - w) / 2 by ring, abs_of_nonneg (by linarith)]
    have hl : |(e + w) / 2 - lng| ≤ (e - w) / 2 := abs_le.2 ⟨by linarith, by linarith⟩
    exact dist_parallel (by rw [hw]; exact hl) (by rw [hw]; linarith)

/-- **C90, features.** No view is given for a feature without a position.  Otherwise the view is centered in every box
that covers all positions of the feature. -/
theorem C90_feature_partial (f : Geo.Feature ℝ) (hs : f.Simple)
    (hr : ∀ p ∈ f.positions, -180 ≤ p.1 ∧ p.1 ≤ 180 ∧ -180 ≤ p.2 ∧ p.2 ≤ 180) :
    (featureLookAt f = none ↔ f.positions = []) ∧
    ∀ v, featureLookAt f = some v → 1000 ≤ v.range ∧
      ∀ c, (∀ p ∈ f.positions, Geo.Covers c p.1 p.2) → Geo.Covers c v.latitude v.longitude := by
  obtain ⟨h1, h2⟩ := Geo.C43_covers_partial f hs (.init (-180) 180)
  have hnone : featureLookAt f = none ↔ f.positions = [] := by
    unfold featureLookAt
    dsimp only
    by_cases h : (Geo.featureBounds f (.init (-180) 180)).1 = true
    · simp [h, h1.1 h]
    · rw [h1, ne_eq, Classical.not_not] at h
      simp [h, h1]
  refine ⟨hnone, ?_⟩
  intro v hv
  have hne : f.positions ≠ [] := fun h => by rw [hnone.2 h] at hv; cases hv
  unfold featureLookAt at hv
  dsimp only at hv
  rw [if_pos (h1.2 hne)] at hv
  cases hv
  refine ⟨?_, fun c hc => ?_⟩
  · unfold bboxLookAt
    dsimp only
    split
    · exact le_refl _
    · exact not_lt.1 ‹_›
  · obtain ⟨a1, a2, a3, a4⟩ := (Geo.C43_smallest_partial f hs (-180) 180 hne hr c).2 hc
    obtain ⟨p, hp⟩ := List.exists_mem_of_ne_nil _ hne
    obtain ⟨b1, b2, b3, b4⟩ := h2 p hp
    generalize (Geo.featureBounds f (.init (-180) 180)).2 = b at *
    have hlat : (bboxLookAt b).latitude = (b.north + b.south) / 2 := rfl
    have hlon : (bboxLookAt b).longitude = (b.east + b.west) / 2 := rfl
    rw [hlat, hlon]
    exact ⟨by linarith, by linarith, by linarith, by linarith⟩

/-- **C90 fails in the corners.** The view of the box from the equator to the pole and from 90 degrees west to 90 east,
computed to have the box in a field of view of 60 degrees, does not have its south-west corner in view. -/
theorem C90_corner_violated :
    ¬ InView (bboxLookAt ⟨90, 0, 90, -90⟩).latitude (bboxLookAt ⟨90, 0, 90, -90⟩).longitude
      (bboxLookAt ⟨90, 0, 90, -90⟩).range 0 (-90) := by
  have hp := pi_pos
  have hp3 := two_le_pi
  have d45 : deg 45 = π / 4 := by unfold deg; ring
  have dm90 : deg (-90) = -(π / 2) := by unfold deg; ring
  have e1 : distanceBetweenPoints 45 0 90 0 = 6366710 * (π / 4) := by
    rw [C89_distance, dist_meridian 0 (by norm_num)]
    norm_num
    ring
  have e2 : distanceBetweenPoints 45 0 45 (-90) = 6366710 * (π / 3) := by
    rw [C89_distance, greatCircle, dot_units, deg_zero, d45, dm90, zero_sub, neg_neg, cos_pi_div_two, sin_pi_div_four, mul_zero,
      zero_add, show √2 / 2 * (√2 / 2) = 1 / 2 by nlinarith [mul_self_sqrt (show (0 : ℝ) ≤ 2 by norm_num)], ← cos_pi_div_three, arccos_cos (by positivity) (by linarith)]
  have e3 : √((6366710 * (π / 4)) ^ 2 + (6366710 * (π / 3)) ^ 2) = 6366710 * (5 * π / 12) := by
    rw [show (6366710 * (π / 4)) ^ 2 + (6366710 * (π / 3)) ^ 2 = (6366710 * (5 * π / 12)) ^ 2 by ring]
    exact sqrt_sq (by positivity)
  have hr : (bboxLookAt ⟨90, 0, 90, -90⟩).range = 6366710 * (5 * π / 12) * tan (degToRad 60) * 1.1 := by
    unfold bboxLookAt
    dsimp only
    rw [show ((90 : ℝ) + 0) / 2 = 45 by norm_num, show ((90 : ℝ) + -90) / 2 = 0 by norm_num, e1, e2, e3, if_neg]
    rw [show degToRad 60 = π / 3 by unfold degToRad; ring, tan_pi_div_three, not_lt]
    have : 1 ≤ √3 := by rw [one_le_sqrt]; norm_num
    nlinarith
  have hlat : (bboxLookAt ⟨90, 0, 90, -90⟩).latitude = 45 := by
    show ((90 : ℝ) + 0) / 2 = 45
    norm_num
  have hlon : (bboxLookAt ⟨90, 0, 90, -90⟩).longitude = 0 := by
    show ((90 : ℝ) + -90) / 2 = 0
    norm_num
  unfold InView
  rw [hlat, hlon, hr, span_30, greatCircle, dot_units, deg_zero, d45, dm90, zero_sub, neg_neg, cos_pi_div_two, sin_zero, mul_zero,
    mul_zero, add_zero, arccos_zero, not_le]
  nlinarith

/-- A box that meets the hypotheses. -/
example : Geo.Proper (⟨10, -10, 20, 5⟩ : Geo.Bbox ℝ) ∧ (bboxLookAt ⟨10, -10, 20, 5⟩).latitude = 0 := by
  refine ⟨⟨by norm_num, by norm_num⟩, ?_⟩
  show ((10 : ℝ) + -10) / 2 = 0
  norm_num

end Kml.Sphere
