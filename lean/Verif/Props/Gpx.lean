import Verif.Spec.Gpx
import Verif.Lemmas.File
import Verif.Spec.Numbers

/-!
# C63: track points
-/

namespace Kml.Dom

open Kml

theorem gpx_run_append (n : NumLib) (a b : List Ev) (g g' : Gpx) (h : g.run n a = .ok g') : g.run n (a ++ b) = g'.run n b := by
  induction a generalizing g with
  | nil => cases h; rfl
  | cons e a ih =>
    unfold Gpx.run at h
    cases he : g.event n e with
    | ok g1 =>
      rw [he] at h
      show (match g.event n e with
        | .ok g => g.run n (a ++ b)
        | .throws => .throws
        | .ub => .ub) = _
      rw [he]
      exact ih g1 h
    | throws => rw [he] at h; cases h
    | ub => rw [he] at h; cases h

/-- What an elevation does to a point. -/
def raise (n : NumLib) (v : Coords.Vec3) (eles : List Str) : Coords.Vec3 :=
  match eles.getLast? with
  | some ele => { v with alt := n.num ele, hasAlt := true }
  | none => v

theorem raise_append (n : NumLib) (v : Coords.Vec3) (a b : List Str) : raise n v (a ++ b) = raise n (raise n v a) b := by
  unfold raise
  rw [List.getLast?_append]
  cases b.getLast? with
  | some _ => cases a.getLast? <;> rfl
  | none => cases a.getLast? <;> rfl

/-- What content does to a handler: the point is raised, the time is set, and nothing is reported. -/
structure Through (n : NumLib) (g g' : Gpx) (eles times : List Str) : Prop where
  vec3 : g'.vec3 = g.vec3.map fun v => raise n v eles
  time : g'.time = times.getLast?.getD g.time
  points : g'.points = g.points

theorem Through.append {n : NumLib} {a b c : Gpx} {e e' t t' : List Str} (h : Through n a b e t) (h' : Through n b c e' t') :
    Through n a c (e ++ e') (t ++ t') := by
  refine ⟨?_, ?_, h'.points.trans h.points⟩
  · rw [h'.vec3, h.vec3]
    cases a.vec3 with
    | none => rfl
    | some v => exact congrArg some (raise_append n v e e').symm
  · rw [h'.time, h.time, List.getLast?_append]
    cases t'.getLast? <;> rfl

theorem Through.same {n : NumLib} {g g' : Gpx} (h1 : g'.vec3 = g.vec3) (h2 : g'.time = g.time) (h3 : g'.points = g.points) :
    Through n g g' [] [] := by
  refine ⟨?_, h2, h3⟩
  rw [h1]
  cases g.vec3 <;> rfl

theorem gpx_chars (n : NumLib) (s : Str) (g : Gpx) :
    ∃ g', g.run n (charEvents s) = .ok g' ∧ g'.vec3 = g.vec3 ∧ g'.time = g.time ∧ g'.points = g.points ∧ g'.gather = g.gather ∧
      (g.gather = true → g'.charData = g.charData ++ s) := by
  induction s generalizing g with
  | nil => exact ⟨g, rfl, rfl, rfl, rfl, rfl, fun _ => (List.append_nil _).symm⟩
  | cons c s ih =>
    obtain ⟨g', h1, h2, h3, h4, h5, h6⟩ := ih (g.chars [c])
    have hc : (g.chars [c]).vec3 = g.vec3 ∧ (g.chars [c]).time = g.time ∧ (g.chars [c]).points = g.points ∧
        (g.chars [c]).gather = g.gather := by
      unfold Gpx.chars
      split <;> exact ⟨rfl, rfl, rfl, rfl⟩
    refine ⟨g', h1, h2.trans hc.1, h3.trans hc.2.1, h4.trans hc.2.2.1, h5.trans hc.2.2.2, fun hg => ?_⟩
    rw [h6 (hc.2.2.2.trans hg)]
    unfold Gpx.chars
    rw [if_pos hg, List.append_assoc]
    rfl

theorem gpx_text (n : NumLib) : ∀ (l : List Xml), OnlyText l → ∀ g : Gpx, g.gather = true →
    ∃ g', g.run n (eventsOf l) = .ok g' ∧ g'.vec3 = g.vec3 ∧ g'.time = g.time ∧ g'.points = g.points ∧
      g'.charData = g.charData ++ textIn l
  | [], _, g, _ => ⟨g, rfl, rfl, rfl, rfl, (List.append_nil _).symm⟩
  | x :: l, h, g, hg => by
    obtain ⟨s, rfl⟩ := h x (by simp)
    obtain ⟨g1, a1, a2, a3, a4, a5, a6⟩ := gpx_chars n s g
    obtain ⟨g2, b1, b2, b3, b4, b5⟩ := gpx_text n l (fun x hx => h x (List.mem_cons_of_mem _ hx)) g1 (a5.trans hg)
    refine ⟨g2, ?_, b2.trans a2, b3.trans a3, b4.trans a4, ?_⟩
    · show g.run n (charEvents s ++ eventsOf l) = _
      rw [gpx_run_append n _ _ _ _ a1, b1]
    · rw [b5, a6 hg, List.append_assoc]
      rfl

theorem run_elem {n : NumLib} {g g1 g2 g3 : Gpx} {m : Str} {a : List (Str × Str)} {ks : List Xml} (h1 : g.start n m a = .ok g1)
    (h2 : g1.run n (eventsOf ks) = .ok g2) (h3 : g2.stop n m = .ok g3) : g.run n (Xml.elem m a ks).events = .ok g3 := by
  show g.run n (Ev.start m a :: eventsOf ks ++ [.stop m]) = _
  rw [List.cons_append]
  unfold Gpx.run Gpx.event
  dsimp only
  rw [h1]
  dsimp only
  rw [gpx_run_append n _ _ _ _ h2]
  unfold Gpx.run Gpx.event
  dsimp only
  rw [h3]
  rfl

theorem start_other {n : NumLib} {g : Gpx} {m : Str} {a : List (Str × Str)} (h1 : m ≠ chars! "trkpt") (h2 : m ≠ chars! "time")
    (h3 : m ≠ chars! "ele") : g.start n m a = .ok g := by
  unfold Gpx.start
  rw [if_neg h1, if_neg (by rintro (h | h); exacts [h2 h, h3 h])]

theorem stop_other {n : NumLib} {g : Gpx} {m : Str} (h1 : m ≠ chars! "trkpt") (h2 : m ≠ chars! "time")
    (h3 : m ≠ chars! "ele") : g.stop n m = .ok g := by
  unfold Gpx.stop
  rw [if_neg h1, if_neg h2, if_neg h3]

theorem content_list {n : NumLib} : ∀ (l : List Xml), (∀ x ∈ l, ∀ g : Gpx, ∃ g', g.run n x.events = .ok g' ∧
      Through n g g' (x.textsOf (chars! "ele")) (x.textsOf (chars! "time"))) → ∀ g : Gpx,
    ∃ g', g.run n (eventsOf l) = .ok g' ∧ Through n g g' (textsIn (chars! "ele") l) (textsIn (chars! "time") l)
  | [], _, g => ⟨g, rfl, .same rfl rfl rfl⟩
  | x :: l, h, g => by
    obtain ⟨g1, a1, a2⟩ := h x (by simp) g
    obtain ⟨g2, b1, b2⟩ := content_list l (fun x hx => h x (List.mem_cons_of_mem _ hx)) g1
    refine ⟨g2, ?_, a2.append b2⟩
    show g.run n (x.events ++ eventsOf l) = _
    rw [gpx_run_append n _ _ _ _ a1, b1]

theorem time_texts (a : List (Str × Str)) (ks : List Xml) (h : OnlyText ks) :
    (Xml.elem (chars! "time") a ks).textsOf (chars! "ele") = [] := by
  unfold Xml.textsOf
  rw [if_neg (by decide)]
  induction ks with
  | nil => rfl
  | cons x l ih =>
    obtain ⟨s, rfl⟩ := h x (by simp)
    exact ih fun x hx => h x (List.mem_cons_of_mem _ hx)

theorem ele_texts (a : List (Str × Str)) (ks : List Xml) (h : OnlyText ks) :
    (Xml.elem (chars! "ele") a ks).textsOf (chars! "time") = [] := by
  unfold Xml.textsOf
  rw [if_neg (by decide)]
  induction ks with
  | nil => rfl
  | cons x l ih =>
    obtain ⟨s, rfl⟩ := h x (by simp)
    exact ih fun x hx => h x (List.mem_cons_of_mem _ hx)

theorem content_run {n : NumLib} {x : Xml} (h : PointContent x) : ∀ g : Gpx, ∃ g', g.run n x.events = .ok g' ∧
    Through n g g' (x.textsOf (chars! "ele")) (x.textsOf (chars! "time")) := by
  induction h with
  | @text s =>
    intro g
    obtain ⟨g', h1, h2, h3, h4, _⟩ := gpx_chars n s g
    exact ⟨g', h1, .same h2 h3 h4⟩
  | @empty m a h1 h2 =>
    intro g
    by_cases h3 : m = chars! "time"
    · subst h3
      refine ⟨_, rfl, ?_, ?_, rfl⟩
      · show g.vec3 = _
        cases g.vec3 <;> rfl
      · rfl
    · refine ⟨g, ?_, ?_⟩
      · show g.run n [Ev.empty m a] = _
        unfold Gpx.run Gpx.event
        dsimp only
        rw [start_other h1 h3 h2]
        dsimp only
        rw [stop_other h1 h3 h2]
        rfl
      · have e1 : (Xml.empty m a).textsOf (chars! "ele") = [] := by unfold Xml.textsOf; rw [if_neg h2]
        have e2 : (Xml.empty m a).textsOf (chars! "time") = [] := by unfold Xml.textsOf; rw [if_neg h3]
        rw [e1, e2]
        exact .same rfl rfl rfl
  | @time a ks h =>
    intro g
    obtain ⟨g', a1, a2, a3, a4, a5⟩ := gpx_text n ks h { g with gather := true, charData := [] } rfl
    refine ⟨{ g' with time := g'.charData }, run_elem (g1 := { g with gather := true, charData := [] }) rfl a1 rfl, ?_, ?_, a4⟩
    · show g'.vec3 = _
      rw [a2, time_texts a ks h]
      cases hv : g.vec3 <;> rfl
    · exact a5
  | @ele a ks h hb =>
    intro g
    obtain ⟨g', a1, a2, a3, a4, a5⟩ := gpx_text n ks h { g with gather := true, charData := [] } rfl
    have a2 : g'.vec3 = g.vec3 := a2
    have a5 : g'.charData = textIn ks := a5
    cases hv : g.vec3 with
    | none =>
      refine ⟨g', run_elem (g1 := { g with gather := true, charData := [] }) rfl a1 ?_, ?_, by rw [ele_texts a ks h]; exact a3, a4⟩
      · show (match g'.vec3 with | some v => _ | none => _) = _
        rw [a2, hv]
      · rw [a2, hv]
        rfl
    | some v =>
      refine ⟨{ g' with vec3 := some { v with alt := n.num (textIn ks), hasAlt := true } },
        run_elem (g1 := { g with gather := true, charData := [] }) rfl a1 ?_, ?_, by rw [ele_texts a ks h]; exact a3, a4⟩
      · show (match g'.vec3 with
          | some v => if blank g'.charData then _ else _
          | none => _) = _
        rw [a2, hv]
        dsimp only
        rw [a5, hb, if_neg (by decide)]
      · rw [hv]
        rfl
  | @other m a ks h1 h2 h3 _ ih =>
    intro g
    obtain ⟨g', a1, a2⟩ := content_list ks ih g
    refine ⟨g', run_elem (start_other h1 h2 h3) a1 (stop_other h1 h2 h3), ?_⟩
    have e1 : (Xml.elem m a ks).textsOf (chars! "ele") = textsIn (chars! "ele") ks := by
      conv => lhs; unfold Xml.textsOf
      rw [if_neg h3]
    have e2 : (Xml.elem m a ks).textsOf (chars! "time") = textsIn (chars! "time") ks := by
      conv => lhs; unfold Xml.textsOf
      rw [if_neg h2]
    rw [e1, e2]
    exact a2

theorem content_points_list : ∀ (l : List Xml), (∀ x ∈ l, x.trackPoints = []) → trackPointsIn l = []
  | [], _ => rfl
  | x :: l, h => by
    unfold trackPointsIn
    rw [h x (by simp), content_points_list l fun x hx => h x (List.mem_cons_of_mem _ hx)]
    rfl

theorem content_points {x : Xml} (h : PointContent x) : x.trackPoints = [] := by
  have htext : ∀ ks : List Xml, OnlyText ks → trackPointsIn ks = [] := fun ks hk => content_points_list ks fun x hx => by
    obtain ⟨s, rfl⟩ := hk x hx
    rfl
  induction h with
  | text => rfl
  | empty h1 _ => unfold Xml.trackPoints; rw [if_neg h1]
  | time h => exact htext _ h
  | ele h _ => exact htext _ h
  | other h1 _ _ _ ih =>
    unfold Xml.trackPoints
    rw [if_neg h1]
    exact content_points_list _ ih

/-- The points of a part of a document are all located, or the first ones are not, and no point was seen. -/
def Ready (g : Gpx) (l : List (List (Str × Str) × List Xml)) : Prop :=
  (g.vec3 = none ∧ l.Pairwise fun p q => Located p → Located q) ∨ ∀ p ∈ l, Located p

/-- What a part of a document does to a handler. -/
structure Reports (n : NumLib) (g g' : Gpx) (l : List (List (Str × Str) × List Xml)) : Prop where
  points : g'.points = g.points ++ l.filterMap (report n)
  none : g.vec3 = none → (∀ p ∈ l, ¬ Located p) → g'.vec3 = none

theorem ready_left {g : Gpx} {a b : List (List (Str × Str) × List Xml)} (h : Ready g (a ++ b)) : Ready g a := by
  rcases h with ⟨h1, h2⟩ | h
  · exact .inl ⟨h1, (List.pairwise_append.1 h2).1⟩
  · exact .inr fun p hp => h p (List.mem_append_left _ hp)

theorem ready_right {n : NumLib} {g g' : Gpx} {a b : List (List (Str × Str) × List Xml)} (h : Ready g (a ++ b))
    (hr : Reports n g g' a) : Ready g' b := by
  rcases h with ⟨h1, h2⟩ | h
  · obtain ⟨_, h3, h4⟩ := List.pairwise_append.1 h2
    by_cases hl : ∀ p ∈ a, ¬ Located p
    · exact .inl ⟨hr.none h1 hl, h3⟩
    · have : ∃ p ∈ a, Located p := by
        apply Classical.byContradiction
        intro hc
        exact hl fun p hp hlp => hc ⟨p, hp, hlp⟩
      obtain ⟨p, hp, hlp⟩ := this
      exact .inr fun q hq => h4 p hp q hq hlp
  · exact .inr fun p hp => h p (List.mem_append_right _ hp)

theorem track_list {n : NumLib} : ∀ (l : List Xml), (∀ x ∈ l, ∀ g : Gpx, Ready g x.trackPoints →
      ∃ g', g.run n x.events = .ok g' ∧ Reports n g g' x.trackPoints) → ∀ g : Gpx, Ready g (trackPointsIn l) →
    ∃ g', g.run n (eventsOf l) = .ok g' ∧ Reports n g g' (trackPointsIn l)
  | [], _, g, _ => ⟨g, rfl, (List.append_nil _).symm, fun h _ => h⟩
  | x :: l, h, g, hr => by
    obtain ⟨g1, a1, a2⟩ := h x (by simp) g (ready_left hr)
    obtain ⟨g2, b1, b2⟩ := track_list l (fun x hx => h x (List.mem_cons_of_mem _ hx)) g1 (ready_right hr a2)
    refine ⟨g2, ?_, ?_, fun h1 h2 => ?_⟩
    · show g.run n (x.events ++ eventsOf l) = _
      rw [gpx_run_append n _ _ _ _ a1, b1]
    · rw [b2.points, a2.points, List.append_assoc, ← List.filterMap_append]
      rfl
    · exact b2.none (a2.none h1 fun p hp => h2 p (List.mem_append_left _ hp)) fun p hp => h2 p (List.mem_append_right _ hp)

theorem track_run {n : NumLib} {x : Xml} (h : Track x) : ∀ g : Gpx, Ready g x.trackPoints →
    ∃ g', g.run n x.events = .ok g' ∧ Reports n g g' x.trackPoints := by
  induction h with
  | content h =>
    intro g _
    obtain ⟨g', a1, a2⟩ := content_run (n := n) h g
    rw [content_points h]
    refine ⟨g', a1, a2.points.trans (List.append_nil _).symm, fun h _ => ?_⟩
    rw [a2.vec3, h]
    rfl
  | @point a ks hlat hlon hks =>
    intro g hr
    have et : (Xml.elem (chars! "trkpt") a ks).trackPoints = [(a, ks)] := by
      unfold Xml.trackPoints
      rw [if_pos rfl]
    rw [et] at hr ⊢
    have hstart : g.start n (chars! "trkpt") a = match attrValue (chars! "lat") a, attrValue (chars! "lon") a with
        | some lat, some lon => if blank lat || blank lon then .ub
          else .ok { g with vec3 := some ⟨n.num lon, n.num lat, ['0'], false⟩, time := [] }
        | _, _ => .ok { g with time := [] } := by
      unfold Gpx.start
      rw [if_pos rfl, attrMap_get, attrMap_get]
      rfl
    have hnone : ¬ Located (a, ks) → ∃ g', g.run n (Xml.elem (chars! "trkpt") a ks).events = .ok g' ∧ Reports n g g' [(a, ks)] := by
      intro hl
      rcases hr with ⟨hv, _⟩ | hr
      · have hs : g.start n (chars! "trkpt") a = .ok { g with time := [] } := by
          rw [hstart]
          rcases Option.eq_none_or_eq_some (attrValue (chars! "lat") a) with h1 | ⟨lat, h1⟩
          · rw [h1]
          · rcases Option.eq_none_or_eq_some (attrValue (chars! "lon") a) with h2 | ⟨lon, h2⟩
            · rw [h1, h2]
            · exact absurd (show Located (a, ks) from ⟨by rw [h1]; exact Option.some_ne_none _, by rw [h2]; exact Option.some_ne_none _⟩) hl
        obtain ⟨g', a1, a2⟩ := content_list (n := n) ks (fun x hx => content_run (hks x hx)) { g with time := [] }
        have hv' : g'.vec3 = none := by
          rw [a2.vec3]
          show g.vec3.map _ = none
          rw [hv]
          rfl
        have hrep : report n (a, ks) = none := by
          unfold report
          rcases Option.eq_none_or_eq_some (attrValue (chars! "lat") a) with h1 | ⟨lat, h1⟩
          · rw [h1]
          · rcases Option.eq_none_or_eq_some (attrValue (chars! "lon") a) with h2 | ⟨lon, h2⟩
            · rw [h1, h2]
            · exact absurd (show Located (a, ks) from ⟨by rw [h1]; exact Option.some_ne_none _, by rw [h2]; exact Option.some_ne_none _⟩) hl
        refine ⟨g', run_elem hs a1 ?_, ?_, fun _ _ => hv'⟩
        · unfold Gpx.stop
          rw [if_pos rfl, hv']
        · rw [List.filterMap_cons, hrep, a2.points]
          exact (List.append_nil _).symm
      · exact absurd (hr _ (by simp)) hl
    rcases Option.eq_none_or_eq_some (attrValue (chars! "lat") a) with h1 | ⟨lat, h1⟩
    · exact hnone fun hl => hl.1 h1
    rcases Option.eq_none_or_eq_some (attrValue (chars! "lon") a) with h2 | ⟨lon, h2⟩
    · exact hnone fun hl => hl.2 h2
    have hs : g.start n (chars! "trkpt") a = .ok { g with vec3 := some ⟨n.num lon, n.num lat, ['0'], false⟩, time := [] } := by
      rw [hstart, h1, h2]
      dsimp only
      rw [hlat _ h1, hlon _ h2, if_neg (by decide)]
    obtain ⟨g', a1, a2⟩ := content_list (n := n) ks (fun x hx => content_run (hks x hx))
      { g with vec3 := some ⟨n.num lon, n.num lat, ['0'], false⟩, time := [] }
    have hv : g'.vec3 = some (raise n ⟨n.num lon, n.num lat, ['0'], false⟩ (textsIn (chars! "ele") ks)) := a2.vec3
    have ht : g'.time = (textsIn (chars! "time") ks).getLast?.getD [] := a2.time
    have hp : g'.points = g.points := a2.points
    refine ⟨{ g' with points := g'.points ++ [(raise n ⟨n.num lon, n.num lat, ['0'], false⟩ (textsIn (chars! "ele") ks), g'.time)] },
      run_elem hs a1 ?_, ?_, fun _ h => absurd (show Located (a, ks) from ⟨by rw [h1]; exact Option.some_ne_none _, by rw [h2]; exact Option.some_ne_none _⟩)
        (h (a, ks) (by simp))⟩
    · unfold Gpx.stop
      rw [if_pos rfl, hv]
    · show g'.points ++ [_] = _
      rw [hp, ht, List.filterMap_cons]
      unfold report
      rw [h1, h2]
      dsimp only
      congr 2
  | @other m a ks h1 h2 h3 _ ih =>
    intro g hr
    have et : (Xml.elem m a ks).trackPoints = trackPointsIn ks := by
      conv => lhs; unfold Xml.trackPoints
      rw [if_neg h1]
    rw [et] at hr ⊢
    obtain ⟨g', a1, a2⟩ := track_list ks ih g hr
    exact ⟨g', run_elem (start_other h1 h2 h3) a1 (stop_other h1 h2 h3), a2⟩

/-- **C63.** For a document in order (`Track`), in which no track point without a position comes after one with a position,
exactly the track points with latitude and longitude are reported, once each and in order, with their own position,
elevation and time. -/
theorem C63_points_partial (n : NumLib) (x : Xml) (h : Track x)
    (ho : x.trackPoints.Pairwise fun p q => Located p → Located q) :
    ∃ g, Gpx.init.run n x.events = .ok g ∧ g.points = x.trackPoints.filterMap (report n) := by
  obtain ⟨g, h1, h2⟩ := track_run (n := n) h Gpx.init (.inl ⟨rfl, ho⟩)
  exact ⟨g, h1, h2.points⟩

/-! ### Examples and violations -/

/-- A track point with an elevation and a time. -/
def gPoint (lat lon ele time : Str) : Xml :=
  .elem (chars! "trkpt") [(chars! "lat", lat), (chars! "lon", lon)]
    [.elem (chars! "ele") [] [.text ele], .text ['\n'], .elem (chars! "time") [] [.text time]]

/-- A track point without position. -/
def gNowhere (time : Str) : Xml := .elem (chars! "trkpt") [(chars! "lat", ['1'])] [.elem (chars! "time") [] [.text time]]

theorem gPoint_track (lat lon ele time : Str) (h1 : blank lat = false) (h2 : blank lon = false) (h3 : blank ele = false) :
    Track (gPoint lat lon ele time) := by
  refine .point ?_ ?_ ?_
  · intro v hv
    cases hv
    exact h1
  · intro v hv
    cases hv
    exact h2
  · intro x hx
    simp only [List.mem_cons, List.not_mem_nil, or_false] at hx
    rcases hx with rfl | rfl | rfl
    · refine .ele (fun x hx => ⟨_, List.mem_singleton.1 hx⟩) ?_
      show blank (ele ++ []) = false
      rw [List.append_nil]
      exact h3
    · exact .text
    · exact .time fun x hx => ⟨_, List.mem_singleton.1 hx⟩

theorem gNowhere_track (time : Str) : Track (gNowhere time) := by
  refine .point ?_ ?_ ?_
  · intro v hv
    cases hv
    rfl
  · intro v hv
    cases hv
  · intro x hx
    rw [List.mem_singleton.1 hx]
    exact .time fun x hx => ⟨_, List.mem_singleton.1 hx⟩

/-- A document in order, and what is reported. -/
example :
    Track (.elem (chars! "gpx") [] [gNowhere ['s'], gPoint ['1'] ['2'] ['3'] ['t'], gPoint ['4'] ['5'] ['6'] ['u']]) ∧
    (Xml.elem (chars! "gpx") [] [gNowhere ['s'], gPoint ['1'] ['2'] ['3'] ['t'],
      gPoint ['4'] ['5'] ['6'] ['u']]).trackPoints.Pairwise (fun p q => Located p → Located q) ∧
    (match Gpx.init.run NumLib.integers (Xml.elem (chars! "gpx") [] [gNowhere ['s'], gPoint ['1'] ['2'] ['3'] ['t'],
        gPoint ['4'] ['5'] ['6'] ['u']]).events with
      | .ok g => g.points
      | _ => []) = [(⟨['2'], ['1'], ['3'], true⟩, ['t']), (⟨['5'], ['4'], ['6'], true⟩, ['u'])] := by
  refine ⟨.other (by decide) (by decide) (by decide) ?_, ?_, by decide +kernel⟩
  · intro x hx
    simp only [List.mem_cons, List.not_mem_nil, or_false] at hx
    rcases hx with rfl | rfl | rfl
    · exact gNowhere_track _
    · exact gPoint_track _ _ _ _ (by decide) (by decide) (by decide)
    · exact gPoint_track _ _ _ _ (by decide) (by decide) (by decide)
  · refine .cons ?_ (.cons ?_ (.cons (fun _ h => nomatch h) .nil))
    · rintro p _ ⟨_, h⟩
      exact absurd rfl h
    · rintro p hp _
      rw [List.mem_singleton.1 hp]
      exact ⟨Option.some_ne_none _, Option.some_ne_none _⟩

/-- **C63, violated.** A track point without a position that comes after one with a position is reported, with the position and
elevation of the other one. -/
theorem C63_stale_violated :
    (match Gpx.init.run NumLib.integers
        (Xml.elem (chars! "gpx") [] [gPoint ['1'] ['2'] ['3'] ['t'], gNowhere ['u']]).events with
      | .ok g => g.points
      | _ => []) = [(⟨['2'], ['1'], ['3'], true⟩, ['t']), (⟨['2'], ['1'], ['3'], true⟩, ['u'])] ∧
    (report NumLib.integers ([(chars! "lat", ['1'])], [.elem (chars! "time") [] [.text ['u']]])) = none := by
  decide +kernel

/-- **C63, violated.** An empty elevation, or an empty latitude, makes the handler use a number that was never set. -/
theorem C63_blank_violated :
    (match Gpx.init.run NumLib.integers (gPoint ['1'] ['2'] [] ['t']).events with | .ub => true | _ => false) = true ∧
    (match Gpx.init.run NumLib.integers (gPoint [] ['2'] ['3'] ['t']).events with | .ub => true | _ => false) = true := by
  decide +kernel

end Kml.Dom
