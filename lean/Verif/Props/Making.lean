import Verif.Lemmas.Making
import Verif.Spec.Making
import Verif.Props.Update
import Verif.Props.Convenience
/-! Property C100: elements made by the conveniences. -/
namespace Kml.Dom
open Kml

/-! ### What the classes take, from the tables -/

theorem point_fields : complexField Ty.«Point» Ty.«coordinates» (.one M.«coordinates») = true ∧
    complexField Ty.«LineString» Ty.«coordinates» (.one M.«coordinates») = true ∧
    complexField Ty.«Placemark» Ty.«Point» (.one M.«geometry») = true ∧
    complexField Ty.«Placemark» Ty.«LineString» (.one M.«geometry») = true ∧
    complexField Ty.«Placemark» Ty.«Polygon» (.one M.«geometry») = true ∧
    complexField Ty.«Polygon» Ty.«outerBoundaryIs» (.one M.«outerboundaryis») = true ∧
    complexField Ty.«outerBoundaryIs» Ty.«LinearRing» (.one M.«linearring») = true ∧
    simpleField Ty.«Placemark» Ty.«name» M.«name» .str = true ∧
    simpleField Ty.«Placemark» Ty.«styleUrl» M.«styleurl» .str = true ∧
    complexField Ty.«Placemark» Ty.«TimeStamp» (.one M.«timeprimitive») = true ∧
    complexField Ty.«Placemark» Ty.«ExtendedData» (.one M.«extendeddata») = true ∧
    complexField Ty.«ExtendedData» Ty.«Data» (.many M.«data_array») = true ∧
    simpleField Ty.«TimeStamp» Ty.«when» M.«when» .str = true ∧
    simpleField Ty.«Data» Ty.«value» M.«value» .str = true ∧
    simpleField Ty.«LineString» Ty.«tessellate» M.«tessellate» .bool = true := by decide +kernel

theorem view_fields : ∀ t ∈ [Ty.«Camera», Ty.«LookAt»],
    simpleField t Ty.«longitude» M.«longitude» (.dbl (chars! "0")) = true ∧ simpleField t Ty.«latitude» M.«latitude» (.dbl (chars! "0")) = true ∧
    simpleField t Ty.«altitude» M.«altitude» (.dbl (chars! "0")) = true ∧ simpleField t Ty.«heading» M.«heading» (.dbl (chars! "0")) = true ∧
    simpleField t Ty.«tilt» M.«tilt» (.dbl (chars! "0")) = true ∧ simpleField t Ty.«altitudeMode» M.«altitudemode» .enum = true := by
  decide +kernel

theorem view_own : simpleField Ty.«Camera» Ty.«roll» M.«roll» (.dbl (chars! "0")) = true ∧
    simpleField Ty.«LookAt» Ty.«range» M.«range» (.dbl (chars! "0")) = true := by decide +kernel

theorem modes_read : ∀ s ∈ altitudeModes, (Xsd.enumId Ty.«altitudeMode» s).isSome = true ∧ s.all legalChar = true ∧
    findFrom (chars! "]]>") s = none ∧ findFrom (chars! "<![CDATA[") s = none := by decide +kernel

theorem region_fields : simpleField Ty.«LatLonAltBox» Ty.«north» M.«north» (.dbl (chars! "180")) = true ∧
    simpleField Ty.«LatLonAltBox» Ty.«south» M.«south» (.dbl (chars! "-180")) = true ∧
    simpleField Ty.«LatLonAltBox» Ty.«east» M.«east» (.dbl (chars! "180")) = true ∧
    simpleField Ty.«LatLonAltBox» Ty.«west» M.«west» (.dbl (chars! "-180")) = true ∧
    simpleField Ty.«Lod» Ty.«minLodPixels» M.«minlodpixels» (.dbl (chars! "0")) = true ∧
    simpleField Ty.«Lod» Ty.«maxLodPixels» M.«maxlodpixels» (.dbl (chars! "-1")) = true ∧
    complexField Ty.«Region» Ty.«LatLonAltBox» (.one M.«latlonaltbox») = true ∧
    complexField Ty.«Region» Ty.«Lod» (.one M.«lod») = true ∧
    complexField Ty.«NetworkLink» Ty.«Region» (.one M.«region») = true ∧
    complexField Ty.«Document» Ty.«Region» (.one M.«region») = true ∧
    complexField Ty.«NetworkLink» Ty.«Link» (.one M.«link») = true ∧
    simpleField Ty.«Link» Ty.«href» M.«href» .cdata = true ∧
    simpleField Ty.«Link» Ty.«viewRefreshMode» M.«viewrefreshmode» .enum = true ∧
    (Xsd.enumId Ty.«viewRefreshMode» (chars! "onRegion")).isSome = true := by decide +kernel

theorem tour_fields : simpleField Ty.«GxWait» Ty.«GxDuration» M.«gx_duration» (.dbl (chars! "0")) = true ∧
    simpleField Ty.«GxAnimatedUpdate» Ty.«GxDuration» M.«gx_duration» (.dbl (chars! "0")) = true ∧
    simpleField Ty.«GxFlyTo» Ty.«GxDuration» M.«gx_duration» (.dbl (chars! "0")) = true ∧
    complexField Ty.«GxAnimatedUpdate» Ty.«Update» (.one M.«update») = true ∧
    complexField Ty.«Update» Ty.«Change» (.many M.«updateoperation_array») = true ∧
    complexField Ty.«Change» Ty.«Placemark» (.many M.«object_array») = true ∧
    simpleField Ty.«Update» Ty.«targetHref» M.«targethref» .str = true := by decide +kernel

theorem new_types : ∀ t ∈ [Ty.«Point», Ty.«Placemark», Ty.«Camera», Ty.«LookAt», Ty.«Region», Ty.«LatLonAltBox», Ty.«Lod», Ty.«NetworkLink»,
    Ty.«Link», Ty.«Document», Ty.«GxWait», Ty.«GxFlyTo», Ty.«GxAnimatedUpdate», Ty.«Update», Ty.«Change», Ty.«Polygon», Ty.«outerBoundaryIs»,
    Ty.«TimeStamp», Ty.«ExtendedData», Ty.«Data», Ty.«LineString»], plainType t = true := by decide +kernel

theorem data_reads : (chars! "name", AttrKind.str) ∈ (classAt Ty.«Data»).reads ∧
    (chars! "targetId", AttrKind.str) ∈ (classAt Ty.«Placemark»).reads ∧
    (classOf Ty.«Placemark»).isSome = true ∧ (classOf Ty.«Point»).isSome = true ∧
    taker Ty.«Placemark» (newNode Ty.«Point») = some (.one M.«geometry») ∧
    taker Ty.«Point» (newNode Ty.«coordinates») = some (.one M.«coordinates») ∧
    holdsMany Ty.«Placemark» M.«geometry» = false ∧ holdsMany Ty.«Point» M.«coordinates» = false := by decide +kernel

theorem points_rules : Coordinates.cls.rules.all (fun r => !r.2.isCdata) = true := by decide +kernel

theorem moved_types : Xsd.elementType Ty.«Point» ≠ .simple ∧ Xsd.elementType Ty.«coordinates» ≠ .simple ∧
    Xsd.elementType Ty.«Placemark» ≠ .simple := by decide +kernel

theorem target_attrs (target : Str) : serializeAttributes (classAt Ty.«Placemark») ⟨[(chars! "targetId", target)], [], []⟩ =
    [(chars! "targetId", target)] := rfl

theorem view_class : (classOf Ty.«LookAt»).isSome = true := by decide +kernel

theorem view_isA : (newNode Ty.«LookAt»).isA Ty.«AbstractView» = true := by decide +kernel

theorem u_at : uFile.ids.get ['p'] = some (.place [.slot M.«feature_array» 0]) := by decide +kernel

attribute [local irreducible] classes kml22Elements Xsd.tagToId

variable {n : NumLib} {pretty : Bool} {k : Nat} {p : Option Ty}

theorem rereads (h : ∀ pretty, Canonical n pretty 100 none e) : Rereads n e := ⟨reread_canonical (h true), reread_canonical (h false)⟩

theorem zero_written : Written n ['0'] := n.num_small _ (by simp)

theorem coords_canonical {v : Coords.Vec3} (h : Coords.IsPoint n v) :
    Canonical n pretty (k + 1) p ((newNode Ty.«coordinates»).addItem M.«coordinates_array» (.field Ty.Unknown (pointText v))) :=
  Canonical.points (pts := [v]) (fun w hw => by rw [List.mem_singleton.1 hw]; exact h) (.inr (by simp))

theorem point_canonical {lat lon : Str} (h1 : Written n lat) (h2 : Written n lon) :
    Canonical n pretty (k + 2) p (createPointLatLon lat lon) :=
  make_child Ty.«Point» Ty.«coordinates» (new_canonical (new_types _ (by simp))) rfl rfl rfl point_fields.1
    (coords_canonical ⟨h2, h1, zero_written⟩)

theorem vec3_canonical {v : Coords.Vec3} (h1 : Written n v.lat) (h2 : Written n v.lon) (h3 : Written n v.alt) :
    Canonical n pretty (k + 2) p (createPointFromVec3 v) := by
  refine make_child Ty.«Point» Ty.«coordinates» (new_canonical (new_types _ (by simp))) rfl rfl rfl point_fields.1 (coords_canonical ?_)
  split
  · exact ⟨h2, h1, h3⟩
  · exact ⟨h2, h1, zero_written⟩

theorem mode_quotable {s : Str} (h : s ∈ altitudeModes) : Quotable s :=
  have h := (modes_read s h).2
  quotable_of h.1 h.2.1 h.2.2

theorem mode_read {s : Str} (h : s ∈ altitudeModes) : readValue n .enum Ty.«altitudeMode» none s = .ok (some s) := by
  unfold readValue
  dsimp only
  rw [if_pos (modes_read s h).1]

theorem camera_canonical {lat lon alt heading tilt roll mode : Str} (h1 : Written n lat) (h2 : Written n lon) (h3 : Written n alt)
    (h4 : Written n heading) (h5 : Written n tilt) (h6 : Written n roll) (h7 : mode ∈ altitudeModes) :
    Canonical n pretty (k + 2) p (createCamera lat lon alt heading tilt roll mode) := by
  obtain ⟨f1, f2, f3, f4, f5, f6⟩ := view_fields Ty.«Camera» (by simp)
  exact make_text Ty.«Camera» (make_number Ty.«Camera» (make_number Ty.«Camera» (make_number Ty.«Camera» (make_number Ty.«Camera»
    (make_number Ty.«Camera» (make_number Ty.«Camera» (new_canonical (new_types _ (by simp))) rfl f1 h2) rfl f2 h1) rfl f3 h3) rfl f4 h4)
    rfl f5 h5) rfl view_own.1 h6) rfl f6 (mode_read h7) (mode_quotable h7)

theorem lookAt_canonical {lat lon alt heading tilt range mode : Str} (h1 : Written n lat) (h2 : Written n lon) (h3 : Written n alt)
    (h4 : Written n heading) (h5 : Written n tilt) (h6 : Written n range) (h7 : mode ∈ altitudeModes) :
    Canonical n pretty (k + 2) p (createLookAt lat lon alt heading tilt range mode) := by
  obtain ⟨f1, f2, f3, f4, f5, f6⟩ := view_fields Ty.«LookAt» (by simp)
  exact make_text Ty.«LookAt» (make_number Ty.«LookAt» (make_number Ty.«LookAt» (make_number Ty.«LookAt» (make_number Ty.«LookAt»
    (make_number Ty.«LookAt» (make_number Ty.«LookAt» (new_canonical (new_types _ (by simp))) rfl f1 h2) rfl f2 h1) rfl f3 h3) rfl f4 h4)
    rfl f5 h5) rfl view_own.2 h6) rfl f6 (mode_read h7) (mode_quotable h7)

theorem region_canonical {north south east west minLod maxLod : Str} (h1 : Written n north) (h2 : Written n south) (h3 : Written n east)
    (h4 : Written n west) (h5 : Written n minLod) (h6 : Written n maxLod) :
    Canonical n pretty (k + 3) p (createRegion2d north south east west minLod maxLod) := by
  obtain ⟨f1, f2, f3, f4, f5, f6, f7, f8, _⟩ := region_fields
  refine make_child Ty.«Region» Ty.«Lod» (make_child Ty.«Region» Ty.«LatLonAltBox» (new_canonical (new_types _ (by simp))) rfl rfl rfl f7 ?_)
    rfl rfl rfl f8 ?_
  · exact make_number Ty.«LatLonAltBox» (make_number Ty.«LatLonAltBox» (make_number Ty.«LatLonAltBox» (make_number Ty.«LatLonAltBox»
      (new_canonical (new_types _ (by simp))) rfl f1 h1) rfl f2 h2) rfl f3 h3) rfl f4 h4
  · exact make_number Ty.«Lod» (make_number Ty.«Lod» (new_canonical (new_types _ (by simp))) rfl f5 h5) rfl f6 h6

theorem wait_canonical {d : Str} (h : Written n d) : Canonical n pretty (k + 2) p (createWait d) :=
  make_number Ty.«GxWait» (new_canonical (new_types _ (by simp))) rfl tour_fields.1 h

theorem update_canonical {target d : Str} {v : Coords.Vec3} (ht : PlainAttr target) (h1 : Written n v.lat) (h2 : Written n v.lon)
    (h3 : Written n v.alt) (hd : Written n d) : Canonical n pretty (k + 6) p (createAnimatedUpdateChangePoint target v d) := by
  obtain ⟨_, f2, _, f4, f5, f6, f7⟩ := tour_fields
  refine make_number Ty.«GxAnimatedUpdate» (make_child Ty.«GxAnimatedUpdate» Ty.«Update» (new_canonical (new_types _ (by simp))) rfl rfl rfl
    f4 ?_) rfl f2 hd
  refine make_text Ty.«Update» (make_item Ty.«Update» Ty.«Change» (new_canonical (new_types _ (by simp))) rfl rfl rfl f5 ?_) rfl f7 rfl
    (quotable_of rfl rfl rfl)
  refine make_item Ty.«Change» Ty.«Placemark» (new_canonical (new_types _ (by simp))) rfl rfl rfl f6 ?_
  refine make_child Ty.«Placemark» Ty.«Point» (setKnown_canonical (new_canonical (new_types _ (by simp))) (new_types _ (by simp [newNode, Elem.ty]))
    data_reads.2.1 ht) rfl rfl rfl point_fields.2.2.1 (vec3_canonical h1 h2 h3)

theorem link_canonical {region : Elem} {href : Str} (hr : ∀ t, Canonical n pretty (k + 2) (some t) region) (ht : region.ty = Ty.«Region»)
    (hx : region.complex = true) (hq : Quotable href) (hc : ¬ chars! "<![CDATA[" <+: href) :
    Canonical n pretty (k + 3) p (createRegionNetworkLink region href) := by
  obtain ⟨_, _, _, _, _, _, _, _, f9, _, f11, f12, f13, f14⟩ := region_fields
  refine make_child Ty.«NetworkLink» Ty.«Link» (make_child Ty.«NetworkLink» Ty.«Region» (new_canonical (new_types _ (by simp))) rfl hx ht f9
    (hr _)) rfl rfl rfl f11 ?_
  refine make_text Ty.«Link» (make_text Ty.«Link» (new_canonical (new_types _ (by simp))) rfl f12 ?_ hq) rfl f13 ?_
    (quotable_of (by decide) (by decide) (by decide))
  · unfold readValue insideCdata
    dsimp only
    rw [if_neg (fun h => hc (List.isPrefixOf_iff_prefix.1 h))]
  · unfold readValue
    dsimp only
    rw [if_pos f14]

theorem document_canonical {region : Elem} (hr : ∀ t, Canonical n pretty (k + 2) (some t) region) (ht : region.ty = Ty.«Region»)
    (hx : region.complex = true) : Canonical n pretty (k + 3) p (createRegionDocument region) :=
  make_child Ty.«Document» Ty.«Region» (new_canonical (new_types _ (by simp))) rfl hx ht region_fields.2.2.2.2.2.2.2.2.2.1 (hr _)

theorem data_canonical {name value : Str} (hn : PlainAttr name) (hv : Quotable value) :
    Canonical n pretty (k + 2) p (createDataNameValue name value) :=
  make_text Ty.«Data» (setKnown_canonical (new_canonical (new_types _ (by simp))) (new_types _ (by simp [newNode, Elem.ty])) data_reads.1 hn)
    rfl point_fields.2.2.2.2.2.2.2.2.2.2.2.2.2.1 rfl hv

theorem stamped_canonical {point : Elem} {date time dateTime style : Str} (hp : Canonical n pretty (k + 3) (some Ty.«Placemark») point)
    (ht : point.ty = Ty.«Point») (hx : point.complex = true) (h1 : Quotable date) (h2 : Quotable time) (h3 : Quotable dateTime)
    (h4 : Quotable ('#' :: style)) : Canonical n pretty (k + 4) p (createPointPlacemarkWithTimeStamp point date time dateTime style) := by
  obtain ⟨_, _, f3, _, _, _, _, f8, f9, f10, f11, f12, f13, _⟩ := point_fields
  unfold createPointPlacemarkWithTimeStamp addExtendedDataValue
  refine make_child Ty.«Placemark» Ty.«Point» (make_child Ty.«Placemark» Ty.«ExtendedData» (make_child Ty.«Placemark» Ty.«ExtendedData»
    (make_child Ty.«Placemark» Ty.«TimeStamp» (make_text Ty.«Placemark» (make_text Ty.«Placemark» (new_canonical (new_types _ (by simp))) rfl
    f8 rfl h2) rfl f9 rfl h4) rfl rfl rfl f10 ?_) rfl rfl rfl f11 ?_) rfl rfl rfl f11 ?_) rfl hx ht f3 hp
  · exact make_text Ty.«TimeStamp» (new_canonical (new_types _ (by simp))) rfl f13 rfl h3
  · exact make_item Ty.«ExtendedData» Ty.«Data» (new_canonical (new_types _ (by simp))) rfl rfl rfl f12
      (data_canonical (by unfold PlainAttr; decide) h1)
  · exact make_item Ty.«ExtendedData» Ty.«Data» (make_item Ty.«ExtendedData» Ty.«Data» (new_canonical (new_types _ (by simp))) rfl rfl rfl f12
      (data_canonical (by unfold PlainAttr; decide) h1)) rfl rfl rfl f12 (data_canonical (by unfold PlainAttr; decide) h2)

theorem latLng_text (lat lng : Str) : pointText ⟨lng, lat, ['0'], false⟩ = positionText ⟨lng, lat, [], false⟩ := by
  simp [pointText, positionText]

/-- **C100, placemarks.** The placemark that is made of a name and a position, and the point alone, can be written and read. -/
theorem C100_placemark (name lat lon : Str) (hn : Quotable name) (h1 : Written n lat) (h2 : Written n lon) :
    Rereads n (createPointPlacemark name lat lon) ∧ Rereads n (createPointLatLon lat lon) ∧
    (createPointPlacemark name lat lon).text M.«name» = name ∧
    ∃ g, (createPointPlacemark name lat lon).only M.«geometry» = some g ∧ g.ty = Ty.«Point» ∧
      g.pointTexts = [positionText ⟨lon, lat, [], false⟩] :=
  ⟨rereads fun _ => make_child (k := 99) Ty.«Placemark» Ty.«Point» (make_text Ty.«Placemark» (new_canonical (new_types _ (by simp))) rfl
    point_fields.2.2.2.2.2.2.2.1 rfl hn) rfl rfl rfl point_fields.2.2.1 (point_canonical h1 h2),
   rereads fun _ => point_canonical (k := 98) h1 h2, rfl, _, rfl, rfl, by
    change [pointText ⟨lon, lat, ['0'], false⟩] = _
    rw [latLng_text]⟩

/-- **C100, views.** A camera or a look-at made of any numbers and a mode can be written and read, and has just the values it was made of. -/
theorem C100_views (lat lon alt heading tilt last mode : Str) (h1 : Written n lat) (h2 : Written n lon) (h3 : Written n alt)
    (h4 : Written n heading) (h5 : Written n tilt) (h6 : Written n last) (h7 : mode ∈ altitudeModes) :
    (Rereads n (createCamera lat lon alt heading tilt last mode) ∧ (createCamera lat lon alt heading tilt last mode).ty = Ty.«Camera» ∧
      [M.«latitude», M.«longitude», M.«altitude», M.«heading», M.«tilt», M.«roll», M.«altitudemode»].map
        (createCamera lat lon alt heading tilt last mode).text = [lat, lon, alt, heading, tilt, last, mode]) ∧
    (Rereads n (createLookAt lat lon alt heading tilt last mode) ∧ (createLookAt lat lon alt heading tilt last mode).ty = Ty.«LookAt» ∧
      [M.«latitude», M.«longitude», M.«altitude», M.«heading», M.«tilt», M.«range», M.«altitudemode»].map
        (createLookAt lat lon alt heading tilt last mode).text = [lat, lon, alt, heading, tilt, last, mode]) :=
  ⟨⟨rereads fun _ => camera_canonical (k := 98) h1 h2 h3 h4 h5 h6 h7, rfl, rfl⟩,
   ⟨rereads fun _ => lookAt_canonical (k := 98) h1 h2 h3 h4 h5 h6 h7, rfl, rfl⟩⟩

/-- **C100, regions.** A region made of a box and a range of pixels, and the network link and the document with that region, can be
written and read, and have just the values they were made of. -/
theorem C100_regions (north south east west minLod maxLod href : Str) (h1 : Written n north) (h2 : Written n south) (h3 : Written n east)
    (h4 : Written n west) (h5 : Written n minLod) (h6 : Written n maxLod) (hq : Quotable href) (hc : ¬ chars! "<![CDATA[" <+: href) :
    Rereads n (createRegion2d north south east west minLod maxLod) ∧
    Rereads n (createRegionNetworkLink (createRegion2d north south east west minLod maxLod) href) ∧
    Rereads n (createRegionDocument (createRegion2d north south east west minLod maxLod)) ∧
    (∃ box lod, (createRegion2d north south east west minLod maxLod).only M.«latlonaltbox» = some box ∧
      (createRegion2d north south east west minLod maxLod).only M.«lod» = some lod ∧
      [M.«north», M.«south», M.«east», M.«west»].map box.text = [north, south, east, west] ∧
      [M.«minlodpixels», M.«maxlodpixels»].map lod.text = [minLod, maxLod]) ∧
    ∀ region, (createRegionNetworkLink region href).ty = Ty.«NetworkLink» ∧
      (createRegionNetworkLink region href).only M.«region» = some region ∧
      (∃ link, (createRegionNetworkLink region href).only M.«link» = some link ∧
        [M.«href», M.«viewrefreshmode»].map link.text = [href, "onRegion".toList]) ∧
      (createRegionDocument region).ty = Ty.«Document» ∧ (createRegionDocument region).only M.«region» = some region :=
  ⟨rereads fun _ => region_canonical (k := 97) h1 h2 h3 h4 h5 h6,
   rereads fun _ => link_canonical (k := 97) (fun _ => region_canonical (k := 96) h1 h2 h3 h4 h5 h6) rfl rfl hq hc,
   rereads fun _ => document_canonical (k := 97) (fun _ => region_canonical (k := 96) h1 h2 h3 h4 h5 h6) rfl rfl,
   ⟨_, _, rfl, rfl, rfl, rfl⟩, fun _ => ⟨rfl, rfl, ⟨_, rfl, rfl⟩, rfl, rfl⟩⟩

/-- **C100, polygons.** The placemark of a ring that can be written and read can be too, and the ring is its outer boundary. -/
theorem C100_polygon (ring : Elem) (hr : ∀ pretty, Canonical n pretty 97 (some Ty.«outerBoundaryIs») ring) (ht : ring.ty = Ty.«LinearRing»)
    (hx : ring.complex = true) :
    Rereads n (createBasicPolygonPlacemark ring) ∧ ∃ g b, (createBasicPolygonPlacemark ring).only M.«geometry» = some g ∧
      g.ty = Ty.«Polygon» ∧ g.only M.«outerboundaryis» = some b ∧ b.only M.«linearring» = some ring := by
  obtain ⟨_, _, _, _, f5, f6, f7, _⟩ := point_fields
  refine ⟨rereads fun _ => ?_, _, _, rfl, rfl, rfl, rfl⟩
  exact make_child Ty.«Placemark» Ty.«Polygon» (new_canonical (new_types _ (by simp))) rfl rfl rfl f5
    (make_child Ty.«Polygon» Ty.«outerBoundaryIs» (new_canonical (new_types _ (by simp))) rfl rfl rfl f6
      (make_child Ty.«outerBoundaryIs» Ty.«LinearRing» (new_canonical (new_types _ (by simp))) rfl hx ht f7 (hr _)))

/-- **C100, tours.** A wait and an animated update of a point can be written and read. -/
theorem C100_tours (target d : Str) (v : Coords.Vec3) (ht : PlainAttr target) (h1 : Written n v.lat) (h2 : Written n v.lon)
    (h3 : Written n v.alt) (hd : Written n d) :
    Rereads n (createWait d) ∧ Rereads n (createAnimatedUpdateChangePoint target v d) ∧
    (createWait d).ty = Ty.«GxWait» ∧ (createWait d).text M.«gx_duration» = d ∧
    (createAnimatedUpdateChangePoint target v d).ty = Ty.«GxAnimatedUpdate» ∧
    (createAnimatedUpdateChangePoint target v d).text M.«gx_duration» = d ∧
    (createAnimatedUpdateChangePoint target v d).only M.«update» = some (changePointUpdate target v) :=
  ⟨rereads fun _ => wait_canonical (k := 98) hd, rereads fun _ => update_canonical (k := 94) ht h1 h2 h3 hd, rfl, rfl, rfl, rfl, rfl⟩

/-- **C100, times.** A placemark with a time can be written and read, it has the point, the time and the style, and its extended data
give the date and the time. -/
theorem C100_stamped (lat lon date time dateTime style : Str) (h1 : Written n lat) (h2 : Written n lon) (hd : Quotable date)
    (ht : Quotable time) (hdt : Quotable dateTime) (hs : Quotable ('#' :: style)) :
    Rereads n (createPointPlacemarkWithTimeStamp (createPointLatLon lat lon) date time dateTime style) ∧
    [M.«name», M.«styleurl»].map (createPointPlacemarkWithTimeStamp (createPointLatLon lat lon) date time dateTime style).text =
      [time, '#' :: style] ∧
    (∃ t, (createPointPlacemarkWithTimeStamp (createPointLatLon lat lon) date time dateTime style).only M.«timeprimitive» = some t ∧
      t.ty = Ty.«TimeStamp» ∧ t.text M.«when» = dateTime) ∧
    (createPointPlacemarkWithTimeStamp (createPointLatLon lat lon) date time dateTime style).only M.«geometry» =
      some (createPointLatLon lat lon) ∧
    getExtendedDataValue (createPointPlacemarkWithTimeStamp (createPointLatLon lat lon) date time dateTime style) "date".toList = some date ∧
    getExtendedDataValue (createPointPlacemarkWithTimeStamp (createPointLatLon lat lon) date time dateTime style) "time".toList = some time :=
  ⟨rereads fun _ => stamped_canonical (k := 96) (point_canonical (k := 97) h1 h2) rfl rfl hd ht hdt hs, rfl, ⟨_, rfl, rfl, rfl⟩, rfl, rfl, rfl⟩

/-- **C100, flights.** The flight to a feature goes to a copy of the view of the feature, all of it, if it has one; else to the one that is
computed; and there is none if none can be. -/
theorem C100_flight (lookAt : Elem → Option Elem) (f v : Elem) (d : Str) (hv : Held n v) (hc : Everywhere Clonable v)
    (hl : Everywhere Lossless v) (ha : v.isA Ty.«AbstractView» = true) (hx : v.complex = true)
    (h : f.only M.«abstractview» = some v ∨ f.only M.«abstractview» = none ∧ lookAt f = some v) :
    ∃ e, createFlyToForFeature n lookAt (some f) d = .ok (some e) ∧ e.ty = Ty.«GxFlyTo» ∧ e.only M.«abstractview» = some v ∧
      e.text M.«gx_duration» = d := by
  have hfly : createFlyTo n (some v) d =
      .ok (((newNode Ty.«GxFlyTo»).setSimple M.«gx_duration» Ty.«GxDuration» d).setOne M.«abstractview» v) := by
    unfold createFlyTo
    dsimp only
    rw [clone_self hv hc hl hx, Outcome.ok_bind]
    dsimp only
    rw [if_pos ha]
  refine ⟨((newNode Ty.«GxFlyTo»).setSimple M.«gx_duration» Ty.«GxDuration» d).setOne M.«abstractview» v, ?_, ?_, ?_, ?_⟩
  · unfold createFlyToForFeature
    rcases h with h | ⟨h, h'⟩
    · dsimp only
      rw [h]
      dsimp only
      rw [hfly, Outcome.ok_bind]
    · dsimp only
      rw [h]
      dsimp only
      rw [h']
      dsimp only
      rw [hfly, Outcome.ok_bind]
  · rfl
  · rfl
  · rfl

/-- And there is none for no feature, or for one without a view of which none can be computed. -/
theorem C100_no_flight (lookAt : Elem → Option Elem) (f : Elem) (d : Str) (h : f.only M.«abstractview» = none) (h' : lookAt f = none) :
    createFlyToForFeature n lookAt none d = .ok none ∧ createFlyToForFeature n lookAt (some f) d = .ok none := by
  refine ⟨rfl, ?_⟩
  unfold createFlyToForFeature
  dsimp only
  rw [h]
  dsimp only
  rw [h']

/-! ### Moving a point -/

theorem sourcePoint (v : Coords.Vec3) : createPointFromVec3 v =
    .node Ty.«Point» .empty (setSlot (fun _ => []) M.«coordinates»
      [.node Ty.«coordinates» .empty (pointTextSlots [positionText v]) [] []]) [] [] := by
  have : pointText (if v.hasAlt then v else ⟨v.lon, v.lat, ['0'], false⟩) = positionText v := by
    unfold pointText positionText
    cases v.hasAlt <;> simp
  unfold createPointFromVec3
  rw [this]
  rfl

theorem one_everywhere {P : Elem → Prop} {t : Ty} {a : Attrs} {m : Mem} {x : Elem} (h : P (.node t a (setSlot (fun _ => []) m [x]) [] []))
    (hx : Everywhere P x) : Everywhere P (.node t a (setSlot (fun _ => []) m [x]) [] []) := by
  refine .node h ?_ (by intro x hx; cases hx)
  intro m' y hy
  unfold setSlot at hy
  split at hy
  · rw [List.mem_singleton.1 hy]; exact hx
  · cases hy

theorem source_all {P : Elem → Prop} {target : Str} {v : Coords.Vec3} (hf : ∀ t s, P (.field t s))
    (h1 : P (changePointPlacemark target v)) (h2 : P (createPointFromVec3 v))
    (h3 : P (.node Ty.«coordinates» .empty (pointTextSlots [positionText v]) [] [])) : Everywhere P (changePointPlacemark target v) := by
  refine one_everywhere (x := createPointFromVec3 v) h1 ?_
  rw [sourcePoint] at h2 ⊢
  refine one_everywhere h2 ?_
  exact one_everywhere (x := .field Ty.Unknown (positionText v)) h3 (.field (hf _ _))

theorem one_held {t : Ty} {a : Attrs} {m : Mem} {x : Elem} {act : Act} (h1 : (classOf t).isSome = true) (h2 : textual t = false)
    (h3 : a.Held n (classAt t)) (h4 : taker t x = some act) (hm : act.mem = m) (h5 : Settled n act x) (h6 : Held n x) :
    Held n (.node t a (setSlot (fun _ => []) m [x]) [] []) := by
  refine .node h1 h2 h3 ?_ (by intro x hx; cases hx) ?_ (by intro x hx; cases hx)
  · intro m' y hy
    unfold setSlot at hy ⊢
    by_cases hm' : m' = m
    · rw [if_pos hm'] at hy ⊢
      rw [List.mem_singleton.1 hy]
      exact ⟨act, h4, hm.trans hm'.symm, .inr h5, fun _ => rfl⟩
    · rw [if_neg hm'] at hy; cases hy
  · intro m' y hy
    unfold setSlot at hy
    split at hy
    · rw [List.mem_singleton.1 hy]; exact h6
    · cases hy

theorem source_held (target : Str) (v : Coords.Vec3) : Held n (changePointPlacemark target v) := by
  have e : Attrs.Held n (classAt Ty.«Point») .empty := (attrs_empty_canonical n _).held
  have e' : Attrs.Held n (classAt Ty.«coordinates») .empty := (attrs_empty_canonical n _).held
  refine one_held (x := createPointFromVec3 v) (act := .one M.«geometry») data_reads.2.2.1 rfl ?_ data_reads.2.2.2.2.1 rfl trivial ?_
  · refine ⟨?_, StdMap.sorted_nil, StdMap.sorted_nil, ?_, by intro e he; cases he⟩
    · exact StdMap.sorted_set StdMap.sorted_nil _ _
    · intro e he
      rw [List.mem_singleton.1 he]
      exact ⟨.str, data_reads.2.1, rfl⟩
  · rw [sourcePoint]
    exact one_held (act := .one M.«coordinates») data_reads.2.2.2.1 rfl e data_reads.2.2.2.2.2.1 rfl trivial (.points e')

theorem source_fits (target : Str) (v : Coords.Vec3) : Source n (changePointPlacemark target v) where
  held := source_held target v
  clonable := by
    refine source_all (fun _ _ => trivial) ?_ ?_ ?_
    · refine ⟨?_, fun h => absurd h (by decide)⟩
      intro m x hx act t' s ht hc he
      change x ∈ setSlot (fun _ => []) M.«geometry» [createPointFromVec3 v] m at hx
      unfold setSlot at hx
      split at hx
      · rw [List.mem_singleton.1 hx] at he; cases he
      · cases hx
    · refine ⟨?_, fun h => absurd h (by decide)⟩
      intro m x hx act t' s ht hc he
      unfold setSlot at hx
      split at hx
      · rw [List.mem_singleton.1 hx] at he; cases he
      · cases hx
    · refine ⟨?_, fun h => absurd h (by decide)⟩
      intro m x hx act t' s ht hc he
      rw [taker, classOf_coordinates] at ht
      unfold findRule at ht
      obtain ⟨r, hr, rfl⟩ := Option.map_eq_some_iff.1 ht
      have := List.all_eq_true.1 points_rules _ (List.mem_of_find?_eq_some hr)
      rw [hc] at this
      cases this
  lossless := source_all (fun _ _ => trivial) ⟨fun h => absurd h (by decide), fun h => absurd h (by decide), fun h => absurd h (by decide)⟩
    ⟨fun h => absurd h (by decide), fun h => absurd h (by decide), fun h => absurd h (by decide)⟩
    ⟨fun _ => ⟨rfl, rfl⟩, fun h => absurd h (by decide), fun _ => by intro h; cases h⟩
  tidy := source_all (fun _ _ => trivial) (by intro x hx; cases hx) (by intro x hx; cases hx) (by intro x hx; cases hx)
  complex := rfl

theorem node_of_type {n : NumLib} {e : Elem} (h : Held n e) (ht : Xsd.elementType e.ty ≠ .simple) :
    ∃ t a slots mis unk, e = .node t a slots mis unk := by
  cases e with
  | field t s => cases h with | field h => exact absurd h ht
  | node t a slots mis unk => exact ⟨t, a, slots, mis, unk, rfl⟩

theorem mergedItem_cases (x : Elem) (old : List Elem) :
    (∃ y, old = [y] ∧ x.ty = y.ty ∧ mergedItem [x] old = [merged x y]) ∨ mergedItem [x] old = [x] := by
  rw [mergedItem]
  dsimp only
  split
  · split
    · rename_i y h
      exact .inl ⟨y, rfl, h, rfl⟩
    · exact .inr rfl
  · exact .inr rfl

theorem noId_of {t : Ty} {a : Attrs} {slots : Mem → List Elem} {mis : List Elem} {unk : List Str} (h : a.known.get (chars! "id") = none) :
    NoId (.node t a slots mis unk) := by
  unfold NoId Elem.objectId
  dsimp only
  split
  · exact h
  · rfl

theorem pointTexts_one {g c : Elem} {s : Str} (h : g.inside M.«coordinates» = [c])
    (hc : c.inside M.«coordinates_array» = [.field Ty.Unknown s]) : g.pointTexts = [s] := by
  unfold Elem.pointTexts
  rw [h]
  simp [hc]

theorem source_point (v : Coords.Vec3) : (createPointFromVec3 v).pointTexts = [positionText v] := by
  rw [sourcePoint]
  exact pointTexts_one rfl rfl

theorem merged_point {v : Coords.Vec3} {g : Elem} (hg : Held n g) (ht : g.ty = Ty.«Point») :
    (merged (createPointFromVec3 v) g).pointTexts = [positionText v] := by
  obtain ⟨t, a, slots, mis, unk, rfl⟩ := node_of_type hg (by rw [ht]; exact moved_types.1)
  have ht : t = Ty.«Point» := ht
  subst ht
  have hin : (merged (createPointFromVec3 v) (.node Ty.«Point» a slots mis unk)).inside M.«coordinates» =
      mergedItem [.node Ty.«coordinates» .empty (pointTextSlots [positionText v]) [] []] (slots M.«coordinates») := by
    rw [sourcePoint, merged]
    change (if Ty.«Point» = Ty.«coordinates» then [Elem.node Ty.«coordinates» .empty (pointTextSlots [positionText v]) [] []] else
      if textual Ty.«Point» then slots M.«coordinates» else if holdsMany Ty.«Point» M.«coordinates» then _ else _) = _
    rw [if_neg (by decide), if_neg (by decide), data_reads.2.2.2.2.2.2.2, if_neg (by simp)]
    rfl
  have alone : (Elem.node Ty.«coordinates» .empty (pointTextSlots [positionText v]) [] []).inside M.«coordinates_array» =
    [.field Ty.Unknown (positionText v)] := rfl
  rcases mergedItem_cases (.node Ty.«coordinates» .empty (pointTextSlots [positionText v]) [] []) (slots M.«coordinates») with
    ⟨y, hy, hty, he⟩ | he
  · rw [he] at hin
    have hyh : Held n y := by
      cases hg with
      | text h => rcases h with h | h | h <;> cases h
      | node _ _ _ _ _ h => exact h M.«coordinates» y (by rw [hy]; exact List.mem_singleton.2 rfl)
    have hyt : y.ty = Ty.«coordinates» := hty.symm
    obtain ⟨t, a, slots, mis, unk, rfl⟩ := node_of_type hyh (by rw [hyt]; exact moved_types.2.1)
    refine pointTexts_one hin ?_
    rw [merged]
    rfl
  · rw [he] at hin
    exact pointTexts_one hin alone

/-- **C100, moving a point.** The update that is made for an id and a position, done to a file with a placemark of that id, leaves that
placemark with one geometry, the point at the position, and with everything else it had; nothing else in the file is changed. -/
theorem C100_moved (file : UpdateFile) (target : Str) (v : Coords.Vec3) (p : List Step) (x : Elem) (h : Sound n file)
    (hp : file.ids.get target = some (.place p)) (hx : file.root.at p = some x) (hty : x.ty = Ty.«Placemark») :
    ∃ file' z g, processUpdate n none (changePointUpdate target v) file = .ok file' ∧ Only p file.root file'.root ∧
      file'.lookup target = some z ∧ z.objectId = some target ∧ z.inside M.«geometry» = [g] ∧ g.ty = Ty.«Point» ∧
      g.pointTexts = [positionText v] ∧ (∀ m, m ≠ M.«geometry» → z.inside m = x.inside m) ∧
      ∀ k, k ≠ chars! "targetId" → z.attr k = x.attr k := by
  have hn : Names none (changePointPlacemark target v) target := ⟨target, rfl, rfl⟩
  have hf : Fit n none file (.change (changePointPlacemark target v)) := by
    refine ⟨source_fits target v, ?_, ?_, ?_, ?_⟩
    · exact source_all (fun _ _ => rfl) rfl rfl rfl
    · intro s hs
      cases hs
      refine source_all (fun _ _ => rfl) (noId_of rfl) (noId_of rfl) (noId_of rfl)
    · intro s hs; cases hs
    · intro s hs id p' x' hid hp' hx'
      cases hs
      obtain ⟨t, ht, hid⟩ := hid
      cases ht
      cases hid
      rw [hp] at hp'; cases hp'
      rw [hx] at hx'; cases hx'
      exact hty
  obtain ⟨file', y, z, h1, h2, h3, h4, h5, h6, h7, h8⟩ := C52_change_partial n none file (changePointPlacemark target v) target p x h hf hn hp hx
  have hxi := h.ids target p hp
  obtain ⟨x', hx', hxi⟩ := hxi
  rw [hx] at hx'; cases hx'
  have hxc := complex_of_id hxi
  have hxo := ok_at h.ok hx hxc
  have hs := source_fits (n := n) target v
  have hm := C36_merge_partial n (changePointPlacemark target v) x hs.held hxo.1 hs.clonable hs.lossless hs.tidy hxo.2 hs.complex hxc hty
  rw [h3] at hm
  cases hm
  obtain ⟨t, a, slots, mis, unk, rfl⟩ := node_of_type hxo.1 (by rw [hty]; exact moved_types.2.2)
  have hty : t = Ty.«Placemark» := hty
  subst hty
  have hin : (merged (changePointPlacemark target v) (.node Ty.«Placemark» a slots mis unk)).inside M.«geometry» =
      mergedItem [createPointFromVec3 v] (slots M.«geometry») := by
    change (merged (.node Ty.«Placemark» _ (setSlot (fun _ => []) M.«geometry» [createPointFromVec3 v]) [] []) _).inside _ = _
    rw [merged]
    change (if Ty.«Placemark» = Ty.«coordinates» then [createPointFromVec3 v] else if textual Ty.«Placemark» then slots M.«geometry» else
      if holdsMany Ty.«Placemark» M.«geometry» then _ else _) = _
    rw [if_neg (by decide), if_neg (by decide), data_reads.2.2.2.2.2.2.1, if_neg (by simp)]
    rfl
  have hg : ∃ g, mergedItem [createPointFromVec3 v] (slots M.«geometry») = [g] ∧ g.ty = Ty.«Point» ∧ g.pointTexts = [positionText v] := by
    rcases mergedItem_cases (createPointFromVec3 v) (slots M.«geometry») with ⟨y, hy, hty, he⟩ | he
    · have hyh : Held n y := by
        cases hxo.1 with
        | text h => rcases h with h | h | h <;> cases h
        | node _ _ _ _ _ h => exact h M.«geometry» y (by rw [hy]; exact List.mem_singleton.2 rfl)
      refine ⟨_, he, ?_, merged_point hyh hty.symm⟩
      obtain ⟨t, a, slots, mis, unk, rfl⟩ := node_of_type hyh (by rw [← hty]; exact moved_types.1)
      rw [sourcePoint, merged]
      rfl
    · exact ⟨_, he, rfl, source_point v⟩
  obtain ⟨g, hg1, hg2, hg3⟩ := hg
  refine ⟨file', z, g, ?_, h2, h7, h8, ?_, hg2, hg3, ?_, ?_⟩
  · rw [process_eq]
    change eachDo _ [Action.change (changePointPlacemark target v)] file = _
    rw [eachDo, h1]
    rfl
  · rw [h5.items, hin, hg1]
  · intro m hm
    rw [h5.items]
    refine h4.kept m ?_
    change setSlot (fun _ => []) M.«geometry» [createPointFromVec3 v] m = []
    unfold setSlot
    rw [if_neg hm]
  · intro k hk
    rw [h5.attrs k hk, h4.attrs k]
    have : (changePointPlacemark target v).attr k = none := by
      change (serializeAttributes (classAt Ty.«Placemark») ⟨[(chars! "targetId", target)], [], []⟩).get k = none
      rw [target_attrs]
      unfold StdMap.get
      rw [if_neg (fun e => hk e.symm)]
      rfl
    rw [this]
    rfl

/-! ### Outlines -/

/-- **C100, outlines.** The outline of a region has the four corners of its box in order, north-west first.

Missing: it does not come back to the first corner (`C100_box_violated`). -/
theorem C100_box_partial (name north south east west minLod maxLod : Str) :
    ∃ g, (createLineStringBox name (createRegion2d north south east west minLod maxLod)).only M.«geometry» = some g ∧
      g.ty = Ty.«LineString» ∧ g.text M.«tessellate» = "1".toList ∧
      (createLineStringBox name (createRegion2d north south east west minLod maxLod)).text M.«name» = name ∧
      g.pointTexts.take 4 = [(north, west), (north, east), (south, east), (south, west)].map
        (fun c => positionText ⟨c.2, c.1, [], false⟩) ∧ g.pointTexts.length = 5 :=
  ⟨_, rfl, rfl, rfl, rfl, by
    change [pointText ⟨west, north, ['0'], false⟩, pointText ⟨east, north, ['0'], false⟩, pointText ⟨east, south, ['0'], false⟩,
      pointText ⟨west, south, ['0'], false⟩] = _
    simp only [latLng_text]
    rfl, rfl⟩

/-- **C100 is violated: an outline is not closed.** The last of the five points of the box is the south-west corner once more. -/
theorem C100_box_violated : ¬ ∀ (name : Str) (region g : Elem), (createLineStringBox name region).only M.«geometry» = some g →
    g.pointTexts.head? = g.pointTexts.getLast? := by
  intro h
  have := h [] (createRegion2d (chars! "2") (chars! "1") (chars! "4") (chars! "3") (chars! "5") (chars! "6")) _ rfl
  exact absurd (show some (chars! "3,2,0") = some (chars! "3,1,0") from this) (by decide)

/-! ### Points of attributes -/

/-- **C100, points of attributes.** There is a point just if there are both a latitude and a longitude, and it is the one at that place.

Missing: texts that are blank (`C100_atts_violated`). -/
theorem C100_atts_partial (m : StdMap Str) :
    (m.get "lat".toList = none ∨ m.get "lon".toList = none → createPointFromLatLonAtts n (some m) = .ok none) ∧
    ∀ lat lon, m.get "lat".toList = some lat → m.get "lon".toList = some lon → blank lat = false → blank lon = false →
      ∃ e, createPointFromLatLonAtts n (some m) = .ok (some e) ∧ e.ty = Ty.«Point» ∧
        e.pointTexts = [positionText ⟨n.num lon, n.num lat, [], false⟩] := by
  constructor
  · intro h
    unfold createPointFromLatLonAtts
    dsimp only
    rcases h with h | h
    · rw [show m.get (chars! "lat") = none from h]
    · rw [show m.get (chars! "lon") = none from h]
      cases m.get (chars! "lat") <;> rfl
  · intro lat lon h1 h2 h3 h4
    refine ⟨createPointLatLon (n.num lat) (n.num lon), ?_, rfl, ?_⟩
    swap
    · change [pointText ⟨n.num lon, n.num lat, ['0'], false⟩] = _
      rw [latLng_text]
    unfold createPointFromLatLonAtts
    dsimp only
    rw [show m.get (chars! "lat") = some lat from h1]
    dsimp only
    rw [show m.get (chars! "lon") = some lon from h2]
    dsimp only
    rw [h3, h4]
    rfl

/-- **C100 is violated: a blank attribute is undefined.** The latitude is then a variable that was never set. -/
theorem C100_atts_violated : ¬ ∀ (n : NumLib) (m : StdMap Str), createPointFromLatLonAtts n (some m) ≠ .ub := by
  intro h
  exact h NumLib.integers [(chars! "lat", []), (chars! "lon", ['1'])] rfl

/-! ### Cases -/

/-- The numbers are those that are written as they are read. -/
example : Written NumLib.integers (chars! "15") := by
  unfold Written
  decide +kernel

example : (createCamera (chars! "1") (chars! "2") (chars! "3") (chars! "4") (chars! "5") (chars! "6") (chars! "absolute")).text M.«tilt» =
    chars! "5" := rfl

example : chars! "absolute" ∈ altitudeModes := by decide

/-- A file with a placemark that is moved. -/
example : ∃ file' z g, processUpdate NumLib.integers none (changePointUpdate ['p'] ⟨['1'], ['2'], ['3'], true⟩) uFile = .ok file' ∧
    Only [.slot M.«feature_array» 0] uFile.root file'.root ∧ file'.lookup ['p'] = some z ∧ z.objectId = some ['p'] ∧
    z.inside M.«geometry» = [g] ∧ g.ty = Ty.«Point» ∧ g.pointTexts = [chars! "1,2,3"] := by
  obtain ⟨f, z, g, h1, h2, h3, h4, h5, h6, h7, _⟩ := C100_moved (n := NumLib.integers) uFile ['p'] ⟨['1'], ['2'], ['3'], true⟩
    [.slot M.«feature_array» 0] uMark uFile_sound u_at rfl rfl
  exact ⟨f, z, g, h1, h2, h3, h4, h5, h6, h7⟩

/-- A view that can be copied: an empty one, and a feature that has it. -/
example : ∃ e, createFlyToForFeature NumLib.integers (fun _ => none) (some ((newNode Ty.«Placemark»).setOne M.«abstractview»
    (newNode Ty.«LookAt»))) ['2'] = .ok (some e) ∧ e.ty = Ty.«GxFlyTo» ∧ e.only M.«abstractview» = some (newNode Ty.«LookAt») ∧
      e.text M.«gx_duration» = ['2'] := by
  refine C100_flight _ _ _ _ (.node view_class rfl (attrs_empty_canonical _ _).held ?_ ?_ ?_ ?_) (.node ?_ ?_ ?_) (.node ?_ ?_ ?_)
    view_isA rfl (.inl rfl)
  any_goals (intro m x hx; cases hx)
  any_goals (intro x hx; cases hx)
  · exact ⟨fun m x hx => (by cases hx), fun h => absurd h (by decide)⟩
  · exact ⟨fun h => absurd h (by decide), fun h => absurd h (by decide), fun h => absurd h (by decide)⟩

end Kml.Dom
