import Verif.Model.Kml22

/-!
# The element classes

For every class a document may contain: which members its `AddElement` fills from which child
elements, which attributes its `ParseAttributes` takes, and what its `Serialize` and
`SerializeAttributes` write, in order.  Transcribed from the sources of `src/kml/dom` function by
function by a script; each definition cites the function it transcribes.
-/

namespace Kml.Dom

/-- The name of a data member.  Members of the same name in unrelated classes share a number. -/
abbrev Mem := Nat

namespace M

/-- The member `targethref_`. -/
abbrev «targethref» : Mem := 1
/-- The member `sourcehref_`. -/
abbrev «sourcehref» : Mem := 2
/-- The member `email_`. -/
abbrev «email» : Mem := 3
/-- The member `name_`. -/
abbrev «name» : Mem := 4
/-- The member `uri_`. -/
abbrev «uri» : Mem := 5
/-- The member `summary_`. -/
abbrev «summary» : Mem := 6
/-- The member `content_`. -/
abbrev «content» : Mem := 7
/-- The member `id_`. -/
abbrev «id» : Mem := 8
/-- The member `title_`. -/
abbrev «title» : Mem := 9
/-- The member `updated_`. -/
abbrev «updated» : Mem := 10
/-- The member `category_array_`. -/
abbrev «category_array» : Mem := 11
/-- The member `link_array_`. -/
abbrev «link_array» : Mem := 12
/-- The member `entry_array_`. -/
abbrev «entry_array» : Mem := 13
/-- The member `bgcolor_`. -/
abbrev «bgcolor» : Mem := 14
/-- The member `textcolor_`. -/
abbrev «textcolor» : Mem := 15
/-- The member `text_`. -/
abbrev «text» : Mem := 16
/-- The member `displaymode_`. -/
abbrev «displaymode» : Mem := 17
/-- The member `roll_`. -/
abbrev «roll» : Mem := 18
/-- The member `longitude_`. -/
abbrev «longitude» : Mem := 19
/-- The member `latitude_`. -/
abbrev «latitude» : Mem := 20
/-- The member `altitude_`. -/
abbrev «altitude» : Mem := 21
/-- The member `heading_`. -/
abbrev «heading» : Mem := 22
/-- The member `tilt_`. -/
abbrev «tilt» : Mem := 23
/-- The member `altitudemode_`. -/
abbrev «altitudemode» : Mem := 24
/-- The member `gx_altitudemode_`. -/
abbrev «gx_altitudemode» : Mem := 25
/-- The member `gx_timeprimitive_`. -/
abbrev «gx_timeprimitive» : Mem := 26
/-- The member `object_array_`. -/
abbrev «object_array» : Mem := 27
/-- The member `container_array_`. -/
abbrev «container_array» : Mem := 28
/-- The member `displayname_`. -/
abbrev «displayname» : Mem := 29
/-- The member `value_`. -/
abbrev «value» : Mem := 30
/-- The member `feature_array_`. -/
abbrev «feature_array» : Mem := 31
/-- The member `schema_array_`. -/
abbrev «schema_array» : Mem := 32
/-- The member `styleselector_array_`. -/
abbrev «styleselector_array» : Mem := 33
/-- The member `abstractview_`. -/
abbrev «abstractview» : Mem := 34
/-- The member `timeprimitive_`. -/
abbrev «timeprimitive» : Mem := 35
/-- The member `styleselector_`. -/
abbrev «styleselector» : Mem := 36
/-- The member `visibility_`. -/
abbrev «visibility» : Mem := 37
/-- The member `open_`. -/
abbrev «open» : Mem := 38
/-- The member `atomauthor_`. -/
abbrev «atomauthor» : Mem := 39
/-- The member `atomlink_`. -/
abbrev «atomlink» : Mem := 40
/-- The member `address_`. -/
abbrev «address» : Mem := 41
/-- The member `xaladdressdetails_`. -/
abbrev «xaladdressdetails» : Mem := 42
/-- The member `phonenumber_`. -/
abbrev «phonenumber» : Mem := 43
/-- The member `snippet_`. -/
abbrev «snippet» : Mem := 44
/-- The member `description_`. -/
abbrev «description» : Mem := 45
/-- The member `styleurl_`. -/
abbrev «styleurl» : Mem := 46
/-- The member `region_`. -/
abbrev «region» : Mem := 47
/-- The member `extendeddata_`. -/
abbrev «extendeddata» : Mem := 48
/-- The member `gx_balloonvisibility_`. -/
abbrev «gx_balloonvisibility» : Mem := 49
/-- The member `data_array_`. -/
abbrev «data_array» : Mem := 50
/-- The member `schemadata_array_`. -/
abbrev «schemadata_array» : Mem := 51
/-- The member `latlonbox_`. -/
abbrev «latlonbox» : Mem := 52
/-- The member `gx_latlonquad_`. -/
abbrev «gx_latlonquad» : Mem := 53
/-- The member `color_`. -/
abbrev «color» : Mem := 54
/-- The member `draworder_`. -/
abbrev «draworder» : Mem := 55
/-- The member `icon_`. -/
abbrev «icon» : Mem := 56
/-- The member `refreshmode_`. -/
abbrev «refreshmode» : Mem := 57
/-- The member `refreshinterval_`. -/
abbrev «refreshinterval» : Mem := 58
/-- The member `viewrefreshmode_`. -/
abbrev «viewrefreshmode» : Mem := 59
/-- The member `viewrefreshtime_`. -/
abbrev «viewrefreshtime» : Mem := 60
/-- The member `viewboundscale_`. -/
abbrev «viewboundscale» : Mem := 61
/-- The member `viewformat_`. -/
abbrev «viewformat» : Mem := 62
/-- The member `httpquery_`. -/
abbrev «httpquery» : Mem := 63
/-- The member `href_`. -/
abbrev «href» : Mem := 64
/-- The member `scale_`. -/
abbrev «scale» : Mem := 65
/-- The member `hotspot_`. -/
abbrev «hotspot» : Mem := 66
/-- The member `colormode_`. -/
abbrev «colormode» : Mem := 67
/-- The member `gx_x_`. -/
abbrev «gx_x» : Mem := 68
/-- The member `gx_y_`. -/
abbrev «gx_y» : Mem := 69
/-- The member `gx_w_`. -/
abbrev «gx_w» : Mem := 70
/-- The member `gx_h_`. -/
abbrev «gx_h» : Mem := 71
/-- The member `tilesize_`. -/
abbrev «tilesize» : Mem := 72
/-- The member `maxwidth_`. -/
abbrev «maxwidth» : Mem := 73
/-- The member `maxheight_`. -/
abbrev «maxheight» : Mem := 74
/-- The member `gridorigin_`. -/
abbrev «gridorigin» : Mem := 75
/-- The member `state_`. -/
abbrev «state» : Mem := 76
/-- The member `rotation_`. -/
abbrev «rotation» : Mem := 77
/-- The member `north_`. -/
abbrev «north» : Mem := 78
/-- The member `south_`. -/
abbrev «south» : Mem := 79
/-- The member `east_`. -/
abbrev «east» : Mem := 80
/-- The member `west_`. -/
abbrev «west» : Mem := 81
/-- The member `minaltitude_`. -/
abbrev «minaltitude» : Mem := 82
/-- The member `maxaltitude_`. -/
abbrev «maxaltitude» : Mem := 83
/-- The member `tessellate_`. -/
abbrev «tessellate» : Mem := 84
/-- The member `coordinates_`. -/
abbrev «coordinates» : Mem := 85
/-- The member `extrude_`. -/
abbrev «extrude» : Mem := 86
/-- The member `width_`. -/
abbrev «width» : Mem := 87
/-- The member `listitemtype_`. -/
abbrev «listitemtype» : Mem := 88
/-- The member `itemicon_array_`. -/
abbrev «itemicon_array» : Mem := 89
/-- The member `maxsnippetlines_`. -/
abbrev «maxsnippetlines» : Mem := 90
/-- The member `minlodpixels_`. -/
abbrev «minlodpixels» : Mem := 91
/-- The member `maxlodpixels_`. -/
abbrev «maxlodpixels» : Mem := 92
/-- The member `minfadeextent_`. -/
abbrev «minfadeextent» : Mem := 93
/-- The member `maxfadeextent_`. -/
abbrev «maxfadeextent» : Mem := 94
/-- The member `range_`. -/
abbrev «range» : Mem := 95
/-- The member `location_`. -/
abbrev «location» : Mem := 96
/-- The member `orientation_`. -/
abbrev «orientation» : Mem := 97
/-- The member `link_`. -/
abbrev «link» : Mem := 98
/-- The member `resourcemap_`. -/
abbrev «resourcemap» : Mem := 99
/-- The member `geometry_array_`. -/
abbrev «geometry_array» : Mem := 100
/-- The member `refreshvisibility_`. -/
abbrev «refreshvisibility» : Mem := 101
/-- The member `flytoview_`. -/
abbrev «flytoview» : Mem := 102
/-- The member `minrefreshperiod_`. -/
abbrev «minrefreshperiod» : Mem := 103
/-- The member `maxsessionlength_`. -/
abbrev «maxsessionlength» : Mem := 104
/-- The member `cookie_`. -/
abbrev «cookie» : Mem := 105
/-- The member `message_`. -/
abbrev «message» : Mem := 106
/-- The member `linkname_`. -/
abbrev «linkname» : Mem := 107
/-- The member `linkdescription_`. -/
abbrev «linkdescription» : Mem := 108
/-- The member `linksnippet_`. -/
abbrev «linksnippet» : Mem := 109
/-- The member `expires_`. -/
abbrev «expires» : Mem := 110
/-- The member `update_`. -/
abbrev «update» : Mem := 111
/-- The member `key_`. -/
abbrev «key» : Mem := 112
/-- The member `viewvolume_`. -/
abbrev «viewvolume» : Mem := 113
/-- The member `imagepyramid_`. -/
abbrev «imagepyramid» : Mem := 114
/-- The member `point_`. -/
abbrev «point» : Mem := 115
/-- The member `shape_`. -/
abbrev «shape» : Mem := 116
/-- The member `geometry_`. -/
abbrev «geometry» : Mem := 117
/-- The member `fill_`. -/
abbrev «fill» : Mem := 118
/-- The member `outline_`. -/
abbrev «outline» : Mem := 119
/-- The member `outerboundaryis_`. -/
abbrev «outerboundaryis» : Mem := 120
/-- The member `innerboundaryis_array_`. -/
abbrev «innerboundaryis_array» : Mem := 121
/-- The member `latlonaltbox_`. -/
abbrev «latlonaltbox» : Mem := 122
/-- The member `lod_`. -/
abbrev «lod» : Mem := 123
/-- The member `alias_array_`. -/
abbrev «alias_array» : Mem := 124
/-- The member `x_`. -/
abbrev «x» : Mem := 125
/-- The member `y_`. -/
abbrev «y» : Mem := 126
/-- The member `z_`. -/
abbrev «z» : Mem := 127
/-- The member `simplefield_array_`. -/
abbrev «simplefield_array» : Mem := 128
/-- The member `gx_simplearrayfield_array_`. -/
abbrev «gx_simplearrayfield_array» : Mem := 129
/-- The member `simpledata_array_`. -/
abbrev «simpledata_array» : Mem := 130
/-- The member `gx_simplearraydata_array_`. -/
abbrev «gx_simplearraydata_array» : Mem := 131
/-- The member `overlayxy_`. -/
abbrev «overlayxy» : Mem := 132
/-- The member `screenxy_`. -/
abbrev «screenxy» : Mem := 133
/-- The member `rotationxy_`. -/
abbrev «rotationxy» : Mem := 134
/-- The member `size_`. -/
abbrev «size» : Mem := 135
/-- The member `iconstyle_`. -/
abbrev «iconstyle» : Mem := 136
/-- The member `labelstyle_`. -/
abbrev «labelstyle» : Mem := 137
/-- The member `linestyle_`. -/
abbrev «linestyle» : Mem := 138
/-- The member `polystyle_`. -/
abbrev «polystyle» : Mem := 139
/-- The member `balloonstyle_`. -/
abbrev «balloonstyle» : Mem := 140
/-- The member `liststyle_`. -/
abbrev «liststyle» : Mem := 141
/-- The member `pair_array_`. -/
abbrev «pair_array» : Mem := 142
/-- The member `begin_`. -/
abbrev «begin» : Mem := 143
/-- The member `end_`. -/
abbrev «end» : Mem := 144
/-- The member `when_`. -/
abbrev «when» : Mem := 145
/-- The member `leftfov_`. -/
abbrev «leftfov» : Mem := 146
/-- The member `rightfov_`. -/
abbrev «rightfov» : Mem := 147
/-- The member `bottomfov_`. -/
abbrev «bottomfov» : Mem := 148
/-- The member `topfov_`. -/
abbrev «topfov» : Mem := 149
/-- The member `near_`. -/
abbrev «near» : Mem := 150
/-- The member `updateoperation_array_`. -/
abbrev «updateoperation_array» : Mem := 151
/-- The member `coordinates_array_`. -/
abbrev «coordinates_array» : Mem := 152
/-- The member `linearring_`. -/
abbrev «linearring» : Mem := 153
/-- The member `feature_`. -/
abbrev «feature» : Mem := 154
/-- The member `networklinkcontrol_`. -/
abbrev «networklinkcontrol» : Mem := 155
/-- The member `country_`. -/
abbrev «country» : Mem := 156
/-- The member `administrativeareaname_`. -/
abbrev «administrativeareaname» : Mem := 157
/-- The member `locality_`. -/
abbrev «locality» : Mem := 158
/-- The member `subadministrativearea_`. -/
abbrev «subadministrativearea» : Mem := 159
/-- The member `countrynamecode_`. -/
abbrev «countrynamecode» : Mem := 160
/-- The member `administrativearea_`. -/
abbrev «administrativearea» : Mem := 161
/-- The member `localityname_`. -/
abbrev «localityname» : Mem := 162
/-- The member `postalcode_`. -/
abbrev «postalcode» : Mem := 163
/-- The member `thoroughfare_`. -/
abbrev «thoroughfare» : Mem := 164
/-- The member `postalcodenumber_`. -/
abbrev «postalcodenumber» : Mem := 165
/-- The member `subadministrativeareaname_`. -/
abbrev «subadministrativeareaname» : Mem := 166
/-- The member `thoroughfarename_`. -/
abbrev «thoroughfarename» : Mem := 167
/-- The member `thoroughfarenumber_`. -/
abbrev «thoroughfarenumber» : Mem := 168
/-- The member `gx_duration_`. -/
abbrev «gx_duration» : Mem := 169
/-- The member `gx_flytomode_`. -/
abbrev «gx_flytomode» : Mem := 170
/-- The member `gx_interpolate_`. -/
abbrev «gx_interpolate» : Mem := 171
/-- The member `gx_track_array_`. -/
abbrev «gx_track_array» : Mem := 172
/-- The member `gx_tourprimitive_array_`. -/
abbrev «gx_tourprimitive_array» : Mem := 173
/-- The member `gx_value_array_`. -/
abbrev «gx_value_array» : Mem := 174
/-- The member `gx_playlist_`. -/
abbrev «gx_playlist» : Mem := 175
/-- The member `gx_playmode_`. -/
abbrev «gx_playmode» : Mem := 176
/-- The member `when_array_`. -/
abbrev «when_array» : Mem := 177
/-- The member `gx_angles_array_`. -/
abbrev «gx_angles_array» : Mem := 178
/-- The member `gx_coord_array_`. -/
abbrev «gx_coord_array» : Mem := 179
/-- The member `model_`. -/
abbrev «model» : Mem := 180

end M

/-- How the text of a simple element becomes the value of a member (element.cc 178-224 `SetBool`,
`SetDouble`, `SetInt`, `SetEnum`, `SetString`; `Color32(text)`; link.cc 46-58 `SetStringInsideCdata`;
liststyle.cc 52-64 the list of states; geometry.cc 554-570 `GxTrack::Parse`).  `dbl` and `int` carry the
value the constructor gives the member, which stays when the text is blank. -/
inductive Kind
  | str | bool | enum | color | cdata | states | vec3
  | dbl (dflt : Str)
  | int (dflt : Str)
  deriving DecidableEq, Repr

/-- What `AddElement` does with a child: set a simple member, append a value to an array of values, set a
complex member (`SetComplexChild`), append to an array of elements (`AddComplexChild`), or, for the
elements that hold text, take the element's own character data instead of the child. -/
inductive Act
  | field (m : Mem) (k : Kind)
  | fields (m : Mem) (k : Kind)
  | one (m : Mem)
  | many (m : Mem)
  | selfText (m : Mem)
  | selfPoints (m : Mem)
  deriving DecidableEq, Repr

/-- The test `AddElement` applies to a child: `Type() == t`, `IsA(t)`, or none. -/
inductive Test
  | ty (t : Ty) | isA (t : Ty) | any
  deriving DecidableEq, Repr

/-- One branch of `AddElement`.  Branches are tried in order; a child no branch takes ends in
`Element::AddElement`. -/
abbrev Rule := Test × Act

/-- One call on the serializer made by `Serialize`.  Every call but `content _ true` and `points` is made only
if the member is set (or once for each item of an array member). -/
inductive Write
  | field (m : Mem) (t : Ty)
  | enum (m : Mem) (t : Ty)
  | color (m : Mem) (t : Ty)
  | vec3 (m : Mem) (t : Ty)
  | elem (m : Mem)
  | group (m : Mem) (g : Ty)
  | array (m : Mem)
  | groupArray (m : Mem) (g : Ty)
  | content (m : Mem) (always : Bool)
  | points (m : Mem)
  deriving DecidableEq, Repr

/-- How the value of an attribute is read: as a string, as a number (with the value the constructor gives),
or as one of the values of `Type_units` (vec2.cc 58-70 `CutEnumAttr`). -/
inductive AttrKind
  | str | units
  | dbl (dflt : Str)
  | int (dflt : Str)
  deriving DecidableEq, Repr

/-- A class: its `Type()`, the types its `IsA` accepts, the branches of `AddElement`, the calls of `Serialize`,
the attributes `ParseAttributes` takes out, in order, and those `SerializeAttributes` sets after the
unknown ones, in order. -/
structure Class where
  ty : Ty
  isA : List Ty
  rules : List Rule
  writes : List Write
  reads : List (Str × AttrKind)
  sets : List Str

/-- object.cc 45-51: `Object::AddElement`. -/
def Object.rules : List Rule :=
  []

/-- model.cc 186-200: `Alias::AddElement`. -/
def Alias.rules : List Rule :=
  [(.ty Ty.«targetHref», .field M.«targethref» .str),
   (.ty Ty.«sourceHref», .field M.«sourcehref» .str)] ++ Object.rules

/-- model.cc 202-211: `Alias::Serialize`. -/
def Alias.writes : List Write :=
  [.field M.«targethref» Ty.«targetHref»,
   .field M.«sourcehref» Ty.«sourceHref»]

/-- atom.cc 59-78: `AtomAuthor::AddElement`. -/
def AtomAuthor.rules : List Rule :=
  [(.ty Ty.«atomEmail», .field M.«email» .str),
   (.ty Ty.«atomName», .field M.«name» .str),
   (.ty Ty.«atomUri», .field M.«uri» .str)]

/-- atom.cc 80-93: `AtomAuthor::Serialize`. -/
def AtomAuthor.writes : List Write :=
  [.field M.«name» Ty.«atomName»,
   .field M.«uri» Ty.«atomUri»,
   .field M.«email» Ty.«atomEmail»]

/-- atom.cc 105-108: `AtomCategory::AddElement`. -/
def AtomCategory.rules : List Rule :=
  []

/-- atom.cc 133-135: `AtomCategory::Serialize`. -/
def AtomCategory.writes : List Write :=
  []

/-- atom.cc 166-168: `AtomContent::Serialize`. -/
def AtomContent.writes : List Write :=
  []

/-- atom.cc 185-210: `AtomCommon::AddElement`. -/
def AtomCommon.rules : List Rule :=
  [(.ty Ty.«atomId», .field M.«id» .str),
   (.ty Ty.«atomTitle», .field M.«title» .str),
   (.ty Ty.«atomUpdated», .field M.«updated» .str),
   (.ty Ty.«AtomCategory», .many M.«category_array»),
   (.ty Ty.«AtomLink», .many M.«link_array»)]

/-- atom.cc 235-249: `AtomEntry::AddElement`. -/
def AtomEntry.rules : List Rule :=
  [(.ty Ty.«atomSummary», .field M.«summary» .str),
   (.ty Ty.«AtomContent», .one M.«content»)] ++ AtomCommon.rules

/-- atom.cc 212-225: `AtomCommon::Serialize`. -/
def AtomCommon.writes : List Write :=
  [.field M.«id» Ty.«atomId»,
   .field M.«title» Ty.«atomTitle»,
   .field M.«updated» Ty.«atomUpdated»,
   .array M.«category_array»,
   .array M.«link_array»]

/-- atom.cc 251-260: `AtomEntry::Serialize`. -/
def AtomEntry.writes : List Write :=
  AtomCommon.writes ++
  [.field M.«summary» Ty.«atomSummary»,
   .elem M.«content»]

/-- atom.cc 273-279: `AtomFeed::AddElement`. -/
def AtomFeed.rules : List Rule :=
  [(.isA Ty.«AtomEntry», .many M.«entry_array»)] ++ AtomCommon.rules

/-- atom.cc 281-285: `AtomFeed::Serialize`. -/
def AtomFeed.writes : List Write :=
  AtomCommon.writes ++
  [.array M.«entry_array»]

/-- atom.cc 301-305: `AtomLink::AddElement`. -/
def AtomLink.rules : List Rule :=
  []

/-- atom.cc 342-344: `AtomLink::Serialize`. -/
def AtomLink.writes : List Write :=
  []

/-- substyle.cc 34-36: `SubStyle::AddElement`. -/
def SubStyle.rules : List Rule :=
  [] ++ Object.rules

/-- balloonstyle.cc 51-72: `BalloonStyle::AddElement`. -/
def BalloonStyle.rules : List Rule :=
  [(.ty Ty.«bgColor», .field M.«bgcolor» .color),
   (.ty Ty.«textColor», .field M.«textcolor» .color),
   (.ty Ty.«text», .field M.«text» .str),
   (.ty Ty.«displayMode», .field M.«displaymode» .enum)] ++ SubStyle.rules

/-- substyle.cc 38-40: `SubStyle::Serialize`. -/
def SubStyle.writes : List Write :=
  []

/-- balloonstyle.cc 74-89: `BalloonStyle::Serialize`. -/
def BalloonStyle.writes : List Write :=
  SubStyle.writes ++
  [.color M.«bgcolor» Ty.«bgColor»,
   .color M.«textcolor» Ty.«textColor»,
   .field M.«text» Ty.«text»,
   .enum M.«displaymode» Ty.«displayMode»]

/-- abstractview.cc 38-47: `AbstractView::AddElement`. -/
def AbstractView.rules : List Rule :=
  [(.isA Ty.«TimePrimitive», .one M.«gx_timeprimitive»)] ++ Object.rules

/-- abstractview.cc 80-110: `AbstractViewCommon::AddElement`. -/
def AbstractViewCommon.rules : List Rule :=
  [(.ty Ty.«longitude», .field M.«longitude» (.dbl (chars! "0"))),
   (.ty Ty.«latitude», .field M.«latitude» (.dbl (chars! "0"))),
   (.ty Ty.«altitude», .field M.«altitude» (.dbl (chars! "0"))),
   (.ty Ty.«heading», .field M.«heading» (.dbl (chars! "0"))),
   (.ty Ty.«tilt», .field M.«tilt» (.dbl (chars! "0"))),
   (.ty Ty.«altitudeMode», .field M.«altitudemode» .enum),
   (.ty Ty.«GxAltitudeMode», .field M.«gx_altitudemode» .enum)] ++ AbstractView.rules

/-- abstractview.cc 173-179: `Camera::AddElement`. -/
def Camera.rules : List Rule :=
  [(.ty Ty.«roll», .field M.«roll» (.dbl (chars! "0")))] ++ AbstractViewCommon.rules

/-- abstractview.cc 49-53: `AbstractView::Serialize`. -/
def AbstractView.writes : List Write :=
  [.group M.«gx_timeprimitive» Ty.«TimePrimitive»]

/-- abstractview.cc 112-129: `AbstractViewCommon::SerializeBeforeR`. -/
def AbstractViewCommon.serializeBeforeR : List Write :=
  AbstractView.writes ++
  [.field M.«longitude» Ty.«longitude»,
   .field M.«latitude» Ty.«latitude»,
   .field M.«altitude» Ty.«altitude»,
   .field M.«heading» Ty.«heading»,
   .field M.«tilt» Ty.«tilt»]

/-- abstractview.cc 131-138: `AbstractViewCommon::SerializeAfterR`. -/
def AbstractViewCommon.serializeAfterR : List Write :=
  [.enum M.«altitudemode» Ty.«altitudeMode»,
   .enum M.«gx_altitudemode» Ty.«GxAltitudeMode»]

/-- abstractview.cc 181-188: `Camera::Serialize`. -/
def Camera.writes : List Write :=
  AbstractViewCommon.serializeBeforeR ++
  [.field M.«roll» Ty.«roll»] ++
  AbstractViewCommon.serializeAfterR

/-- networklinkcontrol.cc 120-129: `Change::AddElement`. -/
def Change.rules : List Rule :=
  [(.isA Ty.«Object», .many M.«object_array»)]

/-- networklinkcontrol.cc 131-134: `Change::Serialize`. -/
def Change.writes : List Write :=
  [.groupArray M.«object_array» Ty.«Object»]

/-- networklinkcontrol.cc 56-65: `Create::AddElement`. -/
def Create.rules : List Rule :=
  [(.isA Ty.«Container», .many M.«container_array»)]

/-- networklinkcontrol.cc 67-70: `Create::Serialize`. -/
def Create.writes : List Write :=
  [.groupArray M.«container_array» Ty.«Container»]

/-- extendeddata.cc 227-238: `Data::AddElement`. -/
def Data.rules : List Rule :=
  [(.ty Ty.«displayName», .field M.«displayname» .str),
   (.ty Ty.«value», .field M.«value» .str)] ++ Object.rules

/-- extendeddata.cc 240-249: `Data::Serialize`. -/
def Data.writes : List Write :=
  [.field M.«displayname» Ty.«displayName»,
   .field M.«value» Ty.«value»]

/-- networklinkcontrol.cc 88-97: `Delete::AddElement`. -/
def Delete.rules : List Rule :=
  [(.isA Ty.«Feature», .many M.«feature_array»)]

/-- networklinkcontrol.cc 99-102: `Delete::Serialize`. -/
def Delete.writes : List Write :=
  [.groupArray M.«feature_array» Ty.«Feature»]

/-- feature.cc 50-130: `Feature::AddElement`. -/
def Feature.rules : List Rule :=
  [(.isA Ty.«AbstractView», .one M.«abstractview»),
   (.isA Ty.«TimePrimitive», .one M.«timeprimitive»),
   (.isA Ty.«StyleSelector», .one M.«styleselector»),
   (.ty Ty.«name», .field M.«name» .str),
   (.ty Ty.«visibility», .field M.«visibility» .bool),
   (.ty Ty.«open», .field M.«open» .bool),
   (.ty Ty.«AtomAuthor», .one M.«atomauthor»),
   (.ty Ty.«AtomLink», .one M.«atomlink»),
   (.ty Ty.«address», .field M.«address» .str),
   (.ty Ty.«XalAddressDetails», .one M.«xaladdressdetails»),
   (.ty Ty.«phoneNumber», .field M.«phonenumber» .str),
   (.ty Ty.«Snippet», .one M.«snippet»),
   (.ty Ty.«description», .field M.«description» .str),
   (.ty Ty.«styleUrl», .field M.«styleurl» .str),
   (.ty Ty.«Region», .one M.«region»),
   (.ty Ty.«ExtendedData», .one M.«extendeddata»),
   (.ty Ty.«GxBalloonVisibility», .field M.«gx_balloonvisibility» .bool)] ++ Object.rules

/-- container.cc 47-53: `Container::AddElement`. -/
def Container.rules : List Rule :=
  [(.isA Ty.«Feature», .many M.«feature_array»)] ++ Feature.rules

/-- document.cc 40-48: `Document::AddElement`. -/
def Document.rules : List Rule :=
  [(.isA Ty.«Schema», .many M.«schema_array»),
   (.isA Ty.«StyleSelector», .many M.«styleselector_array»)] ++ Container.rules

/-- feature.cc 132-172: `Feature::SerializeBeforeStyleSelector`. -/
def Feature.serializeBeforeStyleSelector : List Write :=
  [.field M.«name» Ty.«name»,
   .field M.«visibility» Ty.«visibility»,
   .field M.«open» Ty.«open»,
   .elem M.«atomauthor»,
   .elem M.«atomlink»,
   .field M.«address» Ty.«address»,
   .field M.«phonenumber» Ty.«phoneNumber»,
   .elem M.«xaladdressdetails»,
   .elem M.«snippet»,
   .field M.«description» Ty.«description»,
   .group M.«abstractview» Ty.«AbstractView»,
   .group M.«timeprimitive» Ty.«TimePrimitive»,
   .field M.«styleurl» Ty.«styleUrl»]

/-- feature.cc 174-184: `Feature::SerializeAfterStyleSelector`. -/
def Feature.serializeAfterStyleSelector : List Write :=
  [.elem M.«region»,
   .elem M.«extendeddata»,
   .field M.«gx_balloonvisibility» Ty.«GxBalloonVisibility»]

/-- container.cc 57-59: `Container::SerializeFeatureArray`. -/
def Container.serializeFeatureArray : List Write :=
  [.groupArray M.«feature_array» Ty.«Feature»]

/-- document.cc 53-60: `Document::Serialize`. -/
def Document.writes : List Write :=
  Feature.serializeBeforeStyleSelector ++
  [.groupArray M.«styleselector_array» Ty.«StyleSelector»] ++
  Feature.serializeAfterStyleSelector ++
  [.array M.«schema_array»] ++
  Container.serializeFeatureArray

/-- extendeddata.cc 266-277: `ExtendedData::AddElement`. -/
def ExtendedData.rules : List Rule :=
  [(.isA Ty.«Data», .many M.«data_array»),
   (.isA Ty.«SchemaData», .many M.«schemadata_array»)]

/-- extendeddata.cc 279-283: `ExtendedData::Serialize`. -/
def ExtendedData.writes : List Write :=
  [.array M.«data_array»,
   .array M.«schemadata_array»]

/-- feature.cc 186-192: `Feature::Serialize`. -/
def Feature.writes : List Write :=
  Feature.serializeBeforeStyleSelector ++
  [.group M.«styleselector» Ty.«StyleSelector»] ++
  Feature.serializeAfterStyleSelector

/-- container.cc 61-64: `Container::Serialize`. -/
def Container.writes : List Write :=
  Feature.writes ++
  Container.serializeFeatureArray

/-- folder.cc 40-43: `Folder::Serialize`. -/
def Folder.writes : List Write :=
  Container.writes

/-- overlay.cc 51-66: `Overlay::AddElement`. -/
def Overlay.rules : List Rule :=
  [(.ty Ty.«color», .field M.«color» .color),
   (.ty Ty.«drawOrder», .field M.«draworder» (.int (chars! "0"))),
   (.ty Ty.«Icon», .one M.«icon»)] ++ Feature.rules

/-- overlay.cc 167-191: `GroundOverlay::AddElement`. -/
def GroundOverlay.rules : List Rule :=
  [(.ty Ty.«altitude», .field M.«altitude» (.dbl (chars! "0"))),
   (.ty Ty.«altitudeMode», .field M.«altitudemode» .enum),
   (.ty Ty.«GxAltitudeMode», .field M.«gx_altitudemode» .enum),
   (.ty Ty.«LatLonBox», .one M.«latlonbox»),
   (.ty Ty.«GxLatLonQuad», .one M.«gx_latlonquad»)] ++ Overlay.rules

/-- overlay.cc 68-79: `Overlay::Serialize`. -/
def Overlay.writes : List Write :=
  Feature.writes ++
  [.color M.«color» Ty.«color»,
   .field M.«draworder» Ty.«drawOrder»,
   .elem M.«icon»]

/-- overlay.cc 193-211: `GroundOverlay::Serialize`. -/
def GroundOverlay.writes : List Write :=
  Overlay.writes ++
  [.field M.«altitude» Ty.«altitude»,
   .enum M.«altitudemode» Ty.«altitudeMode»,
   .enum M.«gx_altitudemode» Ty.«GxAltitudeMode»,
   .elem M.«latlonbox»,
   .elem M.«gx_latlonquad»]

/-- link.cc 60-75: `BasicLink::AddElement`. -/
def BasicLink.rules : List Rule :=
  [(.ty Ty.«href», .field M.«href» .cdata)] ++ Object.rules

/-- link.cc 108-138: `AbstractLink::AddElement`. -/
def AbstractLink.rules : List Rule :=
  [(.ty Ty.«refreshMode», .field M.«refreshmode» .enum),
   (.ty Ty.«refreshInterval», .field M.«refreshinterval» (.dbl (chars! "4"))),
   (.ty Ty.«viewRefreshMode», .field M.«viewrefreshmode» .enum),
   (.ty Ty.«viewRefreshTime», .field M.«viewrefreshtime» (.dbl (chars! "4"))),
   (.ty Ty.«viewBoundScale», .field M.«viewboundscale» (.dbl (chars! "1"))),
   (.ty Ty.«viewFormat», .field M.«viewformat» .str),
   (.ty Ty.«httpQuery», .field M.«httpquery» .str)] ++ BasicLink.rules

/-- link.cc 77-82: `BasicLink::Serialize`. -/
def BasicLink.writes : List Write :=
  [.field M.«href» Ty.«href»]

/-- link.cc 140-164: `AbstractLink::Serialize`. -/
def AbstractLink.writes : List Write :=
  BasicLink.writes ++
  [.enum M.«refreshmode» Ty.«refreshMode»,
   .field M.«refreshinterval» Ty.«refreshInterval»,
   .enum M.«viewrefreshmode» Ty.«viewRefreshMode»,
   .field M.«viewrefreshtime» Ty.«viewRefreshTime»,
   .field M.«viewboundscale» Ty.«viewBoundScale»,
   .field M.«viewformat» Ty.«viewFormat»,
   .field M.«httpquery» Ty.«httpQuery»]

/-- colorstyle.cc 45-57: `ColorStyle::AddElement`. -/
def ColorStyle.rules : List Rule :=
  [(.ty Ty.«color», .field M.«color» .color),
   (.ty Ty.«colorMode», .field M.«colormode» .enum)] ++ SubStyle.rules

/-- iconstyle.cc 50-71: `IconStyle::AddElement`. -/
def IconStyle.rules : List Rule :=
  [(.ty Ty.«scale», .field M.«scale» (.dbl (chars! "1"))),
   (.ty Ty.«heading», .field M.«heading» (.dbl (chars! "0"))),
   (.ty Ty.«IconStyleIcon», .one M.«icon»),
   (.ty Ty.«hotSpot», .one M.«hotspot»)] ++ ColorStyle.rules

/-- colorstyle.cc 59-67: `ColorStyle::Serialize`. -/
def ColorStyle.writes : List Write :=
  SubStyle.writes ++
  [.color M.«color» Ty.«color»,
   .enum M.«colormode» Ty.«colorMode»]

/-- iconstyle.cc 73-88: `IconStyle::Serialize`. -/
def IconStyle.writes : List Write :=
  ColorStyle.writes ++
  [.field M.«scale» Ty.«scale»,
   .field M.«heading» Ty.«heading»,
   .elem M.«icon»,
   .elem M.«hotspot»]

/-- link.cc 199-219: `IconStyleIcon::AddElement`. -/
def IconStyleIcon.rules : List Rule :=
  [(.ty Ty.«GxX», .field M.«gx_x» (.dbl (chars! "0"))),
   (.ty Ty.«GxY», .field M.«gx_y» (.dbl (chars! "0"))),
   (.ty Ty.«GxW», .field M.«gx_w» (.dbl (chars! "0"))),
   (.ty Ty.«GxH», .field M.«gx_h» (.dbl (chars! "0")))] ++ BasicLink.rules

/-- link.cc 221-236: `IconStyleIcon::Serialize`. -/
def IconStyleIcon.writes : List Write :=
  BasicLink.writes ++
  [.field M.«gx_x» Ty.«GxX»,
   .field M.«gx_y» Ty.«GxY»,
   .field M.«gx_w» Ty.«GxW»,
   .field M.«gx_h» Ty.«GxH»]

/-- overlay.cc 305-326: `ImagePyramid::AddElement`. -/
def ImagePyramid.rules : List Rule :=
  [(.ty Ty.«tileSize», .field M.«tilesize» (.int (chars! "256"))),
   (.ty Ty.«maxWidth», .field M.«maxwidth» (.int (chars! "0"))),
   (.ty Ty.«maxHeight», .field M.«maxheight» (.int (chars! "0"))),
   (.ty Ty.«gridOrigin», .field M.«gridorigin» .enum)] ++ Object.rules

/-- overlay.cc 328-343: `ImagePyramid::Serialize`. -/
def ImagePyramid.writes : List Write :=
  [.field M.«tilesize» Ty.«tileSize»,
   .field M.«maxwidth» Ty.«maxWidth»,
   .field M.«maxheight» Ty.«maxHeight»,
   .enum M.«gridorigin» Ty.«gridOrigin»]

/-- liststyle.cc 47-74: `ItemIcon::AddElement`. -/
def ItemIcon.rules : List Rule :=
  [(.ty Ty.«state», .field M.«state» .states),
   (.ty Ty.«href», .field M.«href» .str)] ++ Object.rules

/-- liststyle.cc 76-94: `ItemIcon::Serialize`. -/
def ItemIcon.writes : List Write :=
  [.field M.«state» Ty.«state»,
   .field M.«href» Ty.«href»]

/-- labelstyle.cc 43-55: `LabelStyle::AddElement`. -/
def LabelStyle.rules : List Rule :=
  [(.ty Ty.«scale», .field M.«scale» (.dbl (chars! "1")))] ++ ColorStyle.rules

/-- labelstyle.cc 57-63: `LabelStyle::Serialize`. -/
def LabelStyle.writes : List Write :=
  ColorStyle.writes ++
  [.field M.«scale» Ty.«scale»]

/-- abstractlatlonbox.cc 40-58: `AbstractLatLonBox::AddElement`. -/
def AbstractLatLonBox.rules : List Rule :=
  [(.ty Ty.«north», .field M.«north» (.dbl (chars! "180"))),
   (.ty Ty.«south», .field M.«south» (.dbl (chars! "-180"))),
   (.ty Ty.«east», .field M.«east» (.dbl (chars! "180"))),
   (.ty Ty.«west», .field M.«west» (.dbl (chars! "-180")))] ++ Object.rules

/-- overlay.cc 96-108: `LatLonBox::AddElement`. -/
def LatLonBox.rules : List Rule :=
  [(.ty Ty.«rotation», .field M.«rotation» (.dbl (chars! "0")))] ++ AbstractLatLonBox.rules

/-- abstractlatlonbox.cc 60-74: `AbstractLatLonBox::Serialize`. -/
def AbstractLatLonBox.writes : List Write :=
  [.field M.«north» Ty.«north»,
   .field M.«south» Ty.«south»,
   .field M.«east» Ty.«east»,
   .field M.«west» Ty.«west»]

/-- overlay.cc 110-116: `LatLonBox::Serialize`. -/
def LatLonBox.writes : List Write :=
  AbstractLatLonBox.writes ++
  [.field M.«rotation» Ty.«rotation»]

/-- region.cc 49-70: `LatLonAltBox::AddElement`. -/
def LatLonAltBox.rules : List Rule :=
  [(.ty Ty.«minAltitude», .field M.«minaltitude» (.dbl (chars! "0"))),
   (.ty Ty.«maxAltitude», .field M.«maxaltitude» (.dbl (chars! "0"))),
   (.ty Ty.«altitudeMode», .field M.«altitudemode» .enum),
   (.ty Ty.«GxAltitudeMode», .field M.«gx_altitudemode» .enum)] ++ AbstractLatLonBox.rules

/-- region.cc 72-87: `LatLonAltBox::Serialize`. -/
def LatLonAltBox.writes : List Write :=
  AbstractLatLonBox.writes ++
  [.field M.«minaltitude» Ty.«minAltitude»,
   .field M.«maxaltitude» Ty.«maxAltitude»,
   .enum M.«altitudemode» Ty.«altitudeMode»,
   .enum M.«gx_altitudemode» Ty.«GxAltitudeMode»]

/-- geometry.cc 212-226: `AltitudeGeometryCommon::AddElement`. -/
def AltitudeGeometryCommon.rules : List Rule :=
  [(.ty Ty.«altitudeMode», .field M.«altitudemode» .enum),
   (.ty Ty.«GxAltitudeMode», .field M.«gx_altitudemode» .enum)] ++ Object.rules

/-- geometry.cc 236-245: `ExtrudeGeometryCommon::AddElement`. -/
def ExtrudeGeometryCommon.rules : List Rule :=
  [(.ty Ty.«extrude», .field M.«extrude» .bool)] ++ AltitudeGeometryCommon.rules

/-- geometry.cc 251-257: `CoordinatesGeometryCommon::AddElement`. -/
def CoordinatesGeometryCommon.rules : List Rule :=
  [(.isA Ty.«coordinates», .one M.«coordinates»)] ++ ExtrudeGeometryCommon.rules

/-- geometry.cc 299-308: `LineCommon::AddElement`. -/
def LineCommon.rules : List Rule :=
  [(.ty Ty.«tessellate», .field M.«tessellate» .bool)] ++ CoordinatesGeometryCommon.rules

/-- geometry.cc 310-328: `LineCommon::Serialize`. -/
def LineCommon.writes : List Write :=
  [.field M.«extrude» Ty.«extrude»,
   .field M.«tessellate» Ty.«tessellate»,
   .enum M.«altitudemode» Ty.«altitudeMode»,
   .enum M.«gx_altitudemode» Ty.«GxAltitudeMode»,
   .elem M.«coordinates»]

/-- linestyle.cc 42-54: `LineStyle::AddElement`. -/
def LineStyle.rules : List Rule :=
  [(.ty Ty.«width», .field M.«width» (.dbl (chars! "1")))] ++ ColorStyle.rules

/-- linestyle.cc 56-62: `LineStyle::Serialize`. -/
def LineStyle.writes : List Write :=
  ColorStyle.writes ++
  [.field M.«width» Ty.«width»]

/-- liststyle.cc 109-130: `ListStyle::AddElement`. -/
def ListStyle.rules : List Rule :=
  [(.ty Ty.«listItemType», .field M.«listitemtype» .enum),
   (.ty Ty.«bgColor», .field M.«bgcolor» .color),
   (.ty Ty.«ItemIcon», .many M.«itemicon_array»),
   (.ty Ty.«maxSnippetLines», .field M.«maxsnippetlines» (.int (chars! "2")))] ++ SubStyle.rules

/-- liststyle.cc 132-145: `ListStyle::Serialize`. -/
def ListStyle.writes : List Write :=
  SubStyle.writes ++
  [.enum M.«listitemtype» Ty.«listItemType»,
   .color M.«bgcolor» Ty.«bgColor»,
   .array M.«itemicon_array»,
   .field M.«maxsnippetlines» Ty.«maxSnippetLines»]

/-- model.cc 49-67: `Location::AddElement`. -/
def Location.rules : List Rule :=
  [(.ty Ty.«longitude», .field M.«longitude» (.dbl (chars! "0"))),
   (.ty Ty.«latitude», .field M.«latitude» (.dbl (chars! "0"))),
   (.ty Ty.«altitude», .field M.«altitude» (.dbl (chars! "0")))] ++ Object.rules

/-- model.cc 69-81: `Location::Serialize`. -/
def Location.writes : List Write :=
  [.field M.«longitude» Ty.«longitude»,
   .field M.«latitude» Ty.«latitude»,
   .field M.«altitude» Ty.«altitude»]

/-- region.cc 102-123: `Lod::AddElement`. -/
def Lod.rules : List Rule :=
  [(.ty Ty.«minLodPixels», .field M.«minlodpixels» (.dbl (chars! "0"))),
   (.ty Ty.«maxLodPixels», .field M.«maxlodpixels» (.dbl (chars! "-1"))),
   (.ty Ty.«minFadeExtent», .field M.«minfadeextent» (.dbl (chars! "0"))),
   (.ty Ty.«maxFadeExtent», .field M.«maxfadeextent» (.dbl (chars! "0")))] ++ Object.rules

/-- region.cc 125-140: `Lod::Serialize`. -/
def Lod.writes : List Write :=
  [.field M.«minlodpixels» Ty.«minLodPixels»,
   .field M.«maxlodpixels» Ty.«maxLodPixels»,
   .field M.«minfadeextent» Ty.«minFadeExtent»,
   .field M.«maxfadeextent» Ty.«maxFadeExtent»]

/-- abstractview.cc 146-152: `LookAt::AddElement`. -/
def LookAt.rules : List Rule :=
  [(.ty Ty.«range», .field M.«range» (.dbl (chars! "0")))] ++ AbstractViewCommon.rules

/-- abstractview.cc 154-161: `LookAt::Serialize`. -/
def LookAt.writes : List Write :=
  AbstractViewCommon.serializeBeforeR ++
  [.field M.«range» Ty.«range»] ++
  AbstractViewCommon.serializeAfterR

/-- extendeddata.cc 303-305: `Metadata::Serialize`. -/
def Metadata.writes : List Write :=
  []

/-- model.cc 255-278: `Model::AddElement`. -/
def Model.rules : List Rule :=
  [(.ty Ty.«Location», .one M.«location»),
   (.ty Ty.«Orientation», .one M.«orientation»),
   (.ty Ty.«Scale», .one M.«scale»),
   (.ty Ty.«Link», .one M.«link»),
   (.ty Ty.«ResourceMap», .one M.«resourcemap»)] ++ AltitudeGeometryCommon.rules

/-- model.cc 280-304: `Model::Serialize`. -/
def Model.writes : List Write :=
  [.enum M.«altitudemode» Ty.«altitudeMode»,
   .enum M.«gx_altitudemode» Ty.«GxAltitudeMode»,
   .elem M.«location»,
   .elem M.«orientation»,
   .elem M.«scale»,
   .elem M.«link»,
   .elem M.«resourcemap»]

/-- geometry.cc 456-465: `MultiGeometry::AddElement`. -/
def MultiGeometry.rules : List Rule :=
  [(.isA Ty.«Geometry», .many M.«geometry_array»)] ++ Object.rules

/-- geometry.cc 467-471: `MultiGeometry::Serialize`. -/
def MultiGeometry.writes : List Write :=
  [.groupArray M.«geometry_array» Ty.«Geometry»]

/-- networklink.cc 44-67: `NetworkLink::AddElement`. -/
def NetworkLink.rules : List Rule :=
  [(.ty Ty.«refreshVisibility», .field M.«refreshvisibility» .bool),
   (.ty Ty.«flyToView», .field M.«flytoview» .bool),
   (.ty Ty.«Url», .one M.«link»),
   (.ty Ty.«Link», .one M.«link»)] ++ Feature.rules

/-- networklink.cc 69-82: `NetworkLink::Serialize`. -/
def NetworkLink.writes : List Write :=
  Feature.writes ++
  [.field M.«refreshvisibility» Ty.«refreshVisibility»,
   .field M.«flytoview» Ty.«flyToView»,
   .elem M.«link»]

/-- networklinkcontrol.cc 214-254: `NetworkLinkControl::AddElement`. -/
def NetworkLinkControl.rules : List Rule :=
  [(.isA Ty.«AbstractView», .one M.«abstractview»),
   (.ty Ty.«minRefreshPeriod», .field M.«minrefreshperiod» (.dbl (chars! "0"))),
   (.ty Ty.«maxSessionLength», .field M.«maxsessionlength» (.dbl (chars! "0"))),
   (.ty Ty.«cookie», .field M.«cookie» .str),
   (.ty Ty.«message», .field M.«message» .str),
   (.ty Ty.«linkName», .field M.«linkname» .str),
   (.ty Ty.«linkDescription», .field M.«linkdescription» .str),
   (.ty Ty.«linkSnippet», .one M.«linksnippet»),
   (.ty Ty.«expires», .field M.«expires» .str),
   (.ty Ty.«Update», .one M.«update»)]

/-- networklinkcontrol.cc 256-288: `NetworkLinkControl::Serialize`. -/
def NetworkLinkControl.writes : List Write :=
  [.field M.«minrefreshperiod» Ty.«minRefreshPeriod»,
   .field M.«maxsessionlength» Ty.«maxSessionLength»,
   .field M.«cookie» Ty.«cookie»,
   .field M.«message» Ty.«message»,
   .field M.«linkname» Ty.«linkName»,
   .field M.«linkdescription» Ty.«linkDescription»,
   .elem M.«linksnippet»,
   .field M.«expires» Ty.«expires»,
   .elem M.«update»,
   .group M.«abstractview» Ty.«AbstractView»]

/-- model.cc 95-113: `Orientation::AddElement`. -/
def Orientation.rules : List Rule :=
  [(.ty Ty.«heading», .field M.«heading» (.dbl (chars! "0"))),
   (.ty Ty.«tilt», .field M.«tilt» (.dbl (chars! "0"))),
   (.ty Ty.«roll», .field M.«roll» (.dbl (chars! "0")))] ++ Object.rules

/-- model.cc 115-127: `Orientation::Serialize`. -/
def Orientation.writes : List Write :=
  [.field M.«heading» Ty.«heading»,
   .field M.«tilt» Ty.«tilt»,
   .field M.«roll» Ty.«roll»]

/-- stylemap.cc 43-62: `Pair::AddElement`. -/
def Pair.rules : List Rule :=
  [(.isA Ty.«StyleSelector», .one M.«styleselector»),
   (.ty Ty.«key», .field M.«key» .enum),
   (.ty Ty.«styleUrl», .field M.«styleurl» .str)] ++ Object.rules

/-- stylemap.cc 64-76: `Pair::Serialize`. -/
def Pair.writes : List Write :=
  [.enum M.«key» Ty.«key»,
   .field M.«styleurl» Ty.«styleUrl»,
   .group M.«styleselector» Ty.«StyleSelector»]

/-- overlay.cc 359-383: `PhotoOverlay::AddElement`. -/
def PhotoOverlay.rules : List Rule :=
  [(.ty Ty.«rotation», .field M.«rotation» (.dbl (chars! "0"))),
   (.ty Ty.«ViewVolume», .one M.«viewvolume»),
   (.ty Ty.«ImagePyramid», .one M.«imagepyramid»),
   (.ty Ty.«Point», .one M.«point»),
   (.ty Ty.«shape», .field M.«shape» .enum)] ++ Overlay.rules

/-- overlay.cc 385-403: `PhotoOverlay::Serialize`. -/
def PhotoOverlay.writes : List Write :=
  Overlay.writes ++
  [.field M.«rotation» Ty.«rotation»,
   .elem M.«viewvolume»,
   .elem M.«imagepyramid»,
   .elem M.«point»,
   .enum M.«shape» Ty.«shape»]

/-- placemark.cc 40-49: `Placemark::AddElement`. -/
def Placemark.rules : List Rule :=
  [(.isA Ty.«Geometry», .one M.«geometry»)] ++ Feature.rules

/-- placemark.cc 51-57: `Placemark::Serialize`. -/
def Placemark.writes : List Write :=
  Feature.writes ++
  [.group M.«geometry» Ty.«Geometry»]

/-- polystyle.cc 43-58: `PolyStyle::AddElement`. -/
def PolyStyle.rules : List Rule :=
  [(.ty Ty.«fill», .field M.«fill» .bool),
   (.ty Ty.«outline», .field M.«outline» .bool)] ++ ColorStyle.rules

/-- polystyle.cc 60-69: `PolyStyle::Serialize`. -/
def PolyStyle.writes : List Write :=
  ColorStyle.writes ++
  [.field M.«fill» Ty.«fill»,
   .field M.«outline» Ty.«outline»]

/-- geometry.cc 271-286: `Point::Serialize`. -/
def Point.writes : List Write :=
  [.field M.«extrude» Ty.«extrude»,
   .enum M.«altitudemode» Ty.«altitudeMode»,
   .enum M.«gx_altitudemode» Ty.«GxAltitudeMode»,
   .elem M.«coordinates»]

/-- geometry.cc 396-413: `Polygon::AddElement`. -/
def Polygon.rules : List Rule :=
  [(.ty Ty.«tessellate», .field M.«tessellate» .bool),
   (.ty Ty.«outerBoundaryIs», .one M.«outerboundaryis»),
   (.ty Ty.«innerBoundaryIs», .many M.«innerboundaryis_array»)] ++ ExtrudeGeometryCommon.rules

/-- geometry.cc 415-434: `Polygon::Serialize`. -/
def Polygon.writes : List Write :=
  [.field M.«extrude» Ty.«extrude»,
   .field M.«tessellate» Ty.«tessellate»,
   .enum M.«altitudemode» Ty.«altitudeMode»,
   .enum M.«gx_altitudemode» Ty.«GxAltitudeMode»,
   .elem M.«outerboundaryis»,
   .array M.«innerboundaryis_array»]

/-- region.cc 152-166: `Region::AddElement`. -/
def Region.rules : List Rule :=
  [(.ty Ty.«LatLonAltBox», .one M.«latlonaltbox»),
   (.ty Ty.«Lod», .one M.«lod»)] ++ Object.rules

/-- region.cc 168-177: `Region::Serialize`. -/
def Region.writes : List Write :=
  [.elem M.«latlonaltbox»,
   .elem M.«lod»]

/-- model.cc 225-234: `ResourceMap::AddElement`. -/
def ResourceMap.rules : List Rule :=
  [(.ty Ty.«Alias», .many M.«alias_array»)] ++ Object.rules

/-- model.cc 236-240: `ResourceMap::Serialize`. -/
def ResourceMap.writes : List Write :=
  [.array M.«alias_array»]

/-- model.cc 141-160: `Scale::AddElement`. -/
def Scale.rules : List Rule :=
  [(.ty Ty.«x», .field M.«x» (.dbl (chars! "1"))),
   (.ty Ty.«y», .field M.«y» (.dbl (chars! "1"))),
   (.ty Ty.«z», .field M.«z» (.dbl (chars! "1")))] ++ Object.rules

/-- model.cc 162-174: `Scale::Serialize`. -/
def Scale.writes : List Write :=
  [.field M.«x» Ty.«x»,
   .field M.«y» Ty.«y»,
   .field M.«z» Ty.«z»]

/-- schema.cc 127-141: `Schema::AddElement`. -/
def Schema.rules : List Rule :=
  [(.ty Ty.«SimpleField», .many M.«simplefield_array»),
   (.ty Ty.«GxSimpleArrayField», .many M.«gx_simplearrayfield_array»)] ++ Object.rules

/-- schema.cc 143-147: `Schema::Serialize`. -/
def Schema.writes : List Write :=
  [.array M.«simplefield_array»,
   .array M.«gx_simplearrayfield_array»]

/-- extendeddata.cc 166-180: `SchemaData::AddElement`. -/
def SchemaData.rules : List Rule :=
  [(.ty Ty.«SimpleData», .many M.«simpledata_array»),
   (.ty Ty.«GxSimpleArrayData», .many M.«gx_simplearraydata_array»)] ++ Object.rules

/-- extendeddata.cc 182-187: `SchemaData::Serialize`. -/
def SchemaData.writes : List Write :=
  [.array M.«simpledata_array»,
   .array M.«gx_simplearraydata_array»]

/-- overlay.cc 462-486: `ScreenOverlay::AddElement`. -/
def ScreenOverlay.rules : List Rule :=
  [(.ty Ty.«overlayXY», .one M.«overlayxy»),
   (.ty Ty.«screenXY», .one M.«screenxy»),
   (.ty Ty.«rotationXY», .one M.«rotationxy»),
   (.ty Ty.«size», .one M.«size»),
   (.ty Ty.«rotation», .field M.«rotation» (.dbl (chars! "0")))] ++ Overlay.rules

/-- overlay.cc 488-506: `ScreenOverlay::Serialize`. -/
def ScreenOverlay.writes : List Write :=
  Overlay.writes ++
  [.elem M.«overlayxy»,
   .elem M.«screenxy»,
   .elem M.«rotationxy»,
   .elem M.«size»,
   .field M.«rotation» Ty.«rotation»]

/-- extendeddata.cc 68-78: `SimpleData::AddElement`. -/
def SimpleData.rules : List Rule :=
  [(.ty Ty.«SimpleData», .selfText M.«text»)]

/-- extendeddata.cc 80-85: `SimpleData::Serialize`. -/
def SimpleData.writes : List Write :=
  [.content M.«text» false]

/-- schema.cc 70-79: `SimpleField::AddElement`. -/
def SimpleField.rules : List Rule :=
  [(.ty Ty.«displayName», .field M.«displayname» .str)]

/-- schema.cc 81-86: `SimpleField::Serialize`. -/
def SimpleField.writes : List Write :=
  [.field M.«displayname» Ty.«displayName»]

/-- snippet.cc 63-68: `SnippetCommon::AddElement`. -/
def SnippetCommon.rules : List Rule :=
  [(.any, .selfText M.«text»)]

/-- snippet.cc 70-73: `SnippetCommon::Serialize`. -/
def SnippetCommon.writes : List Write :=
  [.content M.«text» true]

/-- style.cc 40-67: `Style::AddElement`. -/
def Style.rules : List Rule :=
  [(.ty Ty.«IconStyle», .one M.«iconstyle»),
   (.ty Ty.«LabelStyle», .one M.«labelstyle»),
   (.ty Ty.«LineStyle», .one M.«linestyle»),
   (.ty Ty.«PolyStyle», .one M.«polystyle»),
   (.ty Ty.«BalloonStyle», .one M.«balloonstyle»),
   (.ty Ty.«ListStyle», .one M.«liststyle»)] ++ Object.rules

/-- style.cc 69-90: `Style::Serialize`. -/
def Style.writes : List Write :=
  [.elem M.«iconstyle»,
   .elem M.«labelstyle»,
   .elem M.«linestyle»,
   .elem M.«polystyle»,
   .elem M.«balloonstyle»,
   .elem M.«liststyle»]

/-- stylemap.cc 94-103: `StyleMap::AddElement`. -/
def StyleMap.rules : List Rule :=
  [(.ty Ty.«Pair», .many M.«pair_array»)] ++ Object.rules

/-- stylemap.cc 105-109: `StyleMap::Serialize`. -/
def StyleMap.writes : List Write :=
  [.array M.«pair_array»]

/-- timeprimitive.cc 41-43: `TimePrimitive::AddElement`. -/
def TimePrimitive.rules : List Rule :=
  [] ++ Object.rules

/-- timeprimitive.cc 52-66: `TimeSpan::AddElement`. -/
def TimeSpan.rules : List Rule :=
  [(.ty Ty.«begin», .field M.«begin» .str),
   (.ty Ty.«end», .field M.«end» .str)] ++ TimePrimitive.rules

/-- timeprimitive.cc 68-77: `TimeSpan::Serialize`. -/
def TimeSpan.writes : List Write :=
  [.field M.«begin» Ty.«begin»,
   .field M.«end» Ty.«end»]

/-- timeprimitive.cc 89-98: `TimeStamp::AddElement`. -/
def TimeStamp.rules : List Rule :=
  [(.ty Ty.«when», .field M.«when» .str)] ++ TimePrimitive.rules

/-- timeprimitive.cc 100-106: `TimeStamp::Serialize`. -/
def TimeStamp.writes : List Write :=
  [.field M.«when» Ty.«when»]

/-- overlay.cc 242-266: `ViewVolume::AddElement`. -/
def ViewVolume.rules : List Rule :=
  [(.ty Ty.«leftFov», .field M.«leftfov» (.dbl (chars! "0"))),
   (.ty Ty.«rightFov», .field M.«rightfov» (.dbl (chars! "0"))),
   (.ty Ty.«bottomFov», .field M.«bottomfov» (.dbl (chars! "0"))),
   (.ty Ty.«topFov», .field M.«topfov» (.dbl (chars! "0"))),
   (.ty Ty.«near», .field M.«near» (.dbl (chars! "0")))] ++ Object.rules

/-- overlay.cc 268-286: `ViewVolume::Serialize`. -/
def ViewVolume.writes : List Write :=
  [.field M.«leftfov» Ty.«leftFov»,
   .field M.«rightfov» Ty.«rightFov»,
   .field M.«bottomfov» Ty.«bottomFov»,
   .field M.«topfov» Ty.«topFov»,
   .field M.«near» Ty.«near»]

/-- networklinkcontrol.cc 153-174: `Update::AddElement`. -/
def Update.rules : List Rule :=
  [(.ty Ty.«targetHref», .field M.«targethref» .str),
   (.ty Ty.«Create», .many M.«updateoperation_array»),
   (.ty Ty.«Delete», .many M.«updateoperation_array»),
   (.ty Ty.«Change», .many M.«updateoperation_array»)]

/-- networklinkcontrol.cc 176-184: `Update::Serialize`. -/
def Update.writes : List Write :=
  [.field M.«targethref» Ty.«targetHref»,
   .elem M.«updateoperation_array»]

/-- geometry.cc 179-181: `Coordinates::AddElement`. -/
def Coordinates.rules : List Rule :=
  [(.any, .selfPoints M.«coordinates_array»)]

/-- geometry.cc 183-192: `Coordinates::Serialize`; written without attributes. -/
def Coordinates.writes : List Write := [.points M.«coordinates_array»]

/-- vec2.cc 102-104: `Vec2::Serialize`. -/
def Vec2.writes : List Write :=
  []

/-- geometry.cc 350-356: `BoundaryCommon::AddElement`. -/
def BoundaryCommon.rules : List Rule :=
  [(.isA Ty.«LinearRing», .one M.«linearring»)]

/-- geometry.cc 358-363: `BoundaryCommon::Serialize`. -/
def BoundaryCommon.writes : List Write :=
  [.elem M.«linearring»]

/-- kml.cc 60-71: `Kml::AddElement`. -/
def Kml.rules : List Rule :=
  [(.isA Ty.«Feature», .one M.«feature»),
   (.ty Ty.«NetworkLinkControl», .one M.«networklinkcontrol»)]

/-- kml.cc 73-81: `Kml::Serialize`. -/
def Kml.writes : List Write :=
  [.elem M.«networklinkcontrol»,
   .group M.«feature» Ty.«Feature»]

/-- xal.cc 43-55: `XalAddressDetails::AddElement`. -/
def XalAddressDetails.rules : List Rule :=
  [(.ty Ty.«XalCountry», .one M.«country»)]

/-- xal.cc 57-63: `XalAddressDetails::Serialize`. -/
def XalAddressDetails.writes : List Write :=
  [.elem M.«country»]

/-- xal.cc 71-89: `XalAdministrativeArea::AddElement`. -/
def XalAdministrativeArea.rules : List Rule :=
  [(.ty Ty.«xalAdministrativeAreaName», .field M.«administrativeareaname» .str),
   (.ty Ty.«XalLocality», .one M.«locality»),
   (.ty Ty.«XalSubAdministrativeArea», .one M.«subadministrativearea»)]

/-- xal.cc 91-103: `XalAdministrativeArea::Serialize`. -/
def XalAdministrativeArea.writes : List Write :=
  [.field M.«administrativeareaname» Ty.«xalAdministrativeAreaName»,
   .elem M.«locality»,
   .elem M.«subadministrativearea»]

/-- xal.cc 111-125: `XalCountry::AddElement`. -/
def XalCountry.rules : List Rule :=
  [(.ty Ty.«xalCountryNameCode», .field M.«countrynamecode» .str),
   (.ty Ty.«XalAdministrativeArea», .one M.«administrativearea»)]

/-- xal.cc 127-137: `XalCountry::Serialize`. -/
def XalCountry.writes : List Write :=
  [.field M.«countrynamecode» Ty.«xalCountryNameCode»,
   .elem M.«administrativearea»]

/-- xal.cc 145-163: `XalLocality::AddElement`. -/
def XalLocality.rules : List Rule :=
  [(.ty Ty.«xalLocalityName», .field M.«localityname» .str),
   (.ty Ty.«XalPostalCode», .one M.«postalcode»),
   (.ty Ty.«XalThoroughfare», .one M.«thoroughfare»)]

/-- xal.cc 165-173: `XalLocality::Serialize`. -/
def XalLocality.writes : List Write :=
  [.elem M.«thoroughfare»,
   .elem M.«postalcode»]

/-- xal.cc 181-193: `XalPostalCode::AddElement`. -/
def XalPostalCode.rules : List Rule :=
  [(.ty Ty.«xalPostalCodeNumber», .field M.«postalcodenumber» .str)]

/-- xal.cc 195-200: `XalPostalCode::Serialize`. -/
def XalPostalCode.writes : List Write :=
  [.field M.«postalcodenumber» Ty.«xalPostalCodeNumber»]

/-- xal.cc 208-223: `XalSubAdministrativeArea::AddElement`. -/
def XalSubAdministrativeArea.rules : List Rule :=
  [(.ty Ty.«xalSubAdministrativeAreaName», .field M.«subadministrativeareaname» .str),
   (.ty Ty.«XalLocality», .one M.«locality»)]

/-- xal.cc 225-234: `XalSubAdministrativeArea::Serialize`. -/
def XalSubAdministrativeArea.writes : List Write :=
  [.field M.«subadministrativeareaname» Ty.«xalSubAdministrativeAreaName»,
   .elem M.«locality»]

/-- xal.cc 243-258: `XalThoroughfare::AddElement`. -/
def XalThoroughfare.rules : List Rule :=
  [(.ty Ty.«xalThoroughfareName», .field M.«thoroughfarename» .str),
   (.ty Ty.«xalThoroughfareNumber», .field M.«thoroughfarenumber» .str)]

/-- xal.cc 260-269: `XalThoroughfare::Serialize`. -/
def XalThoroughfare.writes : List Write :=
  [.field M.«thoroughfarenumber» Ty.«xalThoroughfareNumber»,
   .field M.«thoroughfarename» Ty.«xalThoroughfareName»]

/-- gx_tour.cc 125-134: `GxTourPrimitiveCommon::AddElement`. -/
def GxTourPrimitiveCommon.rules : List Rule :=
  [(.ty Ty.«GxDuration», .field M.«gx_duration» (.dbl (chars! "0")))] ++ Object.rules

/-- gx_tour.cc 150-156: `GxAnimatedUpdate::AddElement`. -/
def GxAnimatedUpdate.rules : List Rule :=
  [(.isA Ty.«Update», .one M.«update»)] ++ GxTourPrimitiveCommon.rules

/-- gx_tour.cc 136-140: `GxTourPrimitiveCommon::Serialize`. -/
def GxTourPrimitiveCommon.writes : List Write :=
  [.field M.«gx_duration» Ty.«GxDuration»]

/-- gx_tour.cc 158-164: `GxAnimatedUpdate::Serialize`. -/
def GxAnimatedUpdate.writes : List Write :=
  GxTourPrimitiveCommon.writes ++
  [.elem M.«update»]

/-- gx_tour.cc 186-199: `GxFlyTo::AddElement`. -/
def GxFlyTo.rules : List Rule :=
  [(.ty Ty.«GxFlyToMode», .field M.«gx_flytomode» .enum),
   (.isA Ty.«AbstractView», .one M.«abstractview»)] ++ GxTourPrimitiveCommon.rules

/-- gx_tour.cc 201-210: `GxFlyTo::Serialize`. -/
def GxFlyTo.writes : List Write :=
  GxTourPrimitiveCommon.writes ++
  [.enum M.«gx_flytomode» Ty.«GxFlyToMode»,
   .elem M.«abstractview»]

/-- overlay.cc 128-134: `GxLatLonQuad::AddElement`. -/
def GxLatLonQuad.rules : List Rule :=
  [(.isA Ty.«coordinates», .one M.«coordinates»)] ++ Object.rules

/-- overlay.cc 136-142: `GxLatLonQuad::Serialize`. -/
def GxLatLonQuad.writes : List Write :=
  [.elem M.«coordinates»]

/-- geometry.cc 583-596: `GxMultiTrack::AddElement`. -/
def GxMultiTrack.rules : List Rule :=
  [(.ty Ty.«GxInterpolate», .field M.«gx_interpolate» .bool),
   (.isA Ty.«GxTrack», .many M.«gx_track_array»)] ++ Object.rules

/-- geometry.cc 598-605: `GxMultiTrack::Serialize`. -/
def GxMultiTrack.writes : List Write :=
  [.field M.«gx_interpolate» Ty.«GxInterpolate»,
   .groupArray M.«gx_track_array» Ty.«GxTrack»]

/-- gx_tour.cc 98-104: `GxPlaylist::AddElement`. -/
def GxPlaylist.rules : List Rule :=
  [(.isA Ty.«GxTourPrimitive», .many M.«gx_tourprimitive_array»)]

/-- gx_tour.cc 106-112: `GxPlaylist::Serialize`. -/
def GxPlaylist.writes : List Write :=
  [.group M.«gx_tourprimitive_array» Ty.«GxTourPrimitive»]

/-- extendeddata.cc 116-125: `GxSimpleArrayData::AddElement`. -/
def GxSimpleArrayData.rules : List Rule :=
  [(.ty Ty.«GxValue», .fields M.«gx_value_array» .str)]

/-- extendeddata.cc 127-132: `GxSimpleArrayData::Serialize`. -/
def GxSimpleArrayData.writes : List Write :=
  [.field M.«gx_value_array» Ty.«GxValue»]

/-- gx_tour.cc 249-258: `GxSoundCue::AddElement`. -/
def GxSoundCue.rules : List Rule :=
  [(.ty Ty.«href», .field M.«href» .str)] ++ Object.rules

/-- gx_tour.cc 260-266: `GxSoundCue::Serialize`. -/
def GxSoundCue.writes : List Write :=
  [.field M.«href» Ty.«href»]

/-- gx_tour.cc 46-55: `GxTour::AddElement`. -/
def GxTour.rules : List Rule :=
  [(.ty Ty.«GxPlaylist», .one M.«gx_playlist»)] ++ Feature.rules

/-- gx_tour.cc 57-63: `GxTour::Serialize`. -/
def GxTour.writes : List Write :=
  Feature.writes ++
  [.elem M.«gx_playlist»]

/-- gx_tour.cc 281-290: `GxTourControl::AddElement`. -/
def GxTourControl.rules : List Rule :=
  [(.ty Ty.«GxPlayMode», .field M.«gx_playmode» .enum)] ++ Object.rules

/-- gx_tour.cc 292-298: `GxTourControl::Serialize`. -/
def GxTourControl.writes : List Write :=
  [.enum M.«gx_playmode» Ty.«GxPlayMode»]

/-- geometry.cc 488-511: `GxTrack::AddElement`. -/
def GxTrack.rules : List Rule :=
  [(.ty Ty.«when», .fields M.«when_array» .str),
   (.ty Ty.«GxAngles», .fields M.«gx_angles_array» .vec3),
   (.ty Ty.«GxCoord», .fields M.«gx_coord_array» .vec3),
   (.ty Ty.«Model», .one M.«model»),
   (.ty Ty.«ExtendedData», .one M.«extendeddata»)] ++ AltitudeGeometryCommon.rules

/-- geometry.cc 513-538: `GxTrack::Serialize`. -/
def GxTrack.writes : List Write :=
  [.enum M.«altitudemode» Ty.«altitudeMode»,
   .enum M.«gx_altitudemode» Ty.«GxAltitudeMode»,
   .field M.«when_array» Ty.«when»,
   .vec3 M.«gx_coord_array» Ty.«GxCoord»,
   .vec3 M.«gx_angles_array» Ty.«GxAngles»,
   .elem M.«model»,
   .elem M.«extendeddata»]

/-- gx_tour.cc 231-234: `GxWait::Serialize`. -/
def GxWait.writes : List Write :=
  GxTourPrimitiveCommon.writes

/-- geometry.h 888-943: class `Alias`; attributes object.cc 53-60, object.cc 62-72. -/
def «Alias».cls : Class where
  ty := Ty.«Alias»
  isA := [Ty.«Alias», Ty.«Object»]
  rules := Alias.rules
  writes := Alias.writes
  reads := [(chars! "id", .str), (chars! "targetId", .str)]
  sets := [chars! "id", chars! "targetId"]

/-- atom.h 37-91: class `AtomAuthor`. -/
def «AtomAuthor».cls : Class where
  ty := Ty.«AtomAuthor»
  isA := [Ty.«AtomAuthor»]
  rules := AtomAuthor.rules
  writes := AtomAuthor.writes
  reads := []
  sets := []

/-- atom.h 172-228: class `AtomCategory`; attributes atom.cc 110-118, atom.cc 120-131. -/
def «AtomCategory».cls : Class where
  ty := Ty.«AtomCategory»
  isA := [Ty.«AtomCategory»]
  rules := AtomCategory.rules
  writes := AtomCategory.writes
  reads := [(chars! "term", .str), (chars! "scheme", .str), (chars! "label", .str)]
  sets := [chars! "scheme", chars! "term", chars! "label"]

/-- atom.h 232-273: class `AtomContent`; attributes atom.cc 147-154, atom.cc 156-164. -/
def «AtomContent».cls : Class where
  ty := Ty.«AtomContent»
  isA := [Ty.«AtomContent»]
  rules := []
  writes := AtomContent.writes
  reads := [(chars! "src", .str), (chars! "type", .str)]
  sets := [chars! "src", chars! "type"]

/-- atom.h 277-322: class `AtomEntry`. -/
def «AtomEntry».cls : Class where
  ty := Ty.«AtomEntry»
  isA := [Ty.«AtomEntry»]
  rules := AtomEntry.rules
  writes := AtomEntry.writes
  reads := []
  sets := []

/-- atom.h 326-356: class `AtomFeed`. -/
def «AtomFeed».cls : Class where
  ty := Ty.«AtomFeed»
  isA := [Ty.«AtomFeed»]
  rules := AtomFeed.rules
  writes := AtomFeed.writes
  reads := []
  sets := []

/-- atom.h 359-457: class `AtomLink`; attributes atom.cc 307-318, atom.cc 320-340. -/
def «AtomLink».cls : Class where
  ty := Ty.«AtomLink»
  isA := [Ty.«AtomLink»]
  rules := AtomLink.rules
  writes := AtomLink.writes
  reads := [(chars! "href", .str), (chars! "rel", .str), (chars! "type", .str), (chars! "hreflang", .str), (chars! "title", .str), (chars! "length", (.int (chars! "0")))]
  sets := [chars! "href", chars! "rel", chars! "type", chars! "hreflang", chars! "title", chars! "length"]

/-- balloonstyle.h 39-130: class `BalloonStyle`; attributes object.cc 53-60, object.cc 62-72. -/
def «BalloonStyle».cls : Class where
  ty := Ty.«BalloonStyle»
  isA := [Ty.«BalloonStyle», Ty.«SubStyle», Ty.«Object»]
  rules := BalloonStyle.rules
  writes := BalloonStyle.writes
  reads := [(chars! "id", .str), (chars! "targetId", .str)]
  sets := [chars! "id", chars! "targetId"]

/-- abstractview.h 258-295: class `Camera`; attributes object.cc 53-60, object.cc 62-72. -/
def «Camera».cls : Class where
  ty := Ty.«Camera»
  isA := [Ty.«Camera», Ty.«AbstractView», Ty.«Object»]
  rules := Camera.rules
  writes := Camera.writes
  reads := [(chars! "id", .str), (chars! "targetId", .str)]
  sets := [chars! "id", chars! "targetId"]

/-- networklinkcontrol.h 137-170: class `Change`. -/
def «Change».cls : Class where
  ty := Ty.«Change»
  isA := [Ty.«Change»]
  rules := Change.rules
  writes := Change.writes
  reads := []
  sets := []

/-- networklinkcontrol.h 65-98: class `Create`. -/
def «Create».cls : Class where
  ty := Ty.«Create»
  isA := [Ty.«Create»]
  rules := Create.rules
  writes := Create.writes
  reads := []
  sets := []

/-- extendeddata.h 214-279: class `Data`; attributes extendeddata.cc 212-218, object.cc 53-60, extendeddata.cc 220-225, object.cc 62-72. -/
def «Data».cls : Class where
  ty := Ty.«Data»
  isA := [Ty.«Data», Ty.«Object»]
  rules := Data.rules
  writes := Data.writes
  reads := [(chars! "name", .str), (chars! "id", .str), (chars! "targetId", .str)]
  sets := [chars! "id", chars! "targetId", chars! "name"]

/-- networklinkcontrol.h 101-134: class `Delete`. -/
def «Delete».cls : Class where
  ty := Ty.«Delete»
  isA := [Ty.«Delete»]
  rules := Delete.rules
  writes := Delete.writes
  reads := []
  sets := []

/-- document.h 41-102: class `Document`; attributes object.cc 53-60, object.cc 62-72. -/
def «Document».cls : Class where
  ty := Ty.«Document»
  isA := [Ty.«Document», Ty.«Container», Ty.«Feature», Ty.«Object»]
  rules := Document.rules
  writes := Document.writes
  reads := [(chars! "id", .str), (chars! "targetId", .str)]
  sets := [chars! "id", chars! "targetId"]

/-- extendeddata.h 282-326: class `ExtendedData`. -/
def «ExtendedData».cls : Class where
  ty := Ty.«ExtendedData»
  isA := [Ty.«ExtendedData»]
  rules := ExtendedData.rules
  writes := ExtendedData.writes
  reads := []
  sets := []

/-- folder.h 38-55: class `Folder`; attributes object.cc 53-60, object.cc 62-72. -/
def «Folder».cls : Class where
  ty := Ty.«Folder»
  isA := [Ty.«Folder», Ty.«Container», Ty.«Feature», Ty.«Object»]
  rules := Container.rules
  writes := Folder.writes
  reads := [(chars! "id", .str), (chars! "targetId", .str)]
  sets := [chars! "id", chars! "targetId"]

/-- overlay.h 199-297: class `GroundOverlay`; attributes object.cc 53-60, object.cc 62-72. -/
def «GroundOverlay».cls : Class where
  ty := Ty.«GroundOverlay»
  isA := [Ty.«GroundOverlay», Ty.«Overlay», Ty.«Feature», Ty.«Object»]
  rules := GroundOverlay.rules
  writes := GroundOverlay.writes
  reads := [(chars! "id", .str), (chars! "targetId", .str)]
  sets := [chars! "id", chars! "targetId"]

/-- link.h 242-257: class `Icon`; attributes object.cc 53-60, object.cc 62-72. -/
def «Icon».cls : Class where
  ty := Ty.«Icon»
  isA := [Ty.«Icon», Ty.«BasicLink», Ty.«Object»]
  rules := AbstractLink.rules
  writes := AbstractLink.writes
  reads := [(chars! "id", .str), (chars! "targetId", .str)]
  sets := [chars! "id", chars! "targetId"]

/-- iconstyle.h 42-120: class `IconStyle`; attributes object.cc 53-60, object.cc 62-72. -/
def «IconStyle».cls : Class where
  ty := Ty.«IconStyle»
  isA := [Ty.«IconStyle», Ty.«ColorStyle», Ty.«SubStyle», Ty.«Object»]
  rules := IconStyle.rules
  writes := IconStyle.writes
  reads := [(chars! "id", .str), (chars! "targetId", .str)]
  sets := [chars! "id", chars! "targetId"]

/-- link.h 282-373: class `IconStyleIcon`; attributes object.cc 53-60, object.cc 62-72. -/
def «IconStyleIcon».cls : Class where
  ty := Ty.«IconStyleIcon»
  isA := [Ty.«IconStyleIcon», Ty.«BasicLink», Ty.«Object»]
  rules := IconStyleIcon.rules
  writes := IconStyleIcon.writes
  reads := [(chars! "id", .str), (chars! "targetId", .str)]
  sets := [chars! "id", chars! "targetId"]

/-- overlay.h 569-660: class `ImagePyramid`; attributes object.cc 53-60, object.cc 62-72. -/
def «ImagePyramid».cls : Class where
  ty := Ty.«ImagePyramid»
  isA := [Ty.«ImagePyramid», Ty.«Object»]
  rules := ImagePyramid.rules
  writes := ImagePyramid.writes
  reads := [(chars! "id", .str), (chars! "targetId", .str)]
  sets := [chars! "id", chars! "targetId"]

/-- liststyle.h 45-118: class `ItemIcon`; attributes object.cc 53-60, object.cc 62-72. -/
def «ItemIcon».cls : Class where
  ty := Ty.«ItemIcon»
  isA := [Ty.«ItemIcon», Ty.«Object»]
  rules := ItemIcon.rules
  writes := ItemIcon.writes
  reads := [(chars! "id", .str), (chars! "targetId", .str)]
  sets := [chars! "id", chars! "targetId"]

/-- labelstyle.h 37-74: class `LabelStyle`; attributes object.cc 53-60, object.cc 62-72. -/
def «LabelStyle».cls : Class where
  ty := Ty.«LabelStyle»
  isA := [Ty.«LabelStyle», Ty.«ColorStyle», Ty.«SubStyle», Ty.«Object»]
  rules := LabelStyle.rules
  writes := LabelStyle.writes
  reads := [(chars! "id", .str), (chars! "targetId", .str)]
  sets := [chars! "id", chars! "targetId"]

/-- overlay.h 121-161: class `LatLonBox`; attributes object.cc 53-60, object.cc 62-72. -/
def «LatLonBox».cls : Class where
  ty := Ty.«LatLonBox»
  isA := [Ty.«LatLonBox», Ty.«AbstractLatLonBox», Ty.«Object»]
  rules := LatLonBox.rules
  writes := LatLonBox.writes
  reads := [(chars! "id", .str), (chars! "targetId", .str)]
  sets := [chars! "id", chars! "targetId"]

/-- region.h 44-135: class `LatLonAltBox`; attributes object.cc 53-60, object.cc 62-72. -/
def «LatLonAltBox».cls : Class where
  ty := Ty.«LatLonAltBox»
  isA := [Ty.«LatLonAltBox», Ty.«AbstractLatLonBox», Ty.«Object»]
  rules := LatLonAltBox.rules
  writes := LatLonAltBox.writes
  reads := [(chars! "id", .str), (chars! "targetId", .str)]
  sets := [chars! "id", chars! "targetId"]

/-- geometry.h 333-348: class `LinearRing`; attributes object.cc 53-60, object.cc 62-72. -/
def «LinearRing».cls : Class where
  ty := Ty.«LinearRing»
  isA := [Ty.«LinearRing», Ty.«Geometry», Ty.«Object»]
  rules := LineCommon.rules
  writes := LineCommon.writes
  reads := [(chars! "id", .str), (chars! "targetId", .str)]
  sets := [chars! "id", chars! "targetId"]

/-- geometry.h 315-330: class `LineString`; attributes object.cc 53-60, object.cc 62-72. -/
def «LineString».cls : Class where
  ty := Ty.«LineString»
  isA := [Ty.«LineString», Ty.«Geometry», Ty.«Object»]
  rules := LineCommon.rules
  writes := LineCommon.writes
  reads := [(chars! "id", .str), (chars! "targetId", .str)]
  sets := [chars! "id", chars! "targetId"]

/-- linestyle.h 38-75: class `LineStyle`; attributes object.cc 53-60, object.cc 62-72. -/
def «LineStyle».cls : Class where
  ty := Ty.«LineStyle»
  isA := [Ty.«LineStyle», Ty.«ColorStyle», Ty.«SubStyle», Ty.«Object»]
  rules := LineStyle.rules
  writes := LineStyle.writes
  reads := [(chars! "id", .str), (chars! "targetId", .str)]
  sets := [chars! "id", chars! "targetId"]

/-- link.h 224-239: class `Link`; attributes object.cc 53-60, object.cc 62-72. -/
def «Link».cls : Class where
  ty := Ty.«Link»
  isA := [Ty.«Link», Ty.«BasicLink», Ty.«Object»]
  rules := AbstractLink.rules
  writes := AbstractLink.writes
  reads := [(chars! "id", .str), (chars! "targetId", .str)]
  sets := [chars! "id", chars! "targetId"]

/-- liststyle.h 121-209: class `ListStyle`; attributes object.cc 53-60, object.cc 62-72. -/
def «ListStyle».cls : Class where
  ty := Ty.«ListStyle»
  isA := [Ty.«ListStyle», Ty.«SubStyle», Ty.«Object»]
  rules := ListStyle.rules
  writes := ListStyle.writes
  reads := [(chars! "id", .str), (chars! "targetId", .str)]
  sets := [chars! "id", chars! "targetId"]

/-- geometry.h 660-733: class `Location`; attributes object.cc 53-60, object.cc 62-72. -/
def «Location».cls : Class where
  ty := Ty.«Location»
  isA := [Ty.«Location», Ty.«Object»]
  rules := Location.rules
  writes := Location.writes
  reads := [(chars! "id", .str), (chars! "targetId", .str)]
  sets := [chars! "id", chars! "targetId"]

/-- region.h 138-229: class `Lod`; attributes object.cc 53-60, object.cc 62-72. -/
def «Lod».cls : Class where
  ty := Ty.«Lod»
  isA := [Ty.«Lod», Ty.«Object»]
  rules := Lod.rules
  writes := Lod.writes
  reads := [(chars! "id", .str), (chars! "targetId", .str)]
  sets := [chars! "id", chars! "targetId"]

/-- abstractview.h 218-255: class `LookAt`; attributes object.cc 53-60, object.cc 62-72. -/
def «LookAt».cls : Class where
  ty := Ty.«LookAt»
  isA := [Ty.«LookAt», Ty.«AbstractView», Ty.«Object»]
  rules := LookAt.rules
  writes := LookAt.writes
  reads := [(chars! "id", .str), (chars! "targetId", .str)]
  sets := [chars! "id", chars! "targetId"]

/-- extendeddata.h 331-343: class `Metadata`. -/
def «Metadata».cls : Class where
  ty := Ty.«Metadata»
  isA := [Ty.«Metadata»]
  rules := []
  writes := Metadata.writes
  reads := []
  sets := []

/-- geometry.h 980-1055: class `Model`; attributes object.cc 53-60, object.cc 62-72. -/
def «Model».cls : Class where
  ty := Ty.«Model»
  isA := [Ty.«Model», Ty.«Geometry», Ty.«Object»]
  rules := Model.rules
  writes := Model.writes
  reads := [(chars! "id", .str), (chars! "targetId", .str)]
  sets := [chars! "id", chars! "targetId"]

/-- geometry.h 485-517: class `MultiGeometry`; attributes object.cc 53-60, object.cc 62-72. -/
def «MultiGeometry».cls : Class where
  ty := Ty.«MultiGeometry»
  isA := [Ty.«MultiGeometry», Ty.«Geometry», Ty.«Object»]
  rules := MultiGeometry.rules
  writes := MultiGeometry.writes
  reads := [(chars! "id", .str), (chars! "targetId", .str)]
  sets := [chars! "id", chars! "targetId"]

/-- networklink.h 43-103: class `NetworkLink`; attributes object.cc 53-60, object.cc 62-72. -/
def «NetworkLink».cls : Class where
  ty := Ty.«NetworkLink»
  isA := [Ty.«NetworkLink», Ty.«Feature», Ty.«Object»]
  rules := NetworkLink.rules
  writes := NetworkLink.writes
  reads := [(chars! "id", .str), (chars! "targetId", .str)]
  sets := [chars! "id", chars! "targetId"]

/-- networklinkcontrol.h 221-368: class `NetworkLinkControl`. -/
def «NetworkLinkControl».cls : Class where
  ty := Ty.«NetworkLinkControl»
  isA := [Ty.«NetworkLinkControl»]
  rules := NetworkLinkControl.rules
  writes := NetworkLinkControl.writes
  reads := []
  sets := []

/-- geometry.h 736-809: class `Orientation`; attributes object.cc 53-60, object.cc 62-72. -/
def «Orientation».cls : Class where
  ty := Ty.«Orientation»
  isA := [Ty.«Orientation», Ty.«Object»]
  rules := Orientation.rules
  writes := Orientation.writes
  reads := [(chars! "id", .str), (chars! "targetId", .str)]
  sets := [chars! "id", chars! "targetId"]

/-- stylemap.h 44-111: class `Pair`; attributes object.cc 53-60, object.cc 62-72. -/
def «Pair».cls : Class where
  ty := Ty.«Pair»
  isA := [Ty.«Pair», Ty.«Object»]
  rules := Pair.rules
  writes := Pair.writes
  reads := [(chars! "id", .str), (chars! "targetId", .str)]
  sets := [chars! "id", chars! "targetId"]

/-- overlay.h 663-752: class `PhotoOverlay`; attributes object.cc 53-60, object.cc 62-72. -/
def «PhotoOverlay».cls : Class where
  ty := Ty.«PhotoOverlay»
  isA := [Ty.«PhotoOverlay», Ty.«Overlay», Ty.«Feature», Ty.«Object»]
  rules := PhotoOverlay.rules
  writes := PhotoOverlay.writes
  reads := [(chars! "id", .str), (chars! "targetId", .str)]
  sets := [chars! "id", chars! "targetId"]

/-- placemark.h 40-70: class `Placemark`; attributes object.cc 53-60, object.cc 62-72. -/
def «Placemark».cls : Class where
  ty := Ty.«Placemark»
  isA := [Ty.«Placemark», Ty.«Feature», Ty.«Object»]
  rules := Placemark.rules
  writes := Placemark.writes
  reads := [(chars! "id", .str), (chars! "targetId", .str)]
  sets := [chars! "id", chars! "targetId"]

/-- polystyle.h 38-93: class `PolyStyle`; attributes object.cc 53-60, object.cc 62-72. -/
def «PolyStyle».cls : Class where
  ty := Ty.«PolyStyle»
  isA := [Ty.«PolyStyle», Ty.«ColorStyle», Ty.«SubStyle», Ty.«Object»]
  rules := PolyStyle.rules
  writes := PolyStyle.writes
  reads := [(chars! "id", .str), (chars! "targetId", .str)]
  sets := [chars! "id", chars! "targetId"]

/-- geometry.h 263-280: class `Point`; attributes object.cc 53-60, object.cc 62-72. -/
def «Point».cls : Class where
  ty := Ty.«Point»
  isA := [Ty.«Point», Ty.«Geometry», Ty.«Object»]
  rules := CoordinatesGeometryCommon.rules
  writes := Point.writes
  reads := [(chars! "id", .str), (chars! "targetId", .str)]
  sets := [chars! "id", chars! "targetId"]

/-- geometry.h 418-482: class `Polygon`; attributes object.cc 53-60, object.cc 62-72. -/
def «Polygon».cls : Class where
  ty := Ty.«Polygon»
  isA := [Ty.«Polygon», Ty.«Geometry», Ty.«Object»]
  rules := Polygon.rules
  writes := Polygon.writes
  reads := [(chars! "id", .str), (chars! "targetId", .str)]
  sets := [chars! "id", chars! "targetId"]

/-- region.h 232-274: class `Region`; attributes object.cc 53-60, object.cc 62-72. -/
def «Region».cls : Class where
  ty := Ty.«Region»
  isA := [Ty.«Region», Ty.«Object»]
  rules := Region.rules
  writes := Region.writes
  reads := [(chars! "id", .str), (chars! "targetId", .str)]
  sets := [chars! "id", chars! "targetId"]

/-- geometry.h 946-977: class `ResourceMap`; attributes object.cc 53-60, object.cc 62-72. -/
def «ResourceMap».cls : Class where
  ty := Ty.«ResourceMap»
  isA := [Ty.«ResourceMap», Ty.«Object»]
  rules := ResourceMap.rules
  writes := ResourceMap.writes
  reads := [(chars! "id", .str), (chars! "targetId", .str)]
  sets := [chars! "id", chars! "targetId"]

/-- geometry.h 812-885: class `Scale`; attributes object.cc 53-60, object.cc 62-72. -/
def «Scale».cls : Class where
  ty := Ty.«Scale»
  isA := [Ty.«Scale», Ty.«Object»]
  rules := Scale.rules
  writes := Scale.writes
  reads := [(chars! "id", .str), (chars! "targetId", .str)]
  sets := [chars! "id", chars! "targetId"]

/-- schema.h 127-190: class `Schema`; attributes schema.cc 112-118, object.cc 53-60, schema.cc 120-125, object.cc 62-72. -/
def «Schema».cls : Class where
  ty := Ty.«Schema»
  isA := [Ty.«Schema», Ty.«Object»]
  rules := Schema.rules
  writes := Schema.writes
  reads := [(chars! "name", .str), (chars! "id", .str), (chars! "targetId", .str)]
  sets := [chars! "id", chars! "targetId", chars! "name"]

/-- extendeddata.h 145-211: class `SchemaData`; attributes extendeddata.cc 151-157, object.cc 53-60, extendeddata.cc 159-164, object.cc 62-72. -/
def «SchemaData».cls : Class where
  ty := Ty.«SchemaData»
  isA := [Ty.«SchemaData», Ty.«Object»]
  rules := SchemaData.rules
  writes := SchemaData.writes
  reads := [(chars! "schemaUrl", .str), (chars! "id", .str), (chars! "targetId", .str)]
  sets := [chars! "id", chars! "targetId", chars! "schemaUrl"]

/-- overlay.h 372-454: class `ScreenOverlay`; attributes object.cc 53-60, object.cc 62-72. -/
def «ScreenOverlay».cls : Class where
  ty := Ty.«ScreenOverlay»
  isA := [Ty.«ScreenOverlay», Ty.«Overlay», Ty.«Feature», Ty.«Object»]
  rules := ScreenOverlay.rules
  writes := ScreenOverlay.writes
  reads := [(chars! "id", .str), (chars! "targetId", .str)]
  sets := [chars! "id", chars! "targetId"]

/-- extendeddata.h 49-94: class `SimpleData`; attributes extendeddata.cc 52-58, extendeddata.cc 60-65. -/
def «SimpleData».cls : Class where
  ty := Ty.«SimpleData»
  isA := [Ty.«SimpleData»]
  rules := SimpleData.rules
  writes := SimpleData.writes
  reads := [(chars! "name", .str)]
  sets := [chars! "name"]

/-- schema.h 45-103: class `SimpleField`; attributes schema.cc 51-58, schema.cc 60-68. -/
def «SimpleField».cls : Class where
  ty := Ty.«SimpleField»
  isA := [Ty.«SimpleField»]
  rules := SimpleField.rules
  writes := SimpleField.writes
  reads := [(chars! "type", .str), (chars! "name", .str)]
  sets := [chars! "type", chars! "name"]

/-- snippet.h 91-106: class `Snippet`; attributes snippet.cc 47-53, snippet.cc 55-60. -/
def «Snippet».cls : Class where
  ty := Ty.«Snippet»
  isA := [Ty.«Snippet»]
  rules := SnippetCommon.rules
  writes := SnippetCommon.writes
  reads := [(chars! "maxLines", (.int (chars! "2")))]
  sets := [chars! "maxLines"]

/-- style.h 45-131: class `Style`; attributes object.cc 53-60, object.cc 62-72. -/
def «Style».cls : Class where
  ty := Ty.«Style»
  isA := [Ty.«Style», Ty.«StyleSelector», Ty.«Object»]
  rules := Style.rules
  writes := Style.writes
  reads := [(chars! "id", .str), (chars! "targetId", .str)]
  sets := [chars! "id", chars! "targetId"]

/-- stylemap.h 114-147: class `StyleMap`; attributes object.cc 53-60, object.cc 62-72. -/
def «StyleMap».cls : Class where
  ty := Ty.«StyleMap»
  isA := [Ty.«StyleMap», Ty.«StyleSelector», Ty.«Object»]
  rules := StyleMap.rules
  writes := StyleMap.writes
  reads := [(chars! "id", .str), (chars! "targetId", .str)]
  sets := [chars! "id", chars! "targetId"]

/-- timeprimitive.h 62-111: class `TimeSpan`; attributes object.cc 53-60, object.cc 62-72. -/
def «TimeSpan».cls : Class where
  ty := Ty.«TimeSpan»
  isA := [Ty.«TimeSpan», Ty.«TimePrimitive», Ty.«Object»]
  rules := TimeSpan.rules
  writes := TimeSpan.writes
  reads := [(chars! "id", .str), (chars! "targetId", .str)]
  sets := [chars! "id", chars! "targetId"]

/-- timeprimitive.h 114-149: class `TimeStamp`; attributes object.cc 53-60, object.cc 62-72. -/
def «TimeStamp».cls : Class where
  ty := Ty.«TimeStamp»
  isA := [Ty.«TimeStamp», Ty.«TimePrimitive», Ty.«Object»]
  rules := TimeStamp.rules
  writes := TimeStamp.writes
  reads := [(chars! "id", .str), (chars! "targetId", .str)]
  sets := [chars! "id", chars! "targetId"]

/-- overlay.h 457-566: class `ViewVolume`; attributes object.cc 53-60, object.cc 62-72. -/
def «ViewVolume».cls : Class where
  ty := Ty.«ViewVolume»
  isA := [Ty.«ViewVolume», Ty.«Object»]
  rules := ViewVolume.rules
  writes := ViewVolume.writes
  reads := [(chars! "id", .str), (chars! "targetId", .str)]
  sets := [chars! "id", chars! "targetId"]

/-- networklinkcontrol.h 173-218: class `Update`. -/
def «Update».cls : Class where
  ty := Ty.«Update»
  isA := [Ty.«Update»]
  rules := Update.rules
  writes := Update.writes
  reads := []
  sets := []

/-- link.h 260-275: class `Url`; attributes object.cc 53-60, object.cc 62-72. -/
def «Url».cls : Class where
  ty := Ty.«Url»
  isA := [Ty.«Url», Ty.«BasicLink», Ty.«Object»]
  rules := AbstractLink.rules
  writes := AbstractLink.writes
  reads := [(chars! "id", .str), (chars! "targetId", .str)]
  sets := [chars! "id", chars! "targetId"]

/-- geometry.h 91-139: class `Coordinates`. -/
def «Coordinates».cls : Class where
  ty := Ty.«coordinates»
  isA := [Ty.«coordinates»]
  rules := Coordinates.rules
  writes := Coordinates.writes
  reads := []
  sets := []

/-- hotspot.h 38-50: class `HotSpot`; attributes vec2.cc 73-82, vec2.cc 84-100. -/
def «HotSpot».cls : Class where
  ty := Ty.«hotSpot»
  isA := [Ty.«hotSpot», Ty.«Vec2»]
  rules := []
  writes := Vec2.writes
  reads := [(chars! "x", (.dbl (chars! "1"))), (chars! "y", (.dbl (chars! "1"))), (chars! "xunits", .units), (chars! "yunits", .units)]
  sets := [chars! "x", chars! "y", chars! "xunits", chars! "yunits"]

/-- geometry.h 400-415: class `InnerBoundaryIs`. -/
def «InnerBoundaryIs».cls : Class where
  ty := Ty.«innerBoundaryIs»
  isA := [Ty.«innerBoundaryIs»]
  rules := BoundaryCommon.rules
  writes := BoundaryCommon.writes
  reads := []
  sets := []

/-- kml.h 46-99: class `Kml`; attributes kml.cc 45-51, kml.cc 53-58. -/
def «Kml».cls : Class where
  ty := Ty.«kml»
  isA := [Ty.«kml»]
  rules := Kml.rules
  writes := Kml.writes
  reads := [(chars! "hint", .str)]
  sets := [chars! "hint"]

/-- snippet.h 109-124: class `LinkSnippet`; attributes snippet.cc 47-53, snippet.cc 55-60. -/
def «LinkSnippet».cls : Class where
  ty := Ty.«linkSnippet»
  isA := [Ty.«linkSnippet»]
  rules := SnippetCommon.rules
  writes := SnippetCommon.writes
  reads := [(chars! "maxLines", (.int (chars! "2")))]
  sets := [chars! "maxLines"]

/-- overlay.h 300-315: class `OverlayXY`; attributes vec2.cc 73-82, vec2.cc 84-100. -/
def «OverlayXY».cls : Class where
  ty := Ty.«overlayXY»
  isA := [Ty.«overlayXY», Ty.«Vec2»]
  rules := []
  writes := Vec2.writes
  reads := [(chars! "x", (.dbl (chars! "1"))), (chars! "y", (.dbl (chars! "1"))), (chars! "xunits", .units), (chars! "yunits", .units)]
  sets := [chars! "x", chars! "y", chars! "xunits", chars! "yunits"]

/-- geometry.h 382-397: class `OuterBoundaryIs`. -/
def «OuterBoundaryIs».cls : Class where
  ty := Ty.«outerBoundaryIs»
  isA := [Ty.«outerBoundaryIs»]
  rules := BoundaryCommon.rules
  writes := BoundaryCommon.writes
  reads := []
  sets := []

/-- overlay.h 336-351: class `RotationXY`; attributes vec2.cc 73-82, vec2.cc 84-100. -/
def «RotationXY».cls : Class where
  ty := Ty.«rotationXY»
  isA := [Ty.«rotationXY», Ty.«Vec2»]
  rules := []
  writes := Vec2.writes
  reads := [(chars! "x", (.dbl (chars! "1"))), (chars! "y", (.dbl (chars! "1"))), (chars! "xunits", .units), (chars! "yunits", .units)]
  sets := [chars! "x", chars! "y", chars! "xunits", chars! "yunits"]

/-- overlay.h 318-333: class `ScreenXY`; attributes vec2.cc 73-82, vec2.cc 84-100. -/
def «ScreenXY».cls : Class where
  ty := Ty.«screenXY»
  isA := [Ty.«screenXY», Ty.«Vec2»]
  rules := []
  writes := Vec2.writes
  reads := [(chars! "x", (.dbl (chars! "1"))), (chars! "y", (.dbl (chars! "1"))), (chars! "xunits", .units), (chars! "yunits", .units)]
  sets := [chars! "x", chars! "y", chars! "xunits", chars! "yunits"]

/-- overlay.h 354-369: class `Size`; attributes vec2.cc 73-82, vec2.cc 84-100. -/
def «Size».cls : Class where
  ty := Ty.«size»
  isA := [Ty.«size», Ty.«Vec2»]
  rules := []
  writes := Vec2.writes
  reads := [(chars! "x", (.dbl (chars! "1"))), (chars! "y", (.dbl (chars! "1"))), (chars! "xunits", .units), (chars! "yunits", .units)]
  sets := [chars! "x", chars! "y", chars! "xunits", chars! "yunits"]

/-- xal.h 60-80: class `XalAddressDetails`. -/
def «XalAddressDetails».cls : Class where
  ty := Ty.«XalAddressDetails»
  isA := [Ty.«XalAddressDetails»]
  rules := XalAddressDetails.rules
  writes := XalAddressDetails.writes
  reads := []
  sets := []

/-- xal.h 83-135: class `XalAdministrativeArea`. -/
def «XalAdministrativeArea».cls : Class where
  ty := Ty.«XalAdministrativeArea»
  isA := [Ty.«XalAdministrativeArea»]
  rules := XalAdministrativeArea.rules
  writes := XalAdministrativeArea.writes
  reads := []
  sets := []

/-- xal.h 138-176: class `XalCountry`. -/
def «XalCountry».cls : Class where
  ty := Ty.«XalCountry»
  isA := [Ty.«XalCountry»]
  rules := XalCountry.rules
  writes := XalCountry.writes
  reads := []
  sets := []

/-- xal.h 179-226: class `XalLocality`. -/
def «XalLocality».cls : Class where
  ty := Ty.«XalLocality»
  isA := [Ty.«XalLocality»]
  rules := XalLocality.rules
  writes := XalLocality.writes
  reads := []
  sets := []

/-- xal.h 229-258: class `XalPostalCode`. -/
def «XalPostalCode».cls : Class where
  ty := Ty.«XalPostalCode»
  isA := [Ty.«XalPostalCode»]
  rules := XalPostalCode.rules
  writes := XalPostalCode.writes
  reads := []
  sets := []

/-- xal.h 261-300: class `XalSubAdministrativeArea`. -/
def «XalSubAdministrativeArea».cls : Class where
  ty := Ty.«XalSubAdministrativeArea»
  isA := [Ty.«XalSubAdministrativeArea»]
  rules := XalSubAdministrativeArea.rules
  writes := XalSubAdministrativeArea.writes
  reads := []
  sets := []

/-- xal.h 303-350: class `XalThoroughfare`. -/
def «XalThoroughfare».cls : Class where
  ty := Ty.«XalThoroughfare»
  isA := [Ty.«XalThoroughfare»]
  rules := XalThoroughfare.rules
  writes := XalThoroughfare.writes
  reads := []
  sets := []

/-- gx_tour.h 173-207: class `GxAnimatedUpdate`; attributes object.cc 53-60, object.cc 62-72. -/
def «GxAnimatedUpdate».cls : Class where
  ty := Ty.«GxAnimatedUpdate»
  isA := [Ty.«GxAnimatedUpdate», Ty.«GxTourPrimitive», Ty.«Object»]
  rules := GxAnimatedUpdate.rules
  writes := GxAnimatedUpdate.writes
  reads := [(chars! "id", .str), (chars! "targetId", .str)]
  sets := [chars! "id", chars! "targetId"]

/-- gx_tour.h 210-258: class `GxFlyTo`; attributes object.cc 53-60, object.cc 62-72. -/
def «GxFlyTo».cls : Class where
  ty := Ty.«GxFlyTo»
  isA := [Ty.«GxFlyTo», Ty.«GxTourPrimitive», Ty.«Object»]
  rules := GxFlyTo.rules
  writes := GxFlyTo.writes
  reads := [(chars! "id", .str), (chars! "targetId", .str)]
  sets := [chars! "id", chars! "targetId"]

/-- overlay.h 164-196: class `GxLatLonQuad`; attributes object.cc 53-60, object.cc 62-72. -/
def «GxLatLonQuad».cls : Class where
  ty := Ty.«GxLatLonQuad»
  isA := [Ty.«GxLatLonQuad», Ty.«Object»]
  rules := GxLatLonQuad.rules
  writes := GxLatLonQuad.writes
  reads := [(chars! "id", .str), (chars! "targetId", .str)]
  sets := [chars! "id", chars! "targetId"]

/-- geometry.h 604-649: class `GxMultiTrack`; attributes object.cc 53-60, object.cc 62-72. -/
def «GxMultiTrack».cls : Class where
  ty := Ty.«GxMultiTrack»
  isA := [Ty.«GxMultiTrack», Ty.«Geometry», Ty.«Object»]
  rules := GxMultiTrack.rules
  writes := GxMultiTrack.writes
  reads := [(chars! "id", .str), (chars! "targetId", .str)]
  sets := [chars! "id", chars! "targetId"]

/-- gx_tour.h 87-116: class `GxPlaylist`; attributes object.cc 53-60, object.cc 62-72. -/
def «GxPlaylist».cls : Class where
  ty := Ty.«GxPlaylist»
  isA := [Ty.«GxPlaylist», Ty.«Object»]
  rules := GxPlaylist.rules
  writes := GxPlaylist.writes
  reads := [(chars! "id", .str), (chars! "targetId", .str)]
  sets := [chars! "id", chars! "targetId"]

/-- extendeddata.h 97-142: class `GxSimpleArrayData`; attributes extendeddata.cc 101-107, extendeddata.cc 109-114. -/
def «GxSimpleArrayData».cls : Class where
  ty := Ty.«GxSimpleArrayData»
  isA := [Ty.«GxSimpleArrayData»]
  rules := GxSimpleArrayData.rules
  writes := GxSimpleArrayData.writes
  reads := [(chars! "name", .str)]
  sets := [chars! "name"]

/-- schema.h 106-122: class `GxSimpleArrayField`; attributes schema.cc 51-58, schema.cc 60-68. -/
def «GxSimpleArrayField».cls : Class where
  ty := Ty.«GxSimpleArrayField»
  isA := [Ty.«GxSimpleArrayField», Ty.«SimpleField»]
  rules := SimpleField.rules
  writes := SimpleField.writes
  reads := [(chars! "type", .str), (chars! "name", .str)]
  sets := [chars! "type", chars! "name"]

/-- gx_tour.h 284-324: class `GxSoundCue`; attributes object.cc 53-60, object.cc 62-72. -/
def «GxSoundCue».cls : Class where
  ty := Ty.«GxSoundCue»
  isA := [Ty.«GxSoundCue», Ty.«GxTourPrimitive», Ty.«Object»]
  rules := GxSoundCue.rules
  writes := GxSoundCue.writes
  reads := [(chars! "id", .str), (chars! "targetId", .str)]
  sets := [chars! "id", chars! "targetId"]

/-- gx_timeprimitive.h 44-62: class `GxTimeSpan`; attributes object.cc 53-60, object.cc 62-72. -/
def «GxTimeSpan».cls : Class where
  ty := Ty.«GxTimeSpan»
  isA := [Ty.«GxTimeSpan», Ty.«TimeSpan», Ty.«TimePrimitive», Ty.«Object»]
  rules := TimeSpan.rules
  writes := TimeSpan.writes
  reads := [(chars! "id", .str), (chars! "targetId", .str)]
  sets := [chars! "id", chars! "targetId"]

/-- gx_timeprimitive.h 65-83: class `GxTimeStamp`; attributes object.cc 53-60, object.cc 62-72. -/
def «GxTimeStamp».cls : Class where
  ty := Ty.«GxTimeStamp»
  isA := [Ty.«GxTimeStamp», Ty.«TimeStamp», Ty.«TimePrimitive», Ty.«Object»]
  rules := TimeStamp.rules
  writes := TimeStamp.writes
  reads := [(chars! "id", .str), (chars! "targetId", .str)]
  sets := [chars! "id", chars! "targetId"]

/-- gx_tour.h 50-84: class `GxTour`; attributes object.cc 53-60, object.cc 62-72. -/
def «GxTour».cls : Class where
  ty := Ty.«GxTour»
  isA := [Ty.«GxTour», Ty.«Feature», Ty.«Object»]
  rules := GxTour.rules
  writes := GxTour.writes
  reads := [(chars! "id", .str), (chars! "targetId", .str)]
  sets := [chars! "id", chars! "targetId"]

/-- gx_tour.h 327-367: class `GxTourControl`; attributes object.cc 53-60, object.cc 62-72. -/
def «GxTourControl».cls : Class where
  ty := Ty.«GxTourControl»
  isA := [Ty.«GxTourControl», Ty.«GxTourPrimitive», Ty.«Object»]
  rules := GxTourControl.rules
  writes := GxTourControl.writes
  reads := [(chars! "id", .str), (chars! "targetId", .str)]
  sets := [chars! "id", chars! "targetId"]

/-- geometry.h 520-601: class `GxTrack`; attributes object.cc 53-60, object.cc 62-72. -/
def «GxTrack».cls : Class where
  ty := Ty.«GxTrack»
  isA := [Ty.«GxTrack», Ty.«Geometry», Ty.«Object»]
  rules := GxTrack.rules
  writes := GxTrack.writes
  reads := [(chars! "id", .str), (chars! "targetId", .str)]
  sets := [chars! "id", chars! "targetId"]

/-- gx_tour.h 261-281: class `GxWait`; attributes object.cc 53-60, object.cc 62-72. -/
def «GxWait».cls : Class where
  ty := Ty.«GxWait»
  isA := [Ty.«GxWait», Ty.«GxTourPrimitive», Ty.«Object»]
  rules := GxTourPrimitiveCommon.rules
  writes := GxWait.writes
  reads := [(chars! "id", .str), (chars! "targetId", .str)]
  sets := [chars! "id", chars! "targetId"]

/-- kml_factory.cc 46-138: `KmlFactory::CreateElementById`: the types it creates. -/
def classes : List (Ty × Class) :=
  [(Ty.«Alias», «Alias».cls),
   (Ty.«AtomAuthor», «AtomAuthor».cls),
   (Ty.«AtomCategory», «AtomCategory».cls),
   (Ty.«AtomContent», «AtomContent».cls),
   (Ty.«AtomEntry», «AtomEntry».cls),
   (Ty.«AtomFeed», «AtomFeed».cls),
   (Ty.«AtomLink», «AtomLink».cls),
   (Ty.«BalloonStyle», «BalloonStyle».cls),
   (Ty.«Camera», «Camera».cls),
   (Ty.«Change», «Change».cls),
   (Ty.«Create», «Create».cls),
   (Ty.«Data», «Data».cls),
   (Ty.«Delete», «Delete».cls),
   (Ty.«Document», «Document».cls),
   (Ty.«ExtendedData», «ExtendedData».cls),
   (Ty.«Folder», «Folder».cls),
   (Ty.«GroundOverlay», «GroundOverlay».cls),
   (Ty.«Icon», «Icon».cls),
   (Ty.«IconStyle», «IconStyle».cls),
   (Ty.«IconStyleIcon», «IconStyleIcon».cls),
   (Ty.«ImagePyramid», «ImagePyramid».cls),
   (Ty.«ItemIcon», «ItemIcon».cls),
   (Ty.«LabelStyle», «LabelStyle».cls),
   (Ty.«LatLonBox», «LatLonBox».cls),
   (Ty.«LatLonAltBox», «LatLonAltBox».cls),
   (Ty.«LinearRing», «LinearRing».cls),
   (Ty.«LineString», «LineString».cls),
   (Ty.«LineStyle», «LineStyle».cls),
   (Ty.«Link», «Link».cls),
   (Ty.«ListStyle», «ListStyle».cls),
   (Ty.«Location», «Location».cls),
   (Ty.«Lod», «Lod».cls),
   (Ty.«LookAt», «LookAt».cls),
   (Ty.«Metadata», «Metadata».cls),
   (Ty.«Model», «Model».cls),
   (Ty.«MultiGeometry», «MultiGeometry».cls),
   (Ty.«NetworkLink», «NetworkLink».cls),
   (Ty.«NetworkLinkControl», «NetworkLinkControl».cls),
   (Ty.«Orientation», «Orientation».cls),
   (Ty.«Pair», «Pair».cls),
   (Ty.«PhotoOverlay», «PhotoOverlay».cls),
   (Ty.«Placemark», «Placemark».cls),
   (Ty.«PolyStyle», «PolyStyle».cls),
   (Ty.«Point», «Point».cls),
   (Ty.«Polygon», «Polygon».cls),
   (Ty.«Region», «Region».cls),
   (Ty.«ResourceMap», «ResourceMap».cls),
   (Ty.«Scale», «Scale».cls),
   (Ty.«Schema», «Schema».cls),
   (Ty.«SchemaData», «SchemaData».cls),
   (Ty.«ScreenOverlay», «ScreenOverlay».cls),
   (Ty.«SimpleData», «SimpleData».cls),
   (Ty.«SimpleField», «SimpleField».cls),
   (Ty.«Snippet», «Snippet».cls),
   (Ty.«Style», «Style».cls),
   (Ty.«StyleMap», «StyleMap».cls),
   (Ty.«TimeSpan», «TimeSpan».cls),
   (Ty.«TimeStamp», «TimeStamp».cls),
   (Ty.«ViewVolume», «ViewVolume».cls),
   (Ty.«Update», «Update».cls),
   (Ty.«Url», «Url».cls),
   (Ty.«coordinates», «Coordinates».cls),
   (Ty.«hotSpot», «HotSpot».cls),
   (Ty.«innerBoundaryIs», «InnerBoundaryIs».cls),
   (Ty.«kml», «Kml».cls),
   (Ty.«linkSnippet», «LinkSnippet».cls),
   (Ty.«overlayXY», «OverlayXY».cls),
   (Ty.«outerBoundaryIs», «OuterBoundaryIs».cls),
   (Ty.«rotationXY», «RotationXY».cls),
   (Ty.«screenXY», «ScreenXY».cls),
   (Ty.«size», «Size».cls),
   (Ty.«XalAddressDetails», «XalAddressDetails».cls),
   (Ty.«XalAdministrativeArea», «XalAdministrativeArea».cls),
   (Ty.«XalCountry», «XalCountry».cls),
   (Ty.«XalLocality», «XalLocality».cls),
   (Ty.«XalPostalCode», «XalPostalCode».cls),
   (Ty.«XalSubAdministrativeArea», «XalSubAdministrativeArea».cls),
   (Ty.«XalThoroughfare», «XalThoroughfare».cls),
   (Ty.«GxAnimatedUpdate», «GxAnimatedUpdate».cls),
   (Ty.«GxFlyTo», «GxFlyTo».cls),
   (Ty.«GxLatLonQuad», «GxLatLonQuad».cls),
   (Ty.«GxMultiTrack», «GxMultiTrack».cls),
   (Ty.«GxPlaylist», «GxPlaylist».cls),
   (Ty.«GxSimpleArrayData», «GxSimpleArrayData».cls),
   (Ty.«GxSimpleArrayField», «GxSimpleArrayField».cls),
   (Ty.«GxSoundCue», «GxSoundCue».cls),
   (Ty.«GxTimeSpan», «GxTimeSpan».cls),
   (Ty.«GxTimeStamp», «GxTimeStamp».cls),
   (Ty.«GxTour», «GxTour».cls),
   (Ty.«GxTourControl», «GxTourControl».cls),
   (Ty.«GxTrack», «GxTrack».cls),
   (Ty.«GxWait», «GxWait».cls)]

end Kml.Dom
