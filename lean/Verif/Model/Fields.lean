import Verif.Model.Lit
/-! Model of the accessors of the element classes: `get_x`, `has_x`, `set_x`, `clear_x` of `src/kml/dom/*.h` and the
constructors of `src/kml/dom/*.cc`.  The accessors of children that are arrays are not here. -/
namespace Kml.Fields
open Kml

/-- The values of members: numbers with one decimal (the constants of the code have at most one; values that are set may be any
text), integers and enumerations by their values (kml22.h 526-605), `Color32`, strings, and pointers to children. -/
inductive Val where
  | tenths (n : Int)
  | int (n : Int)
  | bool (b : Bool)
  | color (abgr : Nat)
  | str (s : Str)
  | number (text : Str)
  | null
  | child (object : Nat)
  | uninitialised
deriving DecidableEq

/-- The accessors of one field of one class, by the members they name.

`simple`: `get_` returns the first member and `has_` the second; `set_` writes its argument to the third and true to the fourth;
`clear_` writes the constant to the fifth and false to the sixth; the constructor writes the first constant to the member that
`get_` returns and false to the one that `has_` returns (each member is initialised by its own name).

`child`: `get_` returns the first member, `has_` compares the second with NULL, `set_` calls `SetComplexChild` on the third and
`clear_` writes NULL to the fourth. -/
inductive Field where
  | simple (cls name get has setVal setHas clearVal clearHas : Str) (init clear : Val)
  | child (cls name get has set clear : Str)
deriving DecidableEq

/-- All fields with the four accessors. -/
def fields : List Field := [
  -- abstractlatlonbox.h 48-61; abstractlatlonbox.cc 33-36
  .simple (chars! "AbstractLatLonBox") (chars! "north") (chars! "north_") (chars! "has_north_") (chars! "north_") (chars! "has_north_") (chars! "north_") (chars! "has_north_") (.tenths 1800) (.tenths 1800),
  -- abstractlatlonbox.h 64-77; abstractlatlonbox.cc 33-36
  .simple (chars! "AbstractLatLonBox") (chars! "south") (chars! "south_") (chars! "has_south_") (chars! "south_") (chars! "has_south_") (chars! "south_") (chars! "has_south_") (.tenths (-1800)) (.tenths (-1800)),
  -- abstractlatlonbox.h 80-93; abstractlatlonbox.cc 33-36
  .simple (chars! "AbstractLatLonBox") (chars! "east") (chars! "east_") (chars! "has_east_") (chars! "east_") (chars! "has_east_") (chars! "east_") (chars! "has_east_") (.tenths 1800) (.tenths 1800),
  -- abstractlatlonbox.h 96-109; abstractlatlonbox.cc 33-36
  .simple (chars! "AbstractLatLonBox") (chars! "west") (chars! "west_") (chars! "has_west_") (chars! "west_") (chars! "has_west_") (chars! "west_") (chars! "has_west_") (.tenths (-1800)) (.tenths (-1800)),
  -- abstractview.h 48-57
  .child (chars! "AbstractView") (chars! "gx_timeprimitive") (chars! "gx_timeprimitive_") (chars! "gx_timeprimitive_") (chars! "gx_timeprimitive_") (chars! "gx_timeprimitive_"),
  -- abstractview.h 78-91; abstractview.cc 63-78
  .simple (chars! "AbstractViewCommon") (chars! "longitude") (chars! "longitude_") (chars! "has_longitude_") (chars! "longitude_") (chars! "has_longitude_") (chars! "longitude_") (chars! "has_longitude_") (.tenths 0) (.tenths 0),
  -- abstractview.h 94-107; abstractview.cc 63-78
  .simple (chars! "AbstractViewCommon") (chars! "latitude") (chars! "latitude_") (chars! "has_latitude_") (chars! "latitude_") (chars! "has_latitude_") (chars! "latitude_") (chars! "has_latitude_") (.tenths 0) (.tenths 0),
  -- abstractview.h 110-123; abstractview.cc 63-78
  .simple (chars! "AbstractViewCommon") (chars! "altitude") (chars! "altitude_") (chars! "has_altitude_") (chars! "altitude_") (chars! "has_altitude_") (chars! "altitude_") (chars! "has_altitude_") (.tenths 0) (.tenths 0),
  -- abstractview.h 126-139; abstractview.cc 63-78
  .simple (chars! "AbstractViewCommon") (chars! "heading") (chars! "heading_") (chars! "has_heading_") (chars! "heading_") (chars! "has_heading_") (chars! "heading_") (chars! "has_heading_") (.tenths 0) (.tenths 0),
  -- abstractview.h 142-155; abstractview.cc 63-78
  .simple (chars! "AbstractViewCommon") (chars! "tilt") (chars! "tilt_") (chars! "has_tilt_") (chars! "tilt_") (chars! "has_tilt_") (chars! "tilt_") (chars! "has_tilt_") (.tenths 0) (.tenths 0),
  -- abstractview.h 158-171; abstractview.cc 63-78
  .simple (chars! "AbstractViewCommon") (chars! "altitudemode") (chars! "altitudemode_") (chars! "has_altitudemode_") (chars! "altitudemode_") (chars! "has_altitudemode_") (chars! "altitudemode_") (chars! "has_altitudemode_") (.int 0) (.int 0),
  -- abstractview.h 176-189; abstractview.cc 63-78
  .simple (chars! "AbstractViewCommon") (chars! "gx_altitudemode") (chars! "gx_altitudemode_") (chars! "has_gx_altitudemode_") (chars! "gx_altitudemode_") (chars! "has_gx_altitudemode_") (chars! "gx_altitudemode_") (chars! "has_gx_altitudemode_") (.int 0) (.int 0),
  -- abstractview.h 227-240; abstractview.cc 141-144
  .simple (chars! "LookAt") (chars! "range") (chars! "range_") (chars! "has_range_") (chars! "range_") (chars! "has_range_") (chars! "range_") (chars! "has_range_") (.tenths 0) (.tenths 0),
  -- abstractview.h 267-280; abstractview.cc 168-171
  .simple (chars! "Camera") (chars! "roll") (chars! "roll_") (chars! "has_roll_") (chars! "roll_") (chars! "has_roll_") (chars! "roll_") (chars! "has_roll_") (.tenths 0) (.tenths 0),
  -- atom.h 42-51; atom.cc 50-55
  .simple (chars! "AtomAuthor") (chars! "name") (chars! "name_") (chars! "has_name_") (chars! "name_") (chars! "has_name_") (chars! "name_") (chars! "has_name_") (.str []) (.str []),
  -- atom.h 54-63; atom.cc 50-55
  .simple (chars! "AtomAuthor") (chars! "uri") (chars! "uri_") (chars! "has_uri_") (chars! "uri_") (chars! "has_uri_") (chars! "uri_") (chars! "has_uri_") (.str []) (.str []),
  -- atom.h 66-75; atom.cc 50-55
  .simple (chars! "AtomAuthor") (chars! "email") (chars! "email_") (chars! "has_email_") (chars! "email_") (chars! "has_email_") (chars! "email_") (chars! "has_email_") (.str []) (.str []),
  -- atom.h 97-106; atom.cc 171-175
  .simple (chars! "AtomCommon") (chars! "id") (chars! "id_") (chars! "has_id_") (chars! "id_") (chars! "has_id_") (chars! "id_") (chars! "has_id_") (.str []) (.str []),
  -- atom.h 109-118; atom.cc 171-175
  .simple (chars! "AtomCommon") (chars! "title") (chars! "title_") (chars! "has_title_") (chars! "title_") (chars! "has_title_") (chars! "title_") (chars! "has_title_") (.str []) (.str []),
  -- atom.h 121-130; atom.cc 171-175
  .simple (chars! "AtomCommon") (chars! "updated") (chars! "updated_") (chars! "has_updated_") (chars! "updated_") (chars! "has_updated_") (chars! "updated_") (chars! "has_updated_") (.str []) (.str []),
  -- atom.h 177-186; atom.cc 96-101
  .simple (chars! "AtomCategory") (chars! "term") (chars! "term_") (chars! "has_term_") (chars! "term_") (chars! "has_term_") (chars! "term_") (chars! "has_term_") (.str []) (.str []),
  -- atom.h 189-198; atom.cc 96-101
  .simple (chars! "AtomCategory") (chars! "scheme") (chars! "scheme_") (chars! "has_scheme_") (chars! "scheme_") (chars! "has_scheme_") (chars! "scheme_") (chars! "has_scheme_") (.str []) (.str []),
  -- atom.h 201-210; atom.cc 96-101
  .simple (chars! "AtomCategory") (chars! "label") (chars! "label_") (chars! "has_label_") (chars! "label_") (chars! "has_label_") (chars! "label_") (chars! "has_label_") (.str []) (.str []),
  -- atom.h 237-246; atom.cc 139-143
  .simple (chars! "AtomContent") (chars! "src") (chars! "src_") (chars! "has_src_") (chars! "src_") (chars! "has_src_") (chars! "src_") (chars! "has_src_") (.str []) (.str []),
  -- atom.h 249-258; atom.cc 139-143
  .simple (chars! "AtomContent") (chars! "type") (chars! "type_") (chars! "has_type_") (chars! "type_") (chars! "has_type_") (chars! "type_") (chars! "has_type_") (.str []) (.str []),
  -- atom.h 290-299; atom.cc 228-231
  .simple (chars! "AtomEntry") (chars! "summary") (chars! "summary_") (chars! "has_summary_") (chars! "summary_") (chars! "has_summary_") (chars! "summary_") (chars! "has_summary_") (.str []) (.str []),
  -- atom.h 302-309
  .child (chars! "AtomEntry") (chars! "content") (chars! "content_") (chars! "content_") (chars! "content_") (chars! "content_"),
  -- atom.h 364-373; atom.cc 288-297
  .simple (chars! "AtomLink") (chars! "href") (chars! "href_") (chars! "has_href_") (chars! "href_") (chars! "has_href_") (chars! "href_") (chars! "has_href_") (.str []) (.str []),
  -- atom.h 376-385; atom.cc 288-297
  .simple (chars! "AtomLink") (chars! "rel") (chars! "rel_") (chars! "has_rel_") (chars! "rel_") (chars! "has_rel_") (chars! "rel_") (chars! "has_rel_") (.str []) (.str []),
  -- atom.h 388-397; atom.cc 288-297
  .simple (chars! "AtomLink") (chars! "type") (chars! "type_") (chars! "has_type_") (chars! "type_") (chars! "has_type_") (chars! "type_") (chars! "has_type_") (.str []) (.str []),
  -- atom.h 400-409; atom.cc 288-297
  .simple (chars! "AtomLink") (chars! "hreflang") (chars! "hreflang_") (chars! "has_hreflang_") (chars! "hreflang_") (chars! "has_hreflang_") (chars! "hreflang_") (chars! "has_hreflang_") (.str []) (.str []),
  -- atom.h 412-421; atom.cc 288-297
  .simple (chars! "AtomLink") (chars! "title") (chars! "title_") (chars! "has_title_") (chars! "title_") (chars! "has_title_") (chars! "title_") (chars! "has_title_") (.str []) (.str []),
  -- atom.h 424-433; atom.cc 288-297
  .simple (chars! "AtomLink") (chars! "length") (chars! "length_") (chars! "has_length_") (chars! "length_") (chars! "has_length_") (chars! "length_") (chars! "has_length_") (.int 0) (.int 0),
  -- balloonstyle.h 48-61; balloonstyle.cc 38-46
  .simple (chars! "BalloonStyle") (chars! "bgcolor") (chars! "bgcolor_") (chars! "has_bgcolor_") (chars! "bgcolor_") (chars! "has_bgcolor_") (chars! "bgcolor_") (chars! "has_bgcolor_") (.color 0xffffffff) (.color 0xffffffff),
  -- balloonstyle.h 64-77; balloonstyle.cc 38-46
  .simple (chars! "BalloonStyle") (chars! "textcolor") (chars! "textcolor_") (chars! "has_textcolor_") (chars! "textcolor_") (chars! "has_textcolor_") (chars! "textcolor_") (chars! "has_textcolor_") (.color 0xff000000) (.color 0xff000000),
  -- balloonstyle.h 80-93; balloonstyle.cc 38-46
  .simple (chars! "BalloonStyle") (chars! "text") (chars! "text_") (chars! "has_text_") (chars! "text_") (chars! "has_text_") (chars! "text_") (chars! "has_text_") (.str []) (.str []),
  -- balloonstyle.h 96-109; balloonstyle.cc 38-46
  .simple (chars! "BalloonStyle") (chars! "displaymode") (chars! "displaymode_") (chars! "has_displaymode_") (chars! "displaymode_") (chars! "has_displaymode_") (chars! "displaymode_") (chars! "has_displaymode_") (.int 0) (.int 0),
  -- colorstyle.h 49-62; colorstyle.cc 36-41
  .simple (chars! "ColorStyle") (chars! "color") (chars! "color_") (chars! "has_color_") (chars! "color_") (chars! "has_color_") (chars! "color_") (chars! "has_color_") (.color 0xffffffff) (.color 0xffffffff),
  -- colorstyle.h 65-78; colorstyle.cc 36-41
  .simple (chars! "ColorStyle") (chars! "colormode") (chars! "colormode_") (chars! "has_colormode_") (chars! "colormode_") (chars! "has_colormode_") (chars! "colormode_") (chars! "has_colormode_") (.int 0) (.int 0),
  -- extendeddata.h 54-63; extendeddata.cc 42-46
  .simple (chars! "SimpleData") (chars! "name") (chars! "name_") (chars! "has_name_") (chars! "name_") (chars! "has_name_") (chars! "name_") (chars! "has_name_") (.str []) (.str []),
  -- extendeddata.h 66-75; extendeddata.cc 42-46
  .simple (chars! "SimpleData") (chars! "text") (chars! "text_") (chars! "has_text_") (chars! "text_") (chars! "has_text_") (chars! "text_") (chars! "has_text_") (.str []) (.str []),
  -- extendeddata.h 102-111; extendeddata.cc 92-95
  .simple (chars! "GxSimpleArrayData") (chars! "name") (chars! "name_") (chars! "has_name_") (chars! "name_") (chars! "has_name_") (chars! "name_") (chars! "has_name_") (.str []) (.str []),
  -- extendeddata.h 155-164; extendeddata.cc 139-142
  .simple (chars! "SchemaData") (chars! "schemaurl") (chars! "schemaurl_") (chars! "has_schemaurl_") (chars! "schemaurl_") (chars! "has_schemaurl_") (chars! "schemaurl_") (chars! "has_schemaurl_") (.str []) (.str []),
  -- extendeddata.h 224-233; extendeddata.cc 201-206
  .simple (chars! "Data") (chars! "name") (chars! "name_") (chars! "has_name_") (chars! "name_") (chars! "has_name_") (chars! "name_") (chars! "has_name_") (.str []) (.str []),
  -- extendeddata.h 236-245; extendeddata.cc 201-206
  .simple (chars! "Data") (chars! "displayname") (chars! "displayname_") (chars! "has_displayname_") (chars! "displayname_") (chars! "has_displayname_") (chars! "displayname_") (chars! "has_displayname_") (.str []) (.str []),
  -- extendeddata.h 248-257; extendeddata.cc 201-206
  .simple (chars! "Data") (chars! "value") (chars! "value_") (chars! "has_value_") (chars! "value_") (chars! "has_value_") (chars! "value_") (chars! "has_value_") (.str []) (.str []),
  -- feature.h 59-68; feature.cc 34-46
  .simple (chars! "Feature") (chars! "name") (chars! "name_") (chars! "has_name_") (chars! "name_") (chars! "has_name_") (chars! "name_") (chars! "has_name_") (.str []) (.str []),
  -- feature.h 71-80; feature.cc 34-46
  .simple (chars! "Feature") (chars! "visibility") (chars! "visibility_") (chars! "has_visibility_") (chars! "visibility_") (chars! "has_visibility_") (chars! "visibility_") (chars! "has_visibility_") (.bool true) (.bool true),
  -- feature.h 83-92; feature.cc 34-46
  .simple (chars! "Feature") (chars! "open") (chars! "open_") (chars! "has_open_") (chars! "open_") (chars! "has_open_") (chars! "open_") (chars! "has_open_") (.bool false) (.bool false),
  -- feature.h 95-102
  .child (chars! "Feature") (chars! "atomauthor") (chars! "atomauthor_") (chars! "atomauthor_") (chars! "atomauthor_") (chars! "atomauthor_"),
  -- feature.h 105-112
  .child (chars! "Feature") (chars! "atomlink") (chars! "atomlink_") (chars! "atomlink_") (chars! "atomlink_") (chars! "atomlink_"),
  -- feature.h 115-124; feature.cc 34-46
  .simple (chars! "Feature") (chars! "address") (chars! "address_") (chars! "has_address_") (chars! "address_") (chars! "has_address_") (chars! "address_") (chars! "has_address_") (.str []) (.str []),
  -- feature.h 127-136
  .child (chars! "Feature") (chars! "xaladdressdetails") (chars! "xaladdressdetails_") (chars! "xaladdressdetails_") (chars! "xaladdressdetails_") (chars! "xaladdressdetails_"),
  -- feature.h 139-148; feature.cc 34-46
  .simple (chars! "Feature") (chars! "phonenumber") (chars! "phonenumber_") (chars! "has_phonenumber_") (chars! "phonenumber_") (chars! "has_phonenumber_") (chars! "phonenumber_") (chars! "has_phonenumber_") (.str []) (.str []),
  -- feature.h 152-159
  .child (chars! "Feature") (chars! "snippet") (chars! "snippet_") (chars! "snippet_") (chars! "snippet_") (chars! "snippet_"),
  -- feature.h 162-171; feature.cc 34-46
  .simple (chars! "Feature") (chars! "description") (chars! "description_") (chars! "has_description_") (chars! "description_") (chars! "has_description_") (chars! "description_") (chars! "has_description_") (.str []) (.str []),
  -- feature.h 174-181
  .child (chars! "Feature") (chars! "abstractview") (chars! "abstractview_") (chars! "abstractview_") (chars! "abstractview_") (chars! "abstractview_"),
  -- feature.h 184-191
  .child (chars! "Feature") (chars! "timeprimitive") (chars! "timeprimitive_") (chars! "timeprimitive_") (chars! "timeprimitive_") (chars! "timeprimitive_"),
  -- feature.h 194-204; feature.cc 34-46
  .simple (chars! "Feature") (chars! "styleurl") (chars! "styleurl_") (chars! "has_styleurl_") (chars! "styleurl_") (chars! "has_styleurl_") (chars! "styleurl_") (chars! "has_styleurl_") (.str []) (.str []),
  -- feature.h 207-214
  .child (chars! "Feature") (chars! "styleselector") (chars! "styleselector_") (chars! "styleselector_") (chars! "styleselector_") (chars! "styleselector_"),
  -- feature.h 217-224
  .child (chars! "Feature") (chars! "region") (chars! "region_") (chars! "region_") (chars! "region_") (chars! "region_"),
  -- feature.h 228-235
  .child (chars! "Feature") (chars! "extendeddata") (chars! "extendeddata_") (chars! "extendeddata_") (chars! "extendeddata_") (chars! "extendeddata_"),
  -- feature.h 240-249; feature.cc 34-46
  .simple (chars! "Feature") (chars! "gx_balloonvisibility") (chars! "gx_balloonvisibility_") (chars! "has_gx_balloonvisibility_") (chars! "gx_balloonvisibility_") (chars! "has_gx_balloonvisibility_") (chars! "gx_balloonvisibility_") (chars! "has_gx_balloonvisibility_") (.bool false) (.bool false),
  -- geometry.h 170-179; geometry.cc 202-207
  .simple (chars! "AltitudeGeometryCommon") (chars! "altitudemode") (chars! "altitudemode_") (chars! "has_altitudemode_") (chars! "altitudemode_") (chars! "has_altitudemode_") (chars! "altitudemode_") (chars! "has_altitudemode_") (.int 0) (.int 0),
  -- geometry.h 182-191; geometry.cc 202-207
  .simple (chars! "AltitudeGeometryCommon") (chars! "gx_altitudemode") (chars! "gx_altitudemode_") (chars! "has_gx_altitudemode_") (chars! "gx_altitudemode_") (chars! "has_gx_altitudemode_") (chars! "gx_altitudemode_") (chars! "has_gx_altitudemode_") (.int 0) (.int 0),
  -- geometry.h 210-219; geometry.cc 228-231
  .simple (chars! "ExtrudeGeometryCommon") (chars! "extrude") (chars! "extrude_") (chars! "has_extrude_") (chars! "extrude_") (chars! "has_extrude_") (chars! "extrude_") (chars! "has_extrude_") (.bool false) (.bool false),
  -- geometry.h 240-247
  .child (chars! "CoordinatesGeometryCommon") (chars! "coordinates") (chars! "coordinates_") (chars! "coordinates_") (chars! "coordinates_") (chars! "coordinates_"),
  -- geometry.h 290-299; geometry.cc 292-295
  .simple (chars! "LineCommon") (chars! "tessellate") (chars! "tessellate_") (chars! "has_tessellate_") (chars! "tessellate_") (chars! "has_tessellate_") (chars! "tessellate_") (chars! "has_tessellate_") (.bool false) (.bool false),
  -- geometry.h 357-364
  .child (chars! "BoundaryCommon") (chars! "linearring") (chars! "linearring_") (chars! "linearring_") (chars! "linearring_") (chars! "linearring_"),
  -- geometry.h 427-436; geometry.cc 389-392
  .simple (chars! "Polygon") (chars! "tessellate") (chars! "tessellate_") (chars! "has_tessellate_") (chars! "tessellate_") (chars! "has_tessellate_") (chars! "tessellate_") (chars! "has_tessellate_") (.bool false) (.bool false),
  -- geometry.h 439-448
  .child (chars! "Polygon") (chars! "outerboundaryis") (chars! "outerboundaryis_") (chars! "outerboundaryis_") (chars! "outerboundaryis_") (chars! "outerboundaryis_"),
  -- geometry.h 563-568
  .child (chars! "GxTrack") (chars! "model") (chars! "model_") (chars! "model_") (chars! "model_") (chars! "model_"),
  -- geometry.h 571-578
  .child (chars! "GxTrack") (chars! "extendeddata") (chars! "extendeddata_") (chars! "extendeddata_") (chars! "extendeddata_") (chars! "extendeddata_"),
  -- geometry.h 613-622; geometry.cc 572-575
  .simple (chars! "GxMultiTrack") (chars! "gx_interpolate") (chars! "gx_interpolate_") (chars! "has_gx_interpolate_") (chars! "gx_interpolate_") (chars! "has_gx_interpolate_") (chars! "gx_interpolate_") (chars! "has_gx_interpolate_") (.bool false) (.bool false),
  -- geometry.h 669-682; model.cc 41-45
  .simple (chars! "Location") (chars! "longitude") (chars! "longitude_") (chars! "has_longitude_") (chars! "longitude_") (chars! "has_longitude_") (chars! "longitude_") (chars! "has_longitude_") (.tenths 0) (.tenths 0),
  -- geometry.h 685-698; model.cc 41-45
  .simple (chars! "Location") (chars! "latitude") (chars! "latitude_") (chars! "has_latitude_") (chars! "latitude_") (chars! "has_latitude_") (chars! "latitude_") (chars! "has_latitude_") (.tenths 0) (.tenths 0),
  -- geometry.h 701-714; model.cc 41-45
  .simple (chars! "Location") (chars! "altitude") (chars! "altitude_") (chars! "has_altitude_") (chars! "altitude_") (chars! "has_altitude_") (chars! "altitude_") (chars! "has_altitude_") (.tenths 0) (.tenths 0),
  -- geometry.h 745-758; model.cc 87-91
  .simple (chars! "Orientation") (chars! "heading") (chars! "heading_") (chars! "has_heading_") (chars! "heading_") (chars! "has_heading_") (chars! "heading_") (chars! "has_heading_") (.tenths 0) (.tenths 0),
  -- geometry.h 761-774; model.cc 87-91
  .simple (chars! "Orientation") (chars! "tilt") (chars! "tilt_") (chars! "has_tilt_") (chars! "tilt_") (chars! "has_tilt_") (chars! "tilt_") (chars! "has_tilt_") (.tenths 0) (.tenths 0),
  -- geometry.h 777-790; model.cc 87-91
  .simple (chars! "Orientation") (chars! "roll") (chars! "roll_") (chars! "has_roll_") (chars! "roll_") (chars! "has_roll_") (chars! "roll_") (chars! "has_roll_") (.tenths 0) (.tenths 0),
  -- geometry.h 821-834; model.cc 133-137
  .simple (chars! "Scale") (chars! "x") (chars! "x_") (chars! "has_x_") (chars! "x_") (chars! "has_x_") (chars! "x_") (chars! "has_x_") (.tenths 10) (.tenths 10),
  -- geometry.h 837-850; model.cc 133-137
  .simple (chars! "Scale") (chars! "y") (chars! "y_") (chars! "has_y_") (chars! "y_") (chars! "has_y_") (chars! "y_") (chars! "has_y_") (.tenths 10) (.tenths 10),
  -- geometry.h 853-866; model.cc 133-137
  .simple (chars! "Scale") (chars! "z") (chars! "z_") (chars! "has_z_") (chars! "z_") (chars! "has_z_") (chars! "z_") (chars! "has_z_") (.tenths 10) (.tenths 10),
  -- geometry.h 897-910; model.cc 180-182
  .simple (chars! "Alias") (chars! "targethref") (chars! "targethref_") (chars! "has_targethref_") (chars! "targethref_") (chars! "has_targethref_") (chars! "targethref_") (chars! "has_targethref_") (.str []) (.str []),
  -- geometry.h 913-926; model.cc 180-182
  .simple (chars! "Alias") (chars! "sourcehref") (chars! "sourcehref_") (chars! "has_sourcehref_") (chars! "sourcehref_") (chars! "has_sourcehref_") (chars! "sourcehref_") (chars! "has_sourcehref_") (.str []) (.str []),
  -- geometry.h 989-996
  .child (chars! "Model") (chars! "location") (chars! "location_") (chars! "location_") (chars! "location_") (chars! "location_"),
  -- geometry.h 999-1006
  .child (chars! "Model") (chars! "orientation") (chars! "orientation_") (chars! "orientation_") (chars! "orientation_") (chars! "orientation_"),
  -- geometry.h 1009-1016
  .child (chars! "Model") (chars! "scale") (chars! "scale_") (chars! "scale_") (chars! "scale_") (chars! "scale_"),
  -- geometry.h 1019-1026
  .child (chars! "Model") (chars! "link") (chars! "link_") (chars! "link_") (chars! "link_") (chars! "link_"),
  -- geometry.h 1029-1036
  .child (chars! "Model") (chars! "resourcemap") (chars! "resourcemap_") (chars! "resourcemap_") (chars! "resourcemap_") (chars! "resourcemap_"),
  -- gx_tour.h 62-69
  .child (chars! "GxTour") (chars! "gx_playlist") (chars! "gx_playlist_") (chars! "gx_playlist_") (chars! "gx_playlist_") (chars! "gx_playlist_"),
  -- gx_tour.h 141-154; gx_tour.h
  .simple (chars! "GxTourPrimitiveCommon") (chars! "gx_duration") (chars! "gx_duration_") (chars! "has_gx_duration_") (chars! "gx_duration_") (chars! "has_gx_duration_") (chars! "gx_duration_") (chars! "has_gx_duration_") (.tenths 0) (.tenths 0),
  -- gx_tour.h 185-192
  .child (chars! "GxAnimatedUpdate") (chars! "update") (chars! "update_") (chars! "update_") (chars! "update_") (chars! "update_"),
  -- gx_tour.h 222-231; gx_tour.cc 179-182
  .simple (chars! "GxFlyTo") (chars! "gx_flytomode") (chars! "gx_flytomode_") (chars! "has_gx_flytomode_") (chars! "gx_flytomode_") (chars! "has_gx_flytomode_") (chars! "gx_flytomode_") (chars! "has_gx_flytomode_") (.int 0) (.int 0),
  -- gx_tour.h 234-241
  .child (chars! "GxFlyTo") (chars! "abstractview") (chars! "abstractview_") (chars! "abstractview_") (chars! "abstractview_") (chars! "abstractview_"),
  -- gx_tour.h 296-309; gx_tour.cc 242-245
  .simple (chars! "GxSoundCue") (chars! "href") (chars! "href_") (chars! "has_href_") (chars! "href_") (chars! "has_href_") (chars! "href_") (chars! "has_href_") (.str []) (.str []),
  -- gx_tour.h 339-352; gx_tour.cc 274-277
  .simple (chars! "GxTourControl") (chars! "gx_playmode") (chars! "gx_playmode_") (chars! "has_gx_playmode_") (chars! "gx_playmode_") (chars! "has_gx_playmode_") (chars! "gx_playmode_") (chars! "has_gx_playmode_") (.int 0) (.int 0),
  -- iconstyle.h 51-64; iconstyle.cc 41-46
  .simple (chars! "IconStyle") (chars! "scale") (chars! "scale_") (chars! "has_scale_") (chars! "scale_") (chars! "has_scale_") (chars! "scale_") (chars! "has_scale_") (.tenths 10) (.tenths 10),
  -- iconstyle.h 67-80; iconstyle.cc 41-46
  .simple (chars! "IconStyle") (chars! "heading") (chars! "heading_") (chars! "has_heading_") (chars! "heading_") (chars! "has_heading_") (chars! "heading_") (chars! "has_heading_") (.tenths 0) (.tenths 0),
  -- iconstyle.h 83-90
  .child (chars! "IconStyle") (chars! "icon") (chars! "icon_") (chars! "icon_") (chars! "icon_") (chars! "icon_"),
  -- iconstyle.h 93-100
  .child (chars! "IconStyle") (chars! "hotspot") (chars! "hotspot_") (chars! "hotspot_") (chars! "hotspot_") (chars! "hotspot_"),
  -- kml.h 50-59; kml.cc 36-39
  .simple (chars! "Kml") (chars! "hint") (chars! "hint_") (chars! "has_hint_") (chars! "hint_") (chars! "has_hint_") (chars! "hint_") (chars! "has_hint_") (.str []) (.str []),
  -- kml.h 61-70
  .child (chars! "Kml") (chars! "networklinkcontrol") (chars! "networklinkcontrol_") (chars! "networklinkcontrol_") (chars! "networklinkcontrol_") (chars! "networklinkcontrol_"),
  -- kml.h 72-79
  .child (chars! "Kml") (chars! "feature") (chars! "feature_") (chars! "feature_") (chars! "feature_") (chars! "feature_"),
  -- labelstyle.h 46-59; labelstyle.cc 35-38
  .simple (chars! "LabelStyle") (chars! "scale") (chars! "scale_") (chars! "has_scale_") (chars! "scale_") (chars! "has_scale_") (chars! "scale_") (chars! "has_scale_") (.tenths 10) (.tenths 10),
  -- linestyle.h 47-60; linestyle.cc 35-37
  .simple (chars! "LineStyle") (chars! "width") (chars! "width_") (chars! "has_width_") (chars! "width_") (chars! "has_width_") (chars! "width_") (chars! "has_width_") (.tenths 10) (.tenths 10),
  -- link.h 50-63; link.cc 36-38
  .simple (chars! "BasicLink") (chars! "href") (chars! "href_") (chars! "has_href_") (chars! "href_") (chars! "has_href_") (chars! "href_") (chars! "has_href_") (.str []) (.str []),
  -- link.h 87-100; link.cc 89-103
  .simple (chars! "AbstractLink") (chars! "refreshmode") (chars! "refreshmode_") (chars! "has_refreshmode_") (chars! "refreshmode_") (chars! "has_refreshmode_") (chars! "refreshmode_") (chars! "has_refreshmode_") (.int 0) (.int 0),
  -- link.h 103-116; link.cc 89-103
  .simple (chars! "AbstractLink") (chars! "refreshinterval") (chars! "refreshinterval_") (chars! "has_refreshinterval_") (chars! "refreshinterval_") (chars! "has_refreshinterval_") (chars! "refreshinterval_") (chars! "has_refreshinterval_") (.tenths 40) (.tenths 40),
  -- link.h 119-132; link.cc 89-103
  .simple (chars! "AbstractLink") (chars! "viewrefreshmode") (chars! "viewrefreshmode_") (chars! "has_viewrefreshmode_") (chars! "viewrefreshmode_") (chars! "has_viewrefreshmode_") (chars! "viewrefreshmode_") (chars! "has_viewrefreshmode_") (.int 0) (.int 0),
  -- link.h 135-148; link.cc 89-103
  .simple (chars! "AbstractLink") (chars! "viewrefreshtime") (chars! "viewrefreshtime_") (chars! "has_viewrefreshtime_") (chars! "viewrefreshtime_") (chars! "has_viewrefreshtime_") (chars! "viewrefreshtime_") (chars! "has_viewrefreshtime_") (.tenths 40) (.tenths 40),
  -- link.h 151-164; link.cc 89-103
  .simple (chars! "AbstractLink") (chars! "viewboundscale") (chars! "viewboundscale_") (chars! "has_viewboundscale_") (chars! "viewboundscale_") (chars! "has_viewboundscale_") (chars! "viewboundscale_") (chars! "has_viewboundscale_") (.tenths 10) (.tenths 10),
  -- link.h 167-180; link.cc 89-103
  .simple (chars! "AbstractLink") (chars! "viewformat") (chars! "viewformat_") (chars! "has_viewformat_") (chars! "viewformat_") (chars! "has_viewformat_") (chars! "viewformat_") (chars! "has_viewformat_") (.str []) (.str []),
  -- link.h 183-196; link.cc 89-103
  .simple (chars! "AbstractLink") (chars! "httpquery") (chars! "httpquery_") (chars! "has_httpquery_") (chars! "httpquery_") (chars! "has_httpquery_") (chars! "httpquery_") (chars! "has_httpquery_") (.str []) (.str []),
  -- link.h 291-304; link.cc 190-195
  .simple (chars! "IconStyleIcon") (chars! "gx_x") (chars! "gx_x_") (chars! "has_gx_x_") (chars! "gx_x_") (chars! "has_gx_x_") (chars! "gx_x_") (chars! "has_gx_x_") (.tenths 0) (.tenths 0),
  -- link.h 307-320; link.cc 190-195
  .simple (chars! "IconStyleIcon") (chars! "gx_y") (chars! "gx_y_") (chars! "has_gx_y_") (chars! "gx_y_") (chars! "has_gx_y_") (chars! "gx_y_") (chars! "has_gx_y_") (.tenths 0) (.tenths 0),
  -- link.h 323-336; link.cc 190-195
  .simple (chars! "IconStyleIcon") (chars! "gx_w") (chars! "gx_w_") (chars! "has_gx_w_") (chars! "gx_w_") (chars! "has_gx_w_") (chars! "gx_w_") (chars! "has_gx_w_") (.tenths 0) (.tenths 0),
  -- link.h 339-352; link.cc 190-195
  .simple (chars! "IconStyleIcon") (chars! "gx_h") (chars! "gx_h_") (chars! "has_gx_h_") (chars! "gx_h_") (chars! "has_gx_h_") (chars! "gx_h_") (chars! "has_gx_h_") (.tenths 0) (.tenths 0),
  -- liststyle.h 88-101; liststyle.cc 40-43
  .simple (chars! "ItemIcon") (chars! "href") (chars! "href_") (chars! "has_href_") (chars! "href_") (chars! "has_href_") (chars! "href_") (chars! "has_href_") (.str []) (.str []),
  -- liststyle.h 130-143; liststyle.cc 101-105
  .simple (chars! "ListStyle") (chars! "listitemtype") (chars! "listitemtype_") (chars! "has_listitemtype_") (chars! "listitemtype_") (chars! "has_listitemtype_") (chars! "listitemtype_") (chars! "has_listitemtype_") (.int 0) (.int 0),
  -- liststyle.h 146-159; liststyle.cc 101-105
  .simple (chars! "ListStyle") (chars! "bgcolor") (chars! "bgcolor_") (chars! "has_bgcolor_") (chars! "bgcolor_") (chars! "has_bgcolor_") (chars! "bgcolor_") (chars! "has_bgcolor_") (.color 0xffffffff) (.color 0xffffffff),
  -- liststyle.h 175-188; liststyle.cc 101-105
  .simple (chars! "ListStyle") (chars! "maxsnippetlines") (chars! "maxsnippetlines_") (chars! "has_maxsnippetlines_") (chars! "maxsnippetlines_") (chars! "has_maxsnippetlines_") (chars! "maxsnippetlines_") (chars! "has_maxsnippetlines_") (.int 2) (.int 2),
  -- networklink.h 52-61; networklink.cc 37-40
  .simple (chars! "NetworkLink") (chars! "refreshvisibility") (chars! "refreshvisibility_") (chars! "has_refreshvisibility_") (chars! "refreshvisibility_") (chars! "has_refreshvisibility_") (chars! "refreshvisibility_") (chars! "has_refreshvisibility_") (.bool false) (.bool false),
  -- networklink.h 64-73; networklink.cc 37-40
  .simple (chars! "NetworkLink") (chars! "flytoview") (chars! "flytoview_") (chars! "has_flytoview_") (chars! "flytoview_") (chars! "has_flytoview_") (chars! "flytoview_") (chars! "has_flytoview_") (.bool false) (.bool false),
  -- networklink.h 77-84
  .child (chars! "NetworkLink") (chars! "link") (chars! "link_") (chars! "link_") (chars! "link_") (chars! "link_"),
  -- networklinkcontrol.h 178-187; networklinkcontrol.cc 146-149
  .simple (chars! "Update") (chars! "targethref") (chars! "targethref_") (chars! "has_targethref_") (chars! "targethref_") (chars! "has_targethref_") (chars! "targethref_") (chars! "has_targethref_") (.str []) (.str []),
  -- networklinkcontrol.h 226-235; networklinkcontrol.cc 196-210
  .simple (chars! "NetworkLinkControl") (chars! "minrefreshperiod") (chars! "minrefreshperiod_") (chars! "has_minrefreshperiod_") (chars! "minrefreshperiod_") (chars! "has_minrefreshperiod_") (chars! "minrefreshperiod_") (chars! "has_minrefreshperiod_") (.tenths 0) (.tenths 0),
  -- networklinkcontrol.h 238-247; networklinkcontrol.cc 196-210
  .simple (chars! "NetworkLinkControl") (chars! "maxsessionlength") (chars! "maxsessionlength_") (chars! "has_maxsessionlength_") (chars! "maxsessionlength_") (chars! "has_maxsessionlength_") (chars! "maxsessionlength_") (chars! "has_maxsessionlength_") (.tenths 0) (.tenths 0),
  -- networklinkcontrol.h 250-259; networklinkcontrol.cc 196-210
  .simple (chars! "NetworkLinkControl") (chars! "cookie") (chars! "cookie_") (chars! "has_cookie_") (chars! "cookie_") (chars! "has_cookie_") (chars! "cookie_") (chars! "has_cookie_") (.str []) (.str []),
  -- networklinkcontrol.h 262-271; networklinkcontrol.cc 196-210
  .simple (chars! "NetworkLinkControl") (chars! "message") (chars! "message_") (chars! "has_message_") (chars! "message_") (chars! "has_message_") (chars! "message_") (chars! "has_message_") (.str []) (.str []),
  -- networklinkcontrol.h 274-283; networklinkcontrol.cc 196-210
  .simple (chars! "NetworkLinkControl") (chars! "linkname") (chars! "linkname_") (chars! "has_linkname_") (chars! "linkname_") (chars! "has_linkname_") (chars! "linkname_") (chars! "has_linkname_") (.str []) (.str []),
  -- networklinkcontrol.h 286-295; networklinkcontrol.cc 196-210
  .simple (chars! "NetworkLinkControl") (chars! "linkdescription") (chars! "linkdescription_") (chars! "has_linkdescription_") (chars! "linkdescription_") (chars! "has_linkdescription_") (chars! "linkdescription_") (chars! "has_linkdescription_") (.str []) (.str []),
  -- networklinkcontrol.h 298-305
  .child (chars! "NetworkLinkControl") (chars! "linksnippet") (chars! "linksnippet_") (chars! "linksnippet_") (chars! "linksnippet_") (chars! "linksnippet_"),
  -- networklinkcontrol.h 308-317; networklinkcontrol.cc 196-210
  .simple (chars! "NetworkLinkControl") (chars! "expires") (chars! "expires_") (chars! "has_expires_") (chars! "expires_") (chars! "has_expires_") (chars! "expires_") (chars! "has_expires_") (.str []) (.str []),
  -- networklinkcontrol.h 320-327
  .child (chars! "NetworkLinkControl") (chars! "update") (chars! "update_") (chars! "update_") (chars! "update_") (chars! "update_"),
  -- networklinkcontrol.h 330-337
  .child (chars! "NetworkLinkControl") (chars! "abstractview") (chars! "abstractview_") (chars! "abstractview_") (chars! "abstractview_") (chars! "abstractview_"),
  -- object.h 51-60; object.cc 34-38
  .simple (chars! "Object") (chars! "id") (chars! "id_") (chars! "has_id_") (chars! "id_") (chars! "has_id_") (chars! "id_") (chars! "has_id_") (.str []) (.str []),
  -- object.h 62-71; object.cc 34-38
  .simple (chars! "Object") (chars! "targetid") (chars! "targetid_") (chars! "has_targetid_") (chars! "targetid_") (chars! "has_targetid_") (chars! "targetid_") (chars! "has_targetid_") (.str []) (.str []),
  -- overlay.h 61-74; overlay.cc 42-47
  .simple (chars! "Overlay") (chars! "color") (chars! "color_") (chars! "has_color_") (chars! "color_") (chars! "has_color_") (chars! "color_") (chars! "has_color_") (.color 0xffffffff) (.color 0xffffffff),
  -- overlay.h 77-90; overlay.cc 42-47
  .simple (chars! "Overlay") (chars! "draworder") (chars! "draworder_") (chars! "has_draworder_") (chars! "draworder_") (chars! "has_draworder_") (chars! "draworder_") (chars! "has_draworder_") (.int 0) (.int 0),
  -- overlay.h 93-100
  .child (chars! "Overlay") (chars! "icon") (chars! "icon_") (chars! "icon_") (chars! "icon_") (chars! "icon_"),
  -- overlay.h 130-143; overlay.cc 88-91
  .simple (chars! "LatLonBox") (chars! "rotation") (chars! "rotation_") (chars! "has_rotation_") (chars! "rotation_") (chars! "has_rotation_") (chars! "rotation_") (chars! "has_rotation_") (.tenths 0) (.tenths 0),
  -- overlay.h 174-181
  .child (chars! "GxLatLonQuad") (chars! "coordinates") (chars! "coordinates_") (chars! "coordinates_") (chars! "coordinates_") (chars! "coordinates_"),
  -- overlay.h 208-221; overlay.cc 155-162
  .simple (chars! "GroundOverlay") (chars! "altitude") (chars! "altitude_") (chars! "has_altitude_") (chars! "altitude_") (chars! "has_altitude_") (chars! "altitude_") (chars! "has_altitude_") (.tenths 0) (.tenths 0),
  -- overlay.h 224-237; overlay.cc 155-162
  .simple (chars! "GroundOverlay") (chars! "altitudemode") (chars! "altitudemode_") (chars! "has_altitudemode_") (chars! "altitudemode_") (chars! "has_altitudemode_") (chars! "altitudemode_") (chars! "has_altitudemode_") (.int 0) (.int 0),
  -- overlay.h 240-253; overlay.cc 155-162
  .simple (chars! "GroundOverlay") (chars! "gx_altitudemode") (chars! "gx_altitudemode_") (chars! "has_gx_altitudemode_") (chars! "gx_altitudemode_") (chars! "has_gx_altitudemode_") (chars! "gx_altitudemode_") (chars! "has_gx_altitudemode_") (.int 0) (.int 0),
  -- overlay.h 256-263
  .child (chars! "GroundOverlay") (chars! "latlonbox") (chars! "latlonbox_") (chars! "latlonbox_") (chars! "latlonbox_") (chars! "latlonbox_"),
  -- overlay.h 266-273
  .child (chars! "GroundOverlay") (chars! "gx_latlonquad") (chars! "gx_latlonquad_") (chars! "gx_latlonquad_") (chars! "gx_latlonquad_") (chars! "gx_latlonquad_"),
  -- overlay.h 381-388
  .child (chars! "ScreenOverlay") (chars! "overlayxy") (chars! "overlayxy_") (chars! "overlayxy_") (chars! "overlayxy_") (chars! "overlayxy_"),
  -- overlay.h 391-398
  .child (chars! "ScreenOverlay") (chars! "screenxy") (chars! "screenxy_") (chars! "screenxy_") (chars! "screenxy_") (chars! "screenxy_"),
  -- overlay.h 401-408
  .child (chars! "ScreenOverlay") (chars! "rotationxy") (chars! "rotationxy_") (chars! "rotationxy_") (chars! "rotationxy_") (chars! "rotationxy_"),
  -- overlay.h 411-418
  .child (chars! "ScreenOverlay") (chars! "size") (chars! "size_") (chars! "size_") (chars! "size_") (chars! "size_"),
  -- overlay.h 421-434; overlay.cc 454-457
  .simple (chars! "ScreenOverlay") (chars! "rotation") (chars! "rotation_") (chars! "has_rotation_") (chars! "rotation_") (chars! "has_rotation_") (chars! "rotation_") (chars! "has_rotation_") (.tenths 0) (.tenths 0),
  -- overlay.h 466-479; overlay.cc 227-238
  .simple (chars! "ViewVolume") (chars! "leftfov") (chars! "leftfov_") (chars! "has_leftfov_") (chars! "leftfov_") (chars! "has_leftfov_") (chars! "leftfov_") (chars! "has_leftfov_") (.tenths 0) (.tenths 0),
  -- overlay.h 482-495; overlay.cc 227-238
  .simple (chars! "ViewVolume") (chars! "rightfov") (chars! "rightfov_") (chars! "has_rightfov_") (chars! "rightfov_") (chars! "has_rightfov_") (chars! "rightfov_") (chars! "has_rightfov_") (.tenths 0) (.tenths 0),
  -- overlay.h 498-511; overlay.cc 227-238
  .simple (chars! "ViewVolume") (chars! "bottomfov") (chars! "bottomfov_") (chars! "has_bottomfov_") (chars! "bottomfov_") (chars! "has_bottomfov_") (chars! "bottomfov_") (chars! "has_bottomfov_") (.tenths 0) (.tenths 0),
  -- overlay.h 514-527; overlay.cc 227-238
  .simple (chars! "ViewVolume") (chars! "topfov") (chars! "topfov_") (chars! "has_topfov_") (chars! "topfov_") (chars! "has_topfov_") (chars! "topfov_") (chars! "has_topfov_") (.tenths 0) (.tenths 0),
  -- overlay.h 530-543; overlay.cc 227-238
  .simple (chars! "ViewVolume") (chars! "near") (chars! "near_") (chars! "has_near_") (chars! "near_") (chars! "has_near_") (chars! "near_") (chars! "has_near_") (.tenths 0) (.tenths 0),
  -- overlay.h 578-591; overlay.cc 292-301
  .simple (chars! "ImagePyramid") (chars! "tilesize") (chars! "tilesize_") (chars! "has_tilesize_") (chars! "tilesize_") (chars! "has_tilesize_") (chars! "tilesize_") (chars! "has_tilesize_") (.int 256) (.int 256),
  -- overlay.h 594-607; overlay.cc 292-301
  .simple (chars! "ImagePyramid") (chars! "maxwidth") (chars! "maxwidth_") (chars! "has_maxwidth_") (chars! "maxwidth_") (chars! "has_maxwidth_") (chars! "maxwidth_") (chars! "has_maxwidth_") (.int 0) (.int 0),
  -- overlay.h 610-623; overlay.cc 292-301
  .simple (chars! "ImagePyramid") (chars! "maxheight") (chars! "maxheight_") (chars! "has_maxheight_") (chars! "maxheight_") (chars! "has_maxheight_") (chars! "maxheight_") (chars! "has_maxheight_") (.int 0) (.int 0),
  -- overlay.h 626-639; overlay.cc 292-301
  .simple (chars! "ImagePyramid") (chars! "gridorigin") (chars! "gridorigin_") (chars! "has_gridorigin_") (chars! "gridorigin_") (chars! "has_gridorigin_") (chars! "gridorigin_") (chars! "has_gridorigin_") (.int 0) (.int 0),
  -- overlay.h 672-685; overlay.cc 349-354
  .simple (chars! "PhotoOverlay") (chars! "rotation") (chars! "rotation_") (chars! "has_rotation_") (chars! "rotation_") (chars! "has_rotation_") (chars! "rotation_") (chars! "has_rotation_") (.tenths 0) (.tenths 0),
  -- overlay.h 688-695
  .child (chars! "PhotoOverlay") (chars! "viewvolume") (chars! "viewvolume_") (chars! "viewvolume_") (chars! "viewvolume_") (chars! "viewvolume_"),
  -- overlay.h 698-705
  .child (chars! "PhotoOverlay") (chars! "imagepyramid") (chars! "imagepyramid_") (chars! "imagepyramid_") (chars! "imagepyramid_") (chars! "imagepyramid_"),
  -- overlay.h 708-715
  .child (chars! "PhotoOverlay") (chars! "point") (chars! "point_") (chars! "point_") (chars! "point_") (chars! "point_"),
  -- overlay.h 718-731; overlay.cc 349-354
  .simple (chars! "PhotoOverlay") (chars! "shape") (chars! "shape_") (chars! "has_shape_") (chars! "shape_") (chars! "has_shape_") (chars! "shape_") (chars! "has_shape_") (.int 0) (.int 0),
  -- placemark.h 48-55
  .child (chars! "Placemark") (chars! "geometry") (chars! "geometry_") (chars! "geometry_") (chars! "geometry_") (chars! "geometry_"),
  -- polystyle.h 47-60; polystyle.cc 36-38
  .simple (chars! "PolyStyle") (chars! "fill") (chars! "fill_") (chars! "has_fill_") (chars! "fill_") (chars! "has_fill_") (chars! "fill_") (chars! "has_fill_") (.bool true) (.bool true),
  -- polystyle.h 63-76; polystyle.cc 36-38
  .simple (chars! "PolyStyle") (chars! "outline") (chars! "outline_") (chars! "has_outline_") (chars! "outline_") (chars! "has_outline_") (chars! "outline_") (chars! "has_outline_") (.bool true) (.bool true),
  -- region.h 53-66; region.cc 39-45
  .simple (chars! "LatLonAltBox") (chars! "minaltitude") (chars! "minaltitude_") (chars! "has_minaltitude_") (chars! "minaltitude_") (chars! "has_minaltitude_") (chars! "minaltitude_") (chars! "has_minaltitude_") (.tenths 0) (.tenths 0),
  -- region.h 69-82; region.cc 39-45
  .simple (chars! "LatLonAltBox") (chars! "maxaltitude") (chars! "maxaltitude_") (chars! "has_maxaltitude_") (chars! "maxaltitude_") (chars! "has_maxaltitude_") (chars! "maxaltitude_") (chars! "has_maxaltitude_") (.tenths 0) (.tenths 0),
  -- region.h 85-98; region.cc 39-45
  .simple (chars! "LatLonAltBox") (chars! "altitudemode") (chars! "altitudemode_") (chars! "has_altitudemode_") (chars! "altitudemode_") (chars! "has_altitudemode_") (chars! "altitudemode_") (chars! "has_altitudemode_") (.int 0) (.int 0),
  -- region.h 101-114; region.cc 39-45
  .simple (chars! "LatLonAltBox") (chars! "gx_altitudemode") (chars! "gx_altitudemode_") (chars! "has_gx_altitudemode_") (chars! "gx_altitudemode_") (chars! "has_gx_altitudemode_") (chars! "gx_altitudemode_") (chars! "has_gx_altitudemode_") (.int 0) (.int 0),
  -- region.h 147-160; region.cc 93-98
  .simple (chars! "Lod") (chars! "minlodpixels") (chars! "minlodpixels_") (chars! "has_minlodpixels_") (chars! "minlodpixels_") (chars! "has_minlodpixels_") (chars! "minlodpixels_") (chars! "has_minlodpixels_") (.tenths 0) (.tenths 0),
  -- region.h 163-176; region.cc 93-98
  .simple (chars! "Lod") (chars! "maxlodpixels") (chars! "maxlodpixels_") (chars! "has_maxlodpixels_") (chars! "maxlodpixels_") (chars! "has_maxlodpixels_") (chars! "maxlodpixels_") (chars! "has_maxlodpixels_") (.tenths (-10)) (.tenths (-10)),
  -- region.h 179-192; region.cc 93-98
  .simple (chars! "Lod") (chars! "minfadeextent") (chars! "minfadeextent_") (chars! "has_minfadeextent_") (chars! "minfadeextent_") (chars! "has_minfadeextent_") (chars! "minfadeextent_") (chars! "has_minfadeextent_") (.tenths 0) (.tenths 0),
  -- region.h 195-208; region.cc 93-98
  .simple (chars! "Lod") (chars! "maxfadeextent") (chars! "maxfadeextent_") (chars! "has_maxfadeextent_") (chars! "maxfadeextent_") (chars! "has_maxfadeextent_") (chars! "maxfadeextent_") (chars! "has_maxfadeextent_") (.tenths 0) (.tenths 0),
  -- region.h 241-248
  .child (chars! "Region") (chars! "latlonaltbox") (chars! "latlonaltbox_") (chars! "latlonaltbox_") (chars! "latlonaltbox_") (chars! "latlonaltbox_"),
  -- region.h 251-258
  .child (chars! "Region") (chars! "lod") (chars! "lod_") (chars! "lod_") (chars! "lod_") (chars! "lod_"),
  -- schema.h 49-58; schema.cc 39-44
  .simple (chars! "SimpleField") (chars! "type") (chars! "type_") (chars! "has_type_") (chars! "type_") (chars! "has_type_") (chars! "type_") (chars! "has_type_") (.str []) (.str []),
  -- schema.h 60-69; schema.cc 39-44
  .simple (chars! "SimpleField") (chars! "name") (chars! "name_") (chars! "has_name_") (chars! "name_") (chars! "has_name_") (chars! "name_") (chars! "has_name_") (.str []) (.str []),
  -- schema.h 71-80; schema.cc 39-44
  .simple (chars! "SimpleField") (chars! "displayname") (chars! "displayname_") (chars! "has_displayname_") (chars! "displayname_") (chars! "has_displayname_") (chars! "displayname_") (chars! "has_displayname_") (.str []) (.str []),
  -- schema.h 135-144; schema.cc 104-106
  .simple (chars! "Schema") (chars! "name") (chars! "name_") (chars! "has_name_") (chars! "name_") (chars! "has_name_") (chars! "name_") (chars! "has_name_") (.str []) (.str []),
  -- snippet.h 52-61; snippet.cc 36-41
  .simple (chars! "SnippetCommon") (chars! "text") (chars! "text_") (chars! "has_text_") (chars! "text_") (chars! "has_text_") (chars! "text_") (chars! "has_text_") (.str []) (.str []),
  -- snippet.h 64-73; snippet.cc 36-41
  .simple (chars! "SnippetCommon") (chars! "maxlines") (chars! "maxlines_") (chars! "has_maxlines_") (chars! "maxlines_") (chars! "has_maxlines_") (chars! "maxlines_") (chars! "has_maxlines_") (.int 2) (.int 2),
  -- style.h 54-61
  .child (chars! "Style") (chars! "iconstyle") (chars! "iconstyle_") (chars! "iconstyle_") (chars! "iconstyle_") (chars! "iconstyle_"),
  -- style.h 64-71
  .child (chars! "Style") (chars! "labelstyle") (chars! "labelstyle_") (chars! "labelstyle_") (chars! "labelstyle_") (chars! "labelstyle_"),
  -- style.h 74-81
  .child (chars! "Style") (chars! "linestyle") (chars! "linestyle_") (chars! "linestyle_") (chars! "linestyle_") (chars! "linestyle_"),
  -- style.h 84-91
  .child (chars! "Style") (chars! "polystyle") (chars! "polystyle_") (chars! "polystyle_") (chars! "polystyle_") (chars! "polystyle_"),
  -- style.h 94-101
  .child (chars! "Style") (chars! "balloonstyle") (chars! "balloonstyle_") (chars! "balloonstyle_") (chars! "balloonstyle_") (chars! "balloonstyle_"),
  -- style.h 104-111
  .child (chars! "Style") (chars! "liststyle") (chars! "liststyle_") (chars! "liststyle_") (chars! "liststyle_") (chars! "liststyle_"),
  -- stylemap.h 53-66; stylemap.cc 37-39
  .simple (chars! "Pair") (chars! "key") (chars! "key_") (chars! "has_key_") (chars! "key_") (chars! "has_key_") (chars! "key_") (chars! "has_key_") (.int 0) (.int 0),
  -- stylemap.h 69-82; stylemap.cc 37-39
  .simple (chars! "Pair") (chars! "styleurl") (chars! "styleurl_") (chars! "has_styleurl_") (chars! "styleurl_") (chars! "has_styleurl_") (chars! "styleurl_") (chars! "has_styleurl_") (.str []) (.str []),
  -- stylemap.h 85-92
  .child (chars! "Pair") (chars! "styleselector") (chars! "styleselector_") (chars! "styleselector_") (chars! "styleselector_") (chars! "styleselector_"),
  -- timeprimitive.h 71-80; timeprimitive.cc 45-48
  .simple (chars! "TimeSpan") (chars! "begin") (chars! "begin_") (chars! "has_begin_") (chars! "begin_") (chars! "has_begin_") (chars! "begin_") (chars! "has_begin_") (.str []) (.str []),
  -- timeprimitive.h 83-92; timeprimitive.cc 45-48
  .simple (chars! "TimeSpan") (chars! "end") (chars! "end_") (chars! "has_end_") (chars! "end_") (chars! "has_end_") (chars! "end_") (chars! "has_end_") (.str []) (.str []),
  -- timeprimitive.h 123-132; timeprimitive.cc 83-85
  .simple (chars! "TimeStamp") (chars! "when") (chars! "when_") (chars! "has_when_") (chars! "when_") (chars! "has_when_") (chars! "when_") (chars! "has_when_") (.str []) (.str []),
  -- vec2.h 54-63; vec2.cc 37-46
  .simple (chars! "Vec2") (chars! "x") (chars! "x_") (chars! "has_x_") (chars! "x_") (chars! "has_x_") (chars! "x_") (chars! "has_x_") (.tenths 10) (.tenths 10),
  -- vec2.h 65-74; vec2.cc 37-46
  .simple (chars! "Vec2") (chars! "y") (chars! "y_") (chars! "has_y_") (chars! "y_") (chars! "has_y_") (chars! "y_") (chars! "has_y_") (.tenths 10) (.tenths 10),
  -- vec2.h 76-85; vec2.cc 37-46
  .simple (chars! "Vec2") (chars! "xunits") (chars! "xunits_") (chars! "has_xunits_") (chars! "xunits_") (chars! "has_xunits_") (chars! "xunits_") (chars! "has_xunits_") (.int 0) (.int 0),
  -- vec2.h 87-96; vec2.cc 37-46
  .simple (chars! "Vec2") (chars! "yunits") (chars! "yunits_") (chars! "has_yunits_") (chars! "yunits_") (chars! "has_yunits_") (chars! "yunits_") (chars! "has_yunits_") (.int 0) (.int 0),
  -- xal.h 65-70
  .child (chars! "XalAddressDetails") (chars! "country") (chars! "country_") (chars! "country_") (chars! "country_") (chars! "country_"),
  -- xal.h 88-101; xal.cc 66-69
  .simple (chars! "XalAdministrativeArea") (chars! "administrativeareaname") (chars! "administrativeareaname_") (chars! "has_administrativeareaname_") (chars! "administrativeareaname_") (chars! "has_administrativeareaname_") (chars! "administrativeareaname_") (chars! "has_administrativeareaname_") (.str []) (.str []),
  -- xal.h 104-110
  .child (chars! "XalAdministrativeArea") (chars! "locality") (chars! "locality_") (chars! "locality_") (chars! "locality_") (chars! "locality_"),
  -- xal.h 112-122
  .child (chars! "XalAdministrativeArea") (chars! "subadministrativearea") (chars! "subadministrativearea_") (chars! "subadministrativearea_") (chars! "subadministrativearea_") (chars! "subadministrativearea_"),
  -- xal.h 143-152; xal.cc 106-109
  .simple (chars! "XalCountry") (chars! "countrynamecode") (chars! "countrynamecode_") (chars! "has_countrynamecode_") (chars! "countrynamecode_") (chars! "has_countrynamecode_") (chars! "countrynamecode_") (chars! "has_countrynamecode_") (.str []) (.str []),
  -- xal.h 155-163
  .child (chars! "XalCountry") (chars! "administrativearea") (chars! "administrativearea_") (chars! "administrativearea_") (chars! "administrativearea_") (chars! "administrativearea_"),
  -- xal.h 184-197; xal.cc 140-143
  .simple (chars! "XalLocality") (chars! "localityname") (chars! "localityname_") (chars! "has_localityname_") (chars! "localityname_") (chars! "has_localityname_") (chars! "localityname_") (chars! "has_localityname_") (.str []) (.str []),
  -- xal.h 200-205
  .child (chars! "XalLocality") (chars! "thoroughfare") (chars! "thoroughfare_") (chars! "thoroughfare_") (chars! "thoroughfare_") (chars! "thoroughfare_"),
  -- xal.h 208-213
  .child (chars! "XalLocality") (chars! "postalcode") (chars! "postalcode_") (chars! "postalcode_") (chars! "postalcode_") (chars! "postalcode_"),
  -- xal.h 234-247; xal.cc 176-179
  .simple (chars! "XalPostalCode") (chars! "postalcodenumber") (chars! "postalcodenumber_") (chars! "has_postalcodenumber_") (chars! "postalcodenumber_") (chars! "has_postalcodenumber_") (chars! "postalcodenumber_") (chars! "has_postalcodenumber_") (.str []) (.str []),
  -- xal.h 267-280; xal.cc 203-206
  .simple (chars! "XalSubAdministrativeArea") (chars! "subadministrativeareaname") (chars! "subadministrativeareaname_") (chars! "has_subadministrativeareaname_") (chars! "subadministrativeareaname_") (chars! "has_subadministrativeareaname_") (chars! "subadministrativeareaname_") (chars! "has_subadministrativeareaname_") (.str []) (.str []),
  -- xal.h 283-288
  .child (chars! "XalSubAdministrativeArea") (chars! "locality") (chars! "locality_") (chars! "locality_") (chars! "locality_") (chars! "locality_"),
  -- xal.h 308-321; xal.cc 237-241
  .simple (chars! "XalThoroughfare") (chars! "thoroughfarename") (chars! "thoroughfarename_") (chars! "has_thoroughfarename_") (chars! "thoroughfarename_") (chars! "has_thoroughfarename_") (chars! "thoroughfarename_") (chars! "has_thoroughfarename_") (.str []) (.str []),
  -- xal.h 324-337; xal.cc 237-241
  .simple (chars! "XalThoroughfare") (chars! "thoroughfarenumber") (chars! "thoroughfarenumber_") (chars! "has_thoroughfarenumber_") (chars! "thoroughfarenumber_") (chars! "has_thoroughfarenumber_") (chars! "thoroughfarenumber_") (chars! "has_thoroughfarenumber_") (.str []) (.str [])]

/-- The members of an object, by the class that declares them and their name. -/
abbrev Obj := Str × Str → Val

/-- Assignment to a member. -/
def Obj.put (o : Obj) (m : Str × Str) (v : Val) : Obj := fun m' => if m' = m then v else o m'

/-- The part of the constructors that is about one field; the citations are in `fields`.  Pointers are NULL after construction. -/
def Field.construct (o : Obj) : Field → Obj
  | .simple cls _ get has _ _ _ _ init _ => (o.put (cls, get) init).put (cls, has) (.bool false)
  | .child cls _ get _ _ _ => o.put (cls, get) .null

/-- A new object: of every class, to cover the classes of any chain of inheritance. -/
def newObject : Obj := fields.foldl (fun o f => f.construct o) (fun _ => .uninitialised)

/-- `get_x`. -/
def Field.get (o : Obj) : Field → Val
  | .simple cls _ get _ _ _ _ _ _ _ => o (cls, get)
  | .child cls _ get _ _ _ => o (cls, get)

/-- `has_x`. -/
def Field.has (o : Obj) : Field → Bool
  | .simple cls _ _ has _ _ _ _ _ _ => o (cls, has) = .bool true
  | .child cls _ _ has _ _ => o (cls, has) ≠ .null

/-- `set_x`; for children `SetComplexChild` (element.h 187-197), where `free` tells whether `SetParent` takes the child. -/
def Field.set (o : Obj) (v : Val) (free : Bool) : Field → Obj
  | .simple cls _ _ _ setVal setHas _ _ _ _ => (o.put (cls, setVal) v).put (cls, setHas) (.bool true)
  | .child cls _ _ _ set _ =>
    if v = .null then o.put (cls, set) .null
    else if free then o.put (cls, set) v
    else o

/-- `clear_x`. -/
def Field.clear (o : Obj) : Field → Obj
  | .simple cls _ _ _ _ _ clearVal clearHas _ clear => (o.put (cls, clearVal) clear).put (cls, clearHas) (.bool false)
  | .child cls _ _ _ _ clear => o.put (cls, clear) .null

/-- The calls that change fields. -/
inductive Call where
  | set (f : Field) (v : Val) (free : Bool)
  | clear (f : Field)

/-- One call. -/
def Call.run (o : Obj) : Call → Obj
  | .set f v free => f.set o v free
  | .clear f => f.clear o

/-- An object after some calls. -/
def after (calls : List Call) : Obj := calls.foldl Call.run newObject

end Kml.Fields
