import Verif.Model.Fields
/-! What is used to state C94. -/
namespace Kml.Fields
open Kml

/-- The class and the name of a field. -/
def Field.key : Field → Str × Str
  | .simple cls name _ _ _ _ _ _ _ _ => (cls, name)
  | .child cls name _ _ _ _ => (cls, name)

/-- The field is for a child element. -/
def Field.isChild : Field → Bool
  | .simple .. => false
  | .child .. => true

/-- What an optional value is after a call: what was set last, and nothing after it was cleared.  A child that has a parent already
is not taken, and NULL is no child. -/
def holds (f : Field) (before : Option Val) : Call → Option Val
  | .set g v free =>
    if g.key = f.key then
      if f.isChild = true then
        if v = .null then none else if free then some v else before
      else some v
    else before
  | .clear g => if g.key = f.key then none else before

/-- The same after some calls. -/
def held (f : Field) (calls : List Call) : Option Val := calls.foldl (holds f) none

/-- The field that a call is on. -/
def Call.field : Call → Field
  | .set f _ _ => f
  | .clear f => f

/-- The defaults that the KML schema gives, by class and field; enumerations by position, the default being the first. From
testdata/xsd/kml21.xsd, at the lines given. Left out: `open` (158), whose default KML 2.2 changed to 0, which is what the code has. -/
def documented : List (Str × Str × Val) :=
  [(chars! "Vec2", chars! "x", .tenths 10),  -- 102
   (chars! "Vec2", chars! "y", .tenths 10),  -- 103
   (chars! "Vec2", chars! "xunits", .int 0),  -- 105
   (chars! "Vec2", chars! "yunits", .int 0),  -- 107
   (chars! "Feature", chars! "visibility", .bool true),  -- 157
   (chars! "SnippetCommon", chars! "maxlines", .int 2),  -- 177
   (chars! "AbstractViewCommon", chars! "longitude", .tenths 0),  -- 189
   (chars! "AbstractViewCommon", chars! "latitude", .tenths 0),  -- 191
   (chars! "AbstractViewCommon", chars! "altitude", .tenths 0),  -- 684
   (chars! "LookAt", chars! "range", .tenths 0),  -- 193
   (chars! "AbstractViewCommon", chars! "tilt", .tenths 0),  -- 196
   (chars! "AbstractViewCommon", chars! "heading", .tenths 0),  -- 198
   (chars! "AbstractViewCommon", chars! "altitudemode", .int 0),  -- 200
   (chars! "Overlay", chars! "color", .color 0xffffffff),  -- 244
   (chars! "Overlay", chars! "draworder", .int 0),  -- 246
   (chars! "ColorStyle", chars! "color", .color 0xffffffff),  -- 296
   (chars! "ColorStyle", chars! "colormode", .int 0),  -- 298
   (chars! "NetworkLink", chars! "refreshvisibility", .bool false),  -- 386
   (chars! "NetworkLink", chars! "flytoview", .bool false),  -- 387
   (chars! "LatLonAltBox", chars! "minaltitude", .tenths 0),  -- 425
   (chars! "LatLonAltBox", chars! "maxaltitude", .tenths 0),  -- 426
   (chars! "LatLonAltBox", chars! "altitudemode", .int 0),  -- 428
   (chars! "Lod", chars! "minlodpixels", .tenths 0),  -- 440
   (chars! "Lod", chars! "maxlodpixels", .tenths (-10)),  -- 441
   (chars! "Lod", chars! "minfadeextent", .tenths 0),  -- 442
   (chars! "Lod", chars! "maxfadeextent", .tenths 0),  -- 443
   (chars! "NetworkLinkControl", chars! "minrefreshperiod", .tenths 0),  -- 452
   (chars! "AbstractLink", chars! "refreshmode", .int 0),  -- 522
   (chars! "AbstractLink", chars! "refreshinterval", .tenths 40),  -- 524
   (chars! "AbstractLink", chars! "viewrefreshmode", .int 0),  -- 526
   (chars! "AbstractLink", chars! "viewrefreshtime", .tenths 40),  -- 528
   (chars! "AbstractLink", chars! "viewboundscale", .tenths 10),  -- 530
   (chars! "ExtrudeGeometryCommon", chars! "extrude", .bool false),  -- 559
   (chars! "LineCommon", chars! "tessellate", .bool false),  -- 560
   (chars! "Polygon", chars! "tessellate", .bool false),  -- 560
   (chars! "AltitudeGeometryCommon", chars! "altitudemode", .int 0),  -- 562
   (chars! "Location", chars! "longitude", .tenths 0),  -- 681
   (chars! "Location", chars! "latitude", .tenths 0),  -- 683
   (chars! "Location", chars! "altitude", .tenths 0),  -- 684
   (chars! "Orientation", chars! "heading", .tenths 0),  -- 698
   (chars! "Orientation", chars! "tilt", .tenths 0),  -- 700
   (chars! "Orientation", chars! "roll", .tenths 0),  -- 702
   (chars! "Scale", chars! "x", .tenths 10),  -- 714
   (chars! "Scale", chars! "y", .tenths 10),  -- 715
   (chars! "Scale", chars! "z", .tenths 10),  -- 716
   (chars! "GroundOverlay", chars! "altitude", .tenths 0),  -- 731
   (chars! "GroundOverlay", chars! "altitudemode", .int 0),  -- 733
   (chars! "AbstractLatLonBox", chars! "north", .tenths 1800),  -- 753
   (chars! "AbstractLatLonBox", chars! "south", .tenths (-1800)),  -- 755
   (chars! "AbstractLatLonBox", chars! "east", .tenths 1800),  -- 757
   (chars! "AbstractLatLonBox", chars! "west", .tenths (-1800)),  -- 759
   (chars! "LatLonBox", chars! "rotation", .tenths 0),  -- 761
   (chars! "ScreenOverlay", chars! "rotation", .tenths 0),  -- 779
   (chars! "IconStyle", chars! "scale", .tenths 10),  -- 844
   (chars! "IconStyle", chars! "heading", .tenths 0),  -- 845
   (chars! "LabelStyle", chars! "scale", .tenths 10),  -- 871
   (chars! "LineStyle", chars! "width", .tenths 10),  -- 885
   (chars! "PolyStyle", chars! "fill", .bool true),  -- 899
   (chars! "PolyStyle", chars! "outline", .bool true),  -- 900
   (chars! "BalloonStyle", chars! "bgcolor", .color 0xffffffff),  -- 923
   (chars! "BalloonStyle", chars! "textcolor", .color 0xff000000),  -- 926
   (chars! "ListStyle", chars! "listitemtype", .int 0),  -- 942
   (chars! "ListStyle", chars! "bgcolor", .color 0xffffffff)]  -- 944

end Kml.Fields
