import Verif.Model.Walk

/-!
# Visitors (src/kml/dom/visitor.cc, visitor_driver.cc; `Accept` and `AcceptChildren` of the classes)

Generated from the source by a script: for each class the members `AcceptChildren` hands to the driver, in order, and the
method of the visitor its `Accept` calls; for each method of `Visitor` the one it calls when it is not overridden.
-/

namespace Kml.Dom

open Kml

/-- abstractview.cc 55-60 `AbstractView::AcceptChildren` (`Object` has none of its own). -/
def AbstractView.visits : List Mem :=
  [M.«gx_timeprimitive»]

/-- geometry.cc 366-371 `BoundaryCommon::AcceptChildren`. -/
def BoundaryCommon.visits : List Mem :=
  [M.«linearring»]

/-- networklinkcontrol.cc 140-143 `Change::AcceptChildren` (`UpdateOperation` has none of its own). -/
def Change.visits : List Mem :=
  [M.«object_array»]

/-- feature.cc 194-214 `Feature::AcceptChildren` (`Object` has none of its own). -/
def Feature.visits : List Mem :=
  [M.«snippet», M.«abstractview», M.«timeprimitive», M.«styleselector», M.«region», M.«extendeddata»]

/-- container.cc 84-87 `Container::AcceptChildren`. -/
def Container.visits : List Mem :=
  Feature.visits ++ [M.«feature_array»]

/-- geometry.cc 260-265 `CoordinatesGeometryCommon::AcceptChildren` (`ExtrudeGeometryCommon` has none of its own). -/
def CoordinatesGeometryCommon.visits : List Mem :=
  [M.«coordinates»]

/-- networklinkcontrol.cc 76-79 `Create::AcceptChildren` (`UpdateOperation` has none of its own). -/
def Create.visits : List Mem :=
  [M.«container_array»]

/-- networklinkcontrol.cc 108-111 `Delete::AcceptChildren` (`UpdateOperation` has none of its own). -/
def Delete.visits : List Mem :=
  [M.«feature_array»]

/-- document.cc 66-70 `Document::AcceptChildren`. -/
def Document.visits : List Mem :=
  Container.visits ++ [M.«schema_array», M.«styleselector_array»]

/-- extendeddata.cc 289-293 `ExtendedData::AcceptChildren`. -/
def ExtendedData.visits : List Mem :=
  [M.«data_array», M.«schemadata_array»]

/-- overlay.cc 81-86 `Overlay::AcceptChildren`. -/
def Overlay.visits : List Mem :=
  Feature.visits ++ [M.«icon»]

/-- overlay.cc 217-225 `GroundOverlay::AcceptChildren`. -/
def GroundOverlay.visits : List Mem :=
  Overlay.visits ++ [M.«latlonbox», M.«gx_latlonquad»]

/-- gx_tour.cc 170-175 `GxAnimatedUpdate::AcceptChildren` (`GxTourPrimitiveCommon` has none of its own). -/
def GxAnimatedUpdate.visits : List Mem :=
  [M.«update»]

/-- gx_tour.cc 216-221 `GxFlyTo::AcceptChildren` (`GxTourPrimitiveCommon` has none of its own). -/
def GxFlyTo.visits : List Mem :=
  [M.«abstractview»]

/-- overlay.cc 148-153 `GxLatLonQuad::AcceptChildren` (`Object` has none of its own). -/
def GxLatLonQuad.visits : List Mem :=
  [M.«coordinates»]

/-- geometry.cc 611-614 `GxMultiTrack::AcceptChildren` (`Geometry` has none of its own). -/
def GxMultiTrack.visits : List Mem :=
  [M.«gx_track_array»]

/-- gx_tour.cc 118-121 `GxPlaylist::AcceptChildren` (`Object` has none of its own). -/
def GxPlaylist.visits : List Mem :=
  [M.«gx_tourprimitive_array»]

/-- gx_tour.cc 69-74 `GxTour::AcceptChildren`. -/
def GxTour.visits : List Mem :=
  Feature.visits ++ [M.«gx_playlist»]

/-- geometry.cc 544-552 `GxTrack::AcceptChildren` (`AltitudeGeometryCommon` has none of its own). -/
def GxTrack.visits : List Mem :=
  [M.«model», M.«extendeddata»]

/-- iconstyle.cc 94-102 `IconStyle::AcceptChildren` (`ColorStyle` has none of its own). -/
def IconStyle.visits : List Mem :=
  [M.«icon», M.«hotspot»]

/-- kml.cc 87-95 `Kml::AcceptChildren`. -/
def Kml.visits : List Mem :=
  [M.«networklinkcontrol», M.«feature»]

/-- liststyle.cc 151-154 `ListStyle::AcceptChildren` (`SubStyle` has none of its own). -/
def ListStyle.visits : List Mem :=
  [M.«itemicon_array»]

/-- model.cc 310-327 `Model::AcceptChildren` (`AltitudeGeometryCommon` has none of its own). -/
def Model.visits : List Mem :=
  [M.«location», M.«orientation», M.«scale», M.«link», M.«resourcemap»]

/-- geometry.cc 477-480 `MultiGeometry::AcceptChildren` (`Geometry` has none of its own). -/
def MultiGeometry.visits : List Mem :=
  [M.«geometry_array»]

/-- networklink.cc 88-93 `NetworkLink::AcceptChildren`. -/
def NetworkLink.visits : List Mem :=
  Feature.visits ++ [M.«link»]

/-- networklinkcontrol.cc 294-305 `NetworkLinkControl::AcceptChildren`. -/
def NetworkLinkControl.visits : List Mem :=
  [M.«linksnippet», M.«update», M.«abstractview»]

/-- stylemap.cc 82-87 `Pair::AcceptChildren` (`Object` has none of its own). -/
def Pair.visits : List Mem :=
  [M.«styleselector»]

/-- overlay.cc 409-420 `PhotoOverlay::AcceptChildren`. -/
def PhotoOverlay.visits : List Mem :=
  Overlay.visits ++ [M.«viewvolume», M.«imagepyramid», M.«point»]

/-- placemark.cc 63-68 `Placemark::AcceptChildren`. -/
def Placemark.visits : List Mem :=
  Feature.visits ++ [M.«geometry»]

/-- geometry.cc 440-446 `Polygon::AcceptChildren` (`ExtrudeGeometryCommon` has none of its own). -/
def Polygon.visits : List Mem :=
  [M.«outerboundaryis», M.«innerboundaryis_array»]

/-- region.cc 183-191 `Region::AcceptChildren` (`Object` has none of its own). -/
def Region.visits : List Mem :=
  [M.«latlonaltbox», M.«lod»]

/-- model.cc 246-249 `ResourceMap::AcceptChildren` (`Object` has none of its own). -/
def ResourceMap.visits : List Mem :=
  [M.«alias_array»]

/-- schema.cc 153-158 `Schema::AcceptChildren` (`Object` has none of its own). -/
def Schema.visits : List Mem :=
  [M.«simplefield_array», M.«gx_simplearrayfield_array»]

/-- extendeddata.cc 193-198 `SchemaData::AcceptChildren` (`Object` has none of its own). -/
def SchemaData.visits : List Mem :=
  [M.«simpledata_array», M.«gx_simplearraydata_array»]

/-- overlay.cc 512-526 `ScreenOverlay::AcceptChildren`. -/
def ScreenOverlay.visits : List Mem :=
  Overlay.visits ++ [M.«overlayxy», M.«screenxy», M.«rotationxy», M.«size»]

/-- style.cc 96-116 `Style::AcceptChildren` (`StyleSelector` has none of its own). -/
def Style.visits : List Mem :=
  [M.«iconstyle», M.«labelstyle», M.«linestyle», M.«polystyle», M.«balloonstyle», M.«liststyle»]

/-- stylemap.cc 115-118 `StyleMap::AcceptChildren` (`StyleSelector` has none of its own). -/
def StyleMap.visits : List Mem :=
  [M.«pair_array»]

/-- networklinkcontrol.cc 190-193 `Update::AcceptChildren`. -/
def Update.visits : List Mem :=
  [M.«updateoperation_array»]

/-- The members `AcceptChildren` of an instance hands to the driver; element.h 174-176: none by default. -/
def visitTable : List (Ty × List Mem) :=
  [(Ty.«Camera», AbstractView.visits),
   (Ty.«Change», Change.visits),
   (Ty.«Create», Create.visits),
   (Ty.«Delete», Delete.visits),
   (Ty.«Document», Document.visits),
   (Ty.«ExtendedData», ExtendedData.visits),
   (Ty.«Folder», Container.visits),
   (Ty.«GroundOverlay», GroundOverlay.visits),
   (Ty.«IconStyle», IconStyle.visits),
   (Ty.«LinearRing», CoordinatesGeometryCommon.visits),
   (Ty.«LineString», CoordinatesGeometryCommon.visits),
   (Ty.«ListStyle», ListStyle.visits),
   (Ty.«LookAt», AbstractView.visits),
   (Ty.«Model», Model.visits),
   (Ty.«MultiGeometry», MultiGeometry.visits),
   (Ty.«NetworkLink», NetworkLink.visits),
   (Ty.«NetworkLinkControl», NetworkLinkControl.visits),
   (Ty.«Pair», Pair.visits),
   (Ty.«PhotoOverlay», PhotoOverlay.visits),
   (Ty.«Placemark», Placemark.visits),
   (Ty.«Point», CoordinatesGeometryCommon.visits),
   (Ty.«Polygon», Polygon.visits),
   (Ty.«Region», Region.visits),
   (Ty.«ResourceMap», ResourceMap.visits),
   (Ty.«Schema», Schema.visits),
   (Ty.«SchemaData», SchemaData.visits),
   (Ty.«ScreenOverlay», ScreenOverlay.visits),
   (Ty.«Style», Style.visits),
   (Ty.«StyleMap», StyleMap.visits),
   (Ty.«Update», Update.visits),
   (Ty.«innerBoundaryIs», BoundaryCommon.visits),
   (Ty.«kml», Kml.visits),
   (Ty.«outerBoundaryIs», BoundaryCommon.visits),
   (Ty.«GxAnimatedUpdate», GxAnimatedUpdate.visits),
   (Ty.«GxFlyTo», GxFlyTo.visits),
   (Ty.«GxLatLonQuad», GxLatLonQuad.visits),
   (Ty.«GxMultiTrack», GxMultiTrack.visits),
   (Ty.«GxPlaylist», GxPlaylist.visits),
   (Ty.«GxTour», GxTour.visits),
   (Ty.«GxTrack», GxTrack.visits)]

/-- The members visited for a type. -/
def visitMembers (t : Ty) : List Mem := ((visitTable.find? fun e => e.1 = t).map (·.2)).getD []

/-- The method `Accept` of an instance calls: that of the nearest base class that has an `Accept`; element.cc 166-168:
`VisitElement` by default. -/
def acceptTable : List (Ty × Str) :=
  [(Ty.«Alias», chars! "Alias"),
   (Ty.«BalloonStyle», chars! "BalloonStyle"),
   (Ty.«Camera», chars! "Camera"),
   (Ty.«Change», chars! "Change"),
   (Ty.«Create», chars! "Create"),
   (Ty.«Data», chars! "Data"),
   (Ty.«Delete», chars! "Delete"),
   (Ty.«Document», chars! "Document"),
   (Ty.«ExtendedData», chars! "ExtendedData"),
   (Ty.«Folder», chars! "Folder"),
   (Ty.«GroundOverlay», chars! "GroundOverlay"),
   (Ty.«Icon», chars! "Icon"),
   (Ty.«IconStyle», chars! "IconStyle"),
   (Ty.«IconStyleIcon», chars! "IconStyleIcon"),
   (Ty.«ImagePyramid», chars! "ImagePyramid"),
   (Ty.«ItemIcon», chars! "ItemIcon"),
   (Ty.«LabelStyle», chars! "LabelStyle"),
   (Ty.«LatLonBox», chars! "LatLonBox"),
   (Ty.«LatLonAltBox», chars! "LatLonAltBox"),
   (Ty.«LinearRing», chars! "LinearRing"),
   (Ty.«LineString», chars! "LineString"),
   (Ty.«LineStyle», chars! "LineStyle"),
   (Ty.«Link», chars! "Link"),
   (Ty.«ListStyle», chars! "ListStyle"),
   (Ty.«Location», chars! "Location"),
   (Ty.«Lod», chars! "Lod"),
   (Ty.«LookAt», chars! "LookAt"),
   (Ty.«Metadata», chars! "Metadata"),
   (Ty.«Model», chars! "Model"),
   (Ty.«MultiGeometry», chars! "MultiGeometry"),
   (Ty.«NetworkLink», chars! "NetworkLink"),
   (Ty.«NetworkLinkControl», chars! "NetworkLinkControl"),
   (Ty.«Orientation», chars! "Orientation"),
   (Ty.«Pair», chars! "Pair"),
   (Ty.«PhotoOverlay», chars! "PhotoOverlay"),
   (Ty.«Placemark», chars! "Placemark"),
   (Ty.«PolyStyle», chars! "PolyStyle"),
   (Ty.«Point», chars! "Point"),
   (Ty.«Polygon», chars! "Polygon"),
   (Ty.«Region», chars! "Region"),
   (Ty.«ResourceMap», chars! "ResourceMap"),
   (Ty.«Scale», chars! "Scale"),
   (Ty.«Schema», chars! "Schema"),
   (Ty.«SchemaData», chars! "SchemaData"),
   (Ty.«ScreenOverlay», chars! "ScreenOverlay"),
   (Ty.«SimpleData», chars! "SimpleData"),
   (Ty.«SimpleField», chars! "SimpleField"),
   (Ty.«Snippet», chars! "Snippet"),
   (Ty.«Style», chars! "Style"),
   (Ty.«StyleMap», chars! "StyleMap"),
   (Ty.«TimeSpan», chars! "TimeSpan"),
   (Ty.«TimeStamp», chars! "TimeStamp"),
   (Ty.«ViewVolume», chars! "ViewVolume"),
   (Ty.«Update», chars! "Update"),
   (Ty.«Url», chars! "Url"),
   (Ty.«coordinates», chars! "Coordinates"),
   (Ty.«hotSpot», chars! "Vec2"),
   (Ty.«innerBoundaryIs», chars! "InnerBoundaryIs"),
   (Ty.«kml», chars! "Kml"),
   (Ty.«linkSnippet», chars! "LinkSnippet"),
   (Ty.«overlayXY», chars! "OverlayXY"),
   (Ty.«outerBoundaryIs», chars! "OuterBoundaryIs"),
   (Ty.«rotationXY», chars! "RotationXY"),
   (Ty.«screenXY», chars! "ScreenXY"),
   (Ty.«size», chars! "Size"),
   (Ty.«GxAnimatedUpdate», chars! "GxAnimatedUpdate"),
   (Ty.«GxFlyTo», chars! "GxFlyTo"),
   (Ty.«GxLatLonQuad», chars! "GxLatLonQuad"),
   (Ty.«GxMultiTrack», chars! "GxMultiTrack"),
   (Ty.«GxPlaylist», chars! "GxPlaylist"),
   (Ty.«GxSimpleArrayData», chars! "GxSimpleArrayData"),
   (Ty.«GxSimpleArrayField», chars! "GxSimpleArrayField"),
   (Ty.«GxSoundCue», chars! "GxSoundCue"),
   (Ty.«GxTimeSpan», chars! "GxTimeSpan"),
   (Ty.«GxTimeStamp», chars! "GxTimeStamp"),
   (Ty.«GxTour», chars! "GxTour"),
   (Ty.«GxTourControl», chars! "GxTourControl"),
   (Ty.«GxTrack», chars! "GxTrack"),
   (Ty.«GxWait», chars! "GxWait")]

/-- The method called for a type. -/
def acceptMethod (t : Ty) : Str := ((acceptTable.find? fun e => e.1 = t).map (·.2)).getD (chars! "Element")

/-- visitor.cc 36-522: the method each method calls by default, those of derived classes first.  `VisitElement` calls none. -/
def visitorTable : List (Str × Str) :=
  [(chars! "ViewVolume", chars! "Object"),
   (chars! "Url", chars! "AbstractLink"),
   (chars! "Update", chars! "Element"),
   (chars! "StyleMap", chars! "StyleSelector"),
   (chars! "Style", chars! "StyleSelector"),
   (chars! "StyleSelector", chars! "Object"),
   (chars! "Snippet", chars! "Element"),
   (chars! "Size", chars! "Vec2"),
   (chars! "SimpleData", chars! "Element"),
   (chars! "ScreenXY", chars! "Vec2"),
   (chars! "ScreenOverlay", chars! "Overlay"),
   (chars! "SchemaData", chars! "Object"),
   (chars! "Schema", chars! "Object"),
   (chars! "Scale", chars! "Object"),
   (chars! "RotationXY", chars! "Vec2"),
   (chars! "ResourceMap", chars! "Object"),
   (chars! "Region", chars! "Object"),
   (chars! "Polygon", chars! "Geometry"),
   (chars! "PolyStyle", chars! "ColorStyle"),
   (chars! "Point", chars! "Geometry"),
   (chars! "Placemark", chars! "Feature"),
   (chars! "PhotoOverlay", chars! "Overlay"),
   (chars! "Pair", chars! "Object"),
   (chars! "OverlayXY", chars! "Vec2"),
   (chars! "OuterBoundaryIs", chars! "Element"),
   (chars! "Orientation", chars! "Object"),
   (chars! "NetworkLinkControl", chars! "Element"),
   (chars! "NetworkLink", chars! "Feature"),
   (chars! "MultiGeometry", chars! "Geometry"),
   (chars! "Model", chars! "Geometry"),
   (chars! "Metadata", chars! "Element"),
   (chars! "LookAt", chars! "AbstractView"),
   (chars! "Lod", chars! "Object"),
   (chars! "Location", chars! "Object"),
   (chars! "ListStyle", chars! "SubStyle"),
   (chars! "LinkSnippet", chars! "Element"),
   (chars! "Link", chars! "AbstractLink"),
   (chars! "LinearRing", chars! "Geometry"),
   (chars! "LineStyle", chars! "ColorStyle"),
   (chars! "LineString", chars! "Geometry"),
   (chars! "LatLonBox", chars! "AbstractLatLonBox"),
   (chars! "LatLonAltBox", chars! "AbstractLatLonBox"),
   (chars! "LabelStyle", chars! "ColorStyle"),
   (chars! "Kml", chars! "Element"),
   (chars! "ItemIcon", chars! "Object"),
   (chars! "InnerBoundaryIs", chars! "Element"),
   (chars! "ImagePyramid", chars! "Object"),
   (chars! "IconStyleIcon", chars! "BasicLink"),
   (chars! "IconStyle", chars! "ColorStyle"),
   (chars! "Icon", chars! "AbstractLink"),
   (chars! "HotSpot", chars! "Vec2"),
   (chars! "Vec2", chars! "Element"),
   (chars! "GxWait", chars! "GxTourPrimitive"),
   (chars! "GxTrack", chars! "Geometry"),
   (chars! "GxTourControl", chars! "GxTourPrimitive"),
   (chars! "GxTour", chars! "Feature"),
   (chars! "GxTimeStamp", chars! "TimeStamp"),
   (chars! "TimeStamp", chars! "TimePrimitive"),
   (chars! "GxTimeSpan", chars! "TimeSpan"),
   (chars! "TimeSpan", chars! "TimePrimitive"),
   (chars! "TimePrimitive", chars! "Object"),
   (chars! "GxSoundCue", chars! "GxTourPrimitive"),
   (chars! "GxSimpleArrayField", chars! "SimpleField"),
   (chars! "SimpleField", chars! "Element"),
   (chars! "GxSimpleArrayData", chars! "Element"),
   (chars! "GxPlaylist", chars! "Object"),
   (chars! "GxMultiTrack", chars! "Geometry"),
   (chars! "GxLatLonQuad", chars! "Object"),
   (chars! "GxFlyTo", chars! "GxTourPrimitive"),
   (chars! "GxAnimatedUpdate", chars! "GxTourPrimitive"),
   (chars! "GxTourPrimitive", chars! "Object"),
   (chars! "GroundOverlay", chars! "Overlay"),
   (chars! "Overlay", chars! "Feature"),
   (chars! "Geometry", chars! "Object"),
   (chars! "Folder", chars! "Container"),
   (chars! "Field", chars! "Element"),
   (chars! "ExtendedData", chars! "Element"),
   (chars! "Document", chars! "Container"),
   (chars! "Delete", chars! "UpdateOperation"),
   (chars! "Data", chars! "Object"),
   (chars! "Create", chars! "UpdateOperation"),
   (chars! "Coordinates", chars! "Element"),
   (chars! "Container", chars! "Feature"),
   (chars! "Feature", chars! "Object"),
   (chars! "ColorStyle", chars! "SubStyle"),
   (chars! "Change", chars! "UpdateOperation"),
   (chars! "UpdateOperation", chars! "Element"),
   (chars! "Camera", chars! "AbstractView"),
   (chars! "BalloonStyle", chars! "SubStyle"),
   (chars! "SubStyle", chars! "Object"),
   (chars! "Alias", chars! "Object"),
   (chars! "AbstractView", chars! "Object"),
   (chars! "AbstractLink", chars! "BasicLink"),
   (chars! "BasicLink", chars! "Object"),
   (chars! "AbstractLatLonBox", chars! "Object"),
   (chars! "Object", chars! "Element")]

/-- The class declarations of the headers: each class and its base class, derived classes first.  (`BasicElement<...>`,
element.h, is left out: its base is `Element`.) -/
def baseTable : List (Str × Str) :=
  [(chars! "GxWait", chars! "GxTourPrimitiveCommon"),
   (chars! "GxTrack", chars! "AltitudeGeometryCommon"),
   (chars! "GxTourControl", chars! "GxTourPrimitive"),
   (chars! "GxTour", chars! "Feature"),
   (chars! "GxTimeStamp", chars! "TimeStamp"),
   (chars! "GxTimeSpan", chars! "TimeSpan"),
   (chars! "GxSoundCue", chars! "GxTourPrimitive"),
   (chars! "GxSimpleArrayField", chars! "SimpleField"),
   (chars! "GxSimpleArrayData", chars! "Element"),
   (chars! "GxPlaylist", chars! "Object"),
   (chars! "GxMultiTrack", chars! "Geometry"),
   (chars! "GxLatLonQuad", chars! "Object"),
   (chars! "GxFlyTo", chars! "GxTourPrimitiveCommon"),
   (chars! "GxAnimatedUpdate", chars! "GxTourPrimitiveCommon"),
   (chars! "GxTourPrimitiveCommon", chars! "GxTourPrimitive"),
   (chars! "GxTourPrimitive", chars! "Object"),
   (chars! "XalThoroughfare", chars! "Element"),
   (chars! "XalSubAdministrativeArea", chars! "Element"),
   (chars! "XalPostalCode", chars! "Element"),
   (chars! "XalLocality", chars! "Element"),
   (chars! "XalCountry", chars! "Element"),
   (chars! "XalAdministrativeArea", chars! "Element"),
   (chars! "XalAddressDetails", chars! "Element"),
   (chars! "Size", chars! "Vec2"),
   (chars! "ScreenXY", chars! "Vec2"),
   (chars! "RotationXY", chars! "Vec2"),
   (chars! "OuterBoundaryIs", chars! "BoundaryCommon"),
   (chars! "OverlayXY", chars! "Vec2"),
   (chars! "LinkSnippet", chars! "SnippetCommon"),
   (chars! "Kml", chars! "Element"),
   (chars! "InnerBoundaryIs", chars! "BoundaryCommon"),
   (chars! "BoundaryCommon", chars! "Element"),
   (chars! "HotSpot", chars! "Vec2"),
   (chars! "Vec2", chars! "Element"),
   (chars! "Coordinates", chars! "Element"),
   (chars! "Url", chars! "AbstractLink"),
   (chars! "Update", chars! "Element"),
   (chars! "ViewVolume", chars! "Object"),
   (chars! "TimeStamp", chars! "TimePrimitive"),
   (chars! "TimeSpan", chars! "TimePrimitive"),
   (chars! "TimePrimitive", chars! "Object"),
   (chars! "StyleMap", chars! "StyleSelector"),
   (chars! "Style", chars! "StyleSelector"),
   (chars! "StyleSelector", chars! "Object"),
   (chars! "Snippet", chars! "SnippetCommon"),
   (chars! "SnippetCommon", chars! "Element"),
   (chars! "SimpleField", chars! "Element"),
   (chars! "SimpleData", chars! "Element"),
   (chars! "ScreenOverlay", chars! "Overlay"),
   (chars! "SchemaData", chars! "Object"),
   (chars! "Schema", chars! "Object"),
   (chars! "Scale", chars! "Object"),
   (chars! "ResourceMap", chars! "Object"),
   (chars! "Region", chars! "Object"),
   (chars! "Polygon", chars! "ExtrudeGeometryCommon"),
   (chars! "Point", chars! "CoordinatesGeometryCommon"),
   (chars! "PolyStyle", chars! "ColorStyle"),
   (chars! "Placemark", chars! "Feature"),
   (chars! "PhotoOverlay", chars! "Overlay"),
   (chars! "Pair", chars! "Object"),
   (chars! "Orientation", chars! "Object"),
   (chars! "NetworkLinkControl", chars! "Element"),
   (chars! "NetworkLink", chars! "Feature"),
   (chars! "MultiGeometry", chars! "Geometry"),
   (chars! "Model", chars! "AltitudeGeometryCommon"),
   (chars! "Metadata", chars! "Element"),
   (chars! "LookAt", chars! "AbstractViewCommon"),
   (chars! "Lod", chars! "Object"),
   (chars! "Location", chars! "Object"),
   (chars! "ListStyle", chars! "SubStyle"),
   (chars! "Link", chars! "AbstractLink"),
   (chars! "LineStyle", chars! "ColorStyle"),
   (chars! "LineString", chars! "LineCommon"),
   (chars! "LinearRing", chars! "LineCommon"),
   (chars! "LineCommon", chars! "CoordinatesGeometryCommon"),
   (chars! "CoordinatesGeometryCommon", chars! "ExtrudeGeometryCommon"),
   (chars! "ExtrudeGeometryCommon", chars! "AltitudeGeometryCommon"),
   (chars! "AltitudeGeometryCommon", chars! "Geometry"),
   (chars! "Geometry", chars! "Object"),
   (chars! "LatLonAltBox", chars! "AbstractLatLonBox"),
   (chars! "LatLonBox", chars! "AbstractLatLonBox"),
   (chars! "AbstractLatLonBox", chars! "Object"),
   (chars! "LabelStyle", chars! "ColorStyle"),
   (chars! "ItemIcon", chars! "Object"),
   (chars! "ImagePyramid", chars! "Object"),
   (chars! "IconStyleIcon", chars! "BasicLink"),
   (chars! "IconStyle", chars! "ColorStyle"),
   (chars! "ColorStyle", chars! "SubStyle"),
   (chars! "Icon", chars! "AbstractLink"),
   (chars! "AbstractLink", chars! "BasicLink"),
   (chars! "BasicLink", chars! "Object"),
   (chars! "GroundOverlay", chars! "Overlay"),
   (chars! "Overlay", chars! "Feature"),
   (chars! "Folder", chars! "Container"),
   (chars! "ExtendedData", chars! "Element"),
   (chars! "Document", chars! "Container"),
   (chars! "Container", chars! "Feature"),
   (chars! "Feature", chars! "Object"),
   (chars! "Delete", chars! "UpdateOperation"),
   (chars! "Data", chars! "Object"),
   (chars! "Create", chars! "UpdateOperation"),
   (chars! "Change", chars! "UpdateOperation"),
   (chars! "UpdateOperation", chars! "Element"),
   (chars! "Camera", chars! "AbstractViewCommon"),
   (chars! "AbstractViewCommon", chars! "AbstractView"),
   (chars! "AbstractView", chars! "Object"),
   (chars! "BalloonStyle", chars! "SubStyle"),
   (chars! "SubStyle", chars! "Object"),
   (chars! "AtomLink", chars! "Element"),
   (chars! "AtomFeed", chars! "AtomCommon"),
   (chars! "AtomEntry", chars! "AtomCommon"),
   (chars! "AtomCommon", chars! "Element"),
   (chars! "AtomContent", chars! "Element"),
   (chars! "AtomCategory", chars! "Element"),
   (chars! "AtomAuthor", chars! "Element"),
   (chars! "Alias", chars! "Object"),
   (chars! "Object", chars! "Element")]

/-- kml_factory.cc 46-138: the class of the instances of a type. -/
def classNames : List (Ty × Str) :=
  [(Ty.«Alias», chars! "Alias"),
   (Ty.«AtomAuthor», chars! "AtomAuthor"),
   (Ty.«AtomCategory», chars! "AtomCategory"),
   (Ty.«AtomContent», chars! "AtomContent"),
   (Ty.«AtomEntry», chars! "AtomEntry"),
   (Ty.«AtomFeed», chars! "AtomFeed"),
   (Ty.«AtomLink», chars! "AtomLink"),
   (Ty.«BalloonStyle», chars! "BalloonStyle"),
   (Ty.«Camera», chars! "Camera"),
   (Ty.«Change», chars! "Change"),
   (Ty.«Create», chars! "Create"),
   (Ty.«Data», chars! "Data"),
   (Ty.«Delete», chars! "Delete"),
   (Ty.«Document», chars! "Document"),
   (Ty.«ExtendedData», chars! "ExtendedData"),
   (Ty.«Folder», chars! "Folder"),
   (Ty.«GroundOverlay», chars! "GroundOverlay"),
   (Ty.«Icon», chars! "Icon"),
   (Ty.«IconStyle», chars! "IconStyle"),
   (Ty.«IconStyleIcon», chars! "IconStyleIcon"),
   (Ty.«ImagePyramid», chars! "ImagePyramid"),
   (Ty.«ItemIcon», chars! "ItemIcon"),
   (Ty.«LabelStyle», chars! "LabelStyle"),
   (Ty.«LatLonBox», chars! "LatLonBox"),
   (Ty.«LatLonAltBox», chars! "LatLonAltBox"),
   (Ty.«LinearRing», chars! "LinearRing"),
   (Ty.«LineString», chars! "LineString"),
   (Ty.«LineStyle», chars! "LineStyle"),
   (Ty.«Link», chars! "Link"),
   (Ty.«ListStyle», chars! "ListStyle"),
   (Ty.«Location», chars! "Location"),
   (Ty.«Lod», chars! "Lod"),
   (Ty.«LookAt», chars! "LookAt"),
   (Ty.«Metadata», chars! "Metadata"),
   (Ty.«Model», chars! "Model"),
   (Ty.«MultiGeometry», chars! "MultiGeometry"),
   (Ty.«NetworkLink», chars! "NetworkLink"),
   (Ty.«NetworkLinkControl», chars! "NetworkLinkControl"),
   (Ty.«Orientation», chars! "Orientation"),
   (Ty.«Pair», chars! "Pair"),
   (Ty.«PhotoOverlay», chars! "PhotoOverlay"),
   (Ty.«Placemark», chars! "Placemark"),
   (Ty.«PolyStyle», chars! "PolyStyle"),
   (Ty.«Point», chars! "Point"),
   (Ty.«Polygon», chars! "Polygon"),
   (Ty.«Region», chars! "Region"),
   (Ty.«ResourceMap», chars! "ResourceMap"),
   (Ty.«Scale», chars! "Scale"),
   (Ty.«Schema», chars! "Schema"),
   (Ty.«SchemaData», chars! "SchemaData"),
   (Ty.«ScreenOverlay», chars! "ScreenOverlay"),
   (Ty.«SimpleData», chars! "SimpleData"),
   (Ty.«SimpleField», chars! "SimpleField"),
   (Ty.«Snippet», chars! "Snippet"),
   (Ty.«Style», chars! "Style"),
   (Ty.«StyleMap», chars! "StyleMap"),
   (Ty.«TimeSpan», chars! "TimeSpan"),
   (Ty.«TimeStamp», chars! "TimeStamp"),
   (Ty.«ViewVolume», chars! "ViewVolume"),
   (Ty.«Update», chars! "Update"),
   (Ty.«Url», chars! "Url"),
   (Ty.«coordinates», chars! "Coordinates"),
   (Ty.«hotSpot», chars! "HotSpot"),
   (Ty.«innerBoundaryIs», chars! "InnerBoundaryIs"),
   (Ty.«kml», chars! "Kml"),
   (Ty.«linkSnippet», chars! "LinkSnippet"),
   (Ty.«overlayXY», chars! "OverlayXY"),
   (Ty.«outerBoundaryIs», chars! "OuterBoundaryIs"),
   (Ty.«rotationXY», chars! "RotationXY"),
   (Ty.«screenXY», chars! "ScreenXY"),
   (Ty.«size», chars! "Size"),
   (Ty.«XalAddressDetails», chars! "XalAddressDetails"),
   (Ty.«XalAdministrativeArea», chars! "XalAdministrativeArea"),
   (Ty.«XalCountry», chars! "XalCountry"),
   (Ty.«XalLocality», chars! "XalLocality"),
   (Ty.«XalPostalCode», chars! "XalPostalCode"),
   (Ty.«XalSubAdministrativeArea», chars! "XalSubAdministrativeArea"),
   (Ty.«XalThoroughfare», chars! "XalThoroughfare"),
   (Ty.«GxAnimatedUpdate», chars! "GxAnimatedUpdate"),
   (Ty.«GxFlyTo», chars! "GxFlyTo"),
   (Ty.«GxLatLonQuad», chars! "GxLatLonQuad"),
   (Ty.«GxMultiTrack», chars! "GxMultiTrack"),
   (Ty.«GxPlaylist», chars! "GxPlaylist"),
   (Ty.«GxSimpleArrayData», chars! "GxSimpleArrayData"),
   (Ty.«GxSimpleArrayField», chars! "GxSimpleArrayField"),
   (Ty.«GxSoundCue», chars! "GxSoundCue"),
   (Ty.«GxTimeSpan», chars! "GxTimeSpan"),
   (Ty.«GxTimeStamp», chars! "GxTimeStamp"),
   (Ty.«GxTour», chars! "GxTour"),
   (Ty.«GxTourControl», chars! "GxTourControl"),
   (Ty.«GxTrack», chars! "GxTrack"),
   (Ty.«GxWait», chars! "GxWait")]

/-- A name and those it leads to in a table. -/
def follow : List (Str × Str) → Str → List Str
  | [], m => [m]
  | (a, b) :: rest, m => if m = a then m :: follow rest b else follow rest m

/-- The methods `Accept` leads to, as long as none is overridden. -/
def visitChain (t : Ty) : List Str := follow visitorTable (acceptMethod t)

/-- The same for an element; element.h 290-318: `Field` has no `Accept`. -/
def methodsFor : Elem → List Str
  | .field _ _ => [chars! "Element"]
  | .node t _ _ _ _ => visitChain t

/-- The method of a visitor that overrides some methods that is run for an element (`none`: nothing happens). -/
def visitedBy (overrides : Str → Bool) (e : Elem) : Option Str := (methodsFor e).find? overrides

mutual

/-- visitor_driver.cc 47-50 `SimplePreorderDriver::Visit`: the elements `Accept` is called for, in order, with their
places.  (The visitor is taken to leave the tree as it is.)  A `Field` has no `AcceptChildren`. -/
def preorder : Elem → List (List Step × Elem)
  | .field t s => [([], .field t s)]
  | .node t a slots mis unk =>
    ([], .node t a slots mis unk) :: (visitMembers t).flatMap fun m => preorderEach m 0 (slots m)

/-- element.h 211-217 `AcceptRepeated`, and `driver->Visit` for the value of a member that is set. -/
def preorderEach (m : Mem) : Nat → List Elem → List (List Step × Elem)
  | _, [] => []
  | i, x :: xs => (preorder x).map (fun r => (.slot m i :: r.1, r.2)) ++ preorderEach m (i + 1) xs

end

mutual

/-- visitor_driver.cc 59-62 `SimplePostorderDriver::Visit`. -/
def postorder : Elem → List (List Step × Elem)
  | .field t s => [([], .field t s)]
  | .node t a slots mis unk =>
    ((visitMembers t).flatMap fun m => postorderEach m 0 (slots m)) ++ [([], .node t a slots mis unk)]

/-- The items of a member. -/
def postorderEach (m : Mem) : Nat → List Elem → List (List Step × Elem)
  | _, [] => []
  | i, x :: xs => (postorder x).map (fun r => (.slot m i :: r.1, r.2)) ++ postorderEach m (i + 1) xs

end

/-- The methods of a visitor that are run by a `SimplePreorderDriver`, with the places of the elements they are run for. -/
def preorderCalls (overrides : Str → Bool) (root : Elem) : List (List Step × Str) :=
  (preorder root).filterMap fun r => (visitedBy overrides r.2).map fun m => (r.1, m)

/-- The same for a `SimplePostorderDriver`. -/
def postorderCalls (overrides : Str → Bool) (root : Elem) : List (List Step × Str) :=
  (postorder root).filterMap fun r => (visitedBy overrides r.2).map fun m => (r.1, m)

end Kml.Dom
