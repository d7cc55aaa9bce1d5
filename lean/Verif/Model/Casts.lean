import Verif.Model.Dom
/-! Model of `src/kml/dom/kml_cast.h`, `kml_cast.cc`, of the class declarations of `src/kml/dom/*.h` and of the class each case of
`KmlFactory::CreateElementById` instantiates.  The tables are generated from the sources. -/
namespace Kml.Dom
open Kml

/-- The C++ classes of elements. -/
abbrev Cpp := Nat

namespace Cpp
/-- element.h 58 -/
def «Element» : Cpp := 0
/-- element.h 290 -/
def «Field» : Cpp := 1
/-- abstractlatlonbox.h 39 -/
def «AbstractLatLonBox» : Cpp := 2
/-- abstractview.h 39 -/
def «AbstractView» : Cpp := 3
/-- abstractview.h 75 -/
def «AbstractViewCommon» : Cpp := 4
/-- abstractview.h 218 -/
def «LookAt» : Cpp := 5
/-- abstractview.h 258 -/
def «Camera» : Cpp := 6
/-- atom.h 37 -/
def «AtomAuthor» : Cpp := 7
/-- atom.h 94 -/
def «AtomCommon» : Cpp := 8
/-- atom.h 172 -/
def «AtomCategory» : Cpp := 9
/-- atom.h 232 -/
def «AtomContent» : Cpp := 10
/-- atom.h 277 -/
def «AtomEntry» : Cpp := 11
/-- atom.h 326 -/
def «AtomFeed» : Cpp := 12
/-- atom.h 359 -/
def «AtomLink» : Cpp := 13
/-- balloonstyle.h 39 -/
def «BalloonStyle» : Cpp := 14
/-- colorstyle.h 40 -/
def «ColorStyle» : Cpp := 15
/-- container.h 41 -/
def «Container» : Cpp := 16
/-- document.h 41 -/
def «Document» : Cpp := 17
/-- extendeddata.h 49 -/
def «SimpleData» : Cpp := 18
/-- extendeddata.h 97 -/
def «GxSimpleArrayData» : Cpp := 19
/-- extendeddata.h 145 -/
def «SchemaData» : Cpp := 20
/-- extendeddata.h 214 -/
def «Data» : Cpp := 21
/-- extendeddata.h 282 -/
def «ExtendedData» : Cpp := 22
/-- extendeddata.h 331 -/
def «Metadata» : Cpp := 23
/-- feature.h 50 -/
def «Feature» : Cpp := 24
/-- folder.h 38 -/
def «Folder» : Cpp := 25
/-- geometry.h 91 -/
def «Coordinates» : Cpp := 26
/-- geometry.h 143 -/
def «Geometry» : Cpp := 27
/-- geometry.h 161 -/
def «AltitudeGeometryCommon» : Cpp := 28
/-- geometry.h 205 -/
def «ExtrudeGeometryCommon» : Cpp := 29
/-- geometry.h 234 -/
def «CoordinatesGeometryCommon» : Cpp := 30
/-- geometry.h 263 -/
def «Point» : Cpp := 31
/-- geometry.h 284 -/
def «LineCommon» : Cpp := 32
/-- geometry.h 315 -/
def «LineString» : Cpp := 33
/-- geometry.h 333 -/
def «LinearRing» : Cpp := 34
/-- geometry.h 352 -/
def «BoundaryCommon» : Cpp := 35
/-- geometry.h 382 -/
def «OuterBoundaryIs» : Cpp := 36
/-- geometry.h 400 -/
def «InnerBoundaryIs» : Cpp := 37
/-- geometry.h 418 -/
def «Polygon» : Cpp := 38
/-- geometry.h 485 -/
def «MultiGeometry» : Cpp := 39
/-- geometry.h 520 -/
def «GxTrack» : Cpp := 40
/-- geometry.h 604 -/
def «GxMultiTrack» : Cpp := 41
/-- geometry.h 660 -/
def «Location» : Cpp := 42
/-- geometry.h 736 -/
def «Orientation» : Cpp := 43
/-- geometry.h 812 -/
def «Scale» : Cpp := 44
/-- geometry.h 888 -/
def «Alias» : Cpp := 45
/-- geometry.h 946 -/
def «ResourceMap» : Cpp := 46
/-- geometry.h 980 -/
def «Model» : Cpp := 47
/-- gx_timeprimitive.h 44 -/
def «GxTimeSpan» : Cpp := 48
/-- gx_timeprimitive.h 65 -/
def «GxTimeStamp» : Cpp := 49
/-- gx_tour.h 50 -/
def «GxTour» : Cpp := 50
/-- gx_tour.h 87 -/
def «GxPlaylist» : Cpp := 51
/-- gx_tour.h 120 -/
def «GxTourPrimitive» : Cpp := 52
/-- gx_tour.h 138 -/
def «GxTourPrimitiveCommon» : Cpp := 53
/-- gx_tour.h 173 -/
def «GxAnimatedUpdate» : Cpp := 54
/-- gx_tour.h 210 -/
def «GxFlyTo» : Cpp := 55
/-- gx_tour.h 261 -/
def «GxWait» : Cpp := 56
/-- gx_tour.h 284 -/
def «GxSoundCue» : Cpp := 57
/-- gx_tour.h 327 -/
def «GxTourControl» : Cpp := 58
/-- hotspot.h 38 -/
def «HotSpot» : Cpp := 59
/-- iconstyle.h 42 -/
def «IconStyle» : Cpp := 60
/-- kml.h 46 -/
def «Kml» : Cpp := 61
/-- labelstyle.h 37 -/
def «LabelStyle» : Cpp := 62
/-- linestyle.h 38 -/
def «LineStyle» : Cpp := 63
/-- link.h 41 -/
def «BasicLink» : Cpp := 64
/-- link.h 82 -/
def «AbstractLink» : Cpp := 65
/-- link.h 224 -/
def «Link» : Cpp := 66
/-- link.h 242 -/
def «Icon» : Cpp := 67
/-- link.h 260 -/
def «Url» : Cpp := 68
/-- link.h 282 -/
def «IconStyleIcon» : Cpp := 69
/-- liststyle.h 45 -/
def «ItemIcon» : Cpp := 70
/-- liststyle.h 121 -/
def «ListStyle» : Cpp := 71
/-- networklink.h 43 -/
def «NetworkLink» : Cpp := 72
/-- networklinkcontrol.h 49 -/
def «UpdateOperation» : Cpp := 73
/-- networklinkcontrol.h 65 -/
def «Create» : Cpp := 74
/-- networklinkcontrol.h 101 -/
def «Delete» : Cpp := 75
/-- networklinkcontrol.h 137 -/
def «Change» : Cpp := 76
/-- networklinkcontrol.h 173 -/
def «Update» : Cpp := 77
/-- networklinkcontrol.h 221 -/
def «NetworkLinkControl» : Cpp := 78
/-- object.h 43 -/
def «Object» : Cpp := 79
/-- overlay.h 52 -/
def «Overlay» : Cpp := 80
/-- overlay.h 121 -/
def «LatLonBox» : Cpp := 81
/-- overlay.h 164 -/
def «GxLatLonQuad» : Cpp := 82
/-- overlay.h 199 -/
def «GroundOverlay» : Cpp := 83
/-- overlay.h 300 -/
def «OverlayXY» : Cpp := 84
/-- overlay.h 318 -/
def «ScreenXY» : Cpp := 85
/-- overlay.h 336 -/
def «RotationXY» : Cpp := 86
/-- overlay.h 354 -/
def «Size» : Cpp := 87
/-- overlay.h 372 -/
def «ScreenOverlay» : Cpp := 88
/-- overlay.h 457 -/
def «ViewVolume» : Cpp := 89
/-- overlay.h 569 -/
def «ImagePyramid» : Cpp := 90
/-- overlay.h 663 -/
def «PhotoOverlay» : Cpp := 91
/-- placemark.h 40 -/
def «Placemark» : Cpp := 92
/-- polystyle.h 38 -/
def «PolyStyle» : Cpp := 93
/-- region.h 44 -/
def «LatLonAltBox» : Cpp := 94
/-- region.h 138 -/
def «Lod» : Cpp := 95
/-- region.h 232 -/
def «Region» : Cpp := 96
/-- schema.h 45 -/
def «SimpleField» : Cpp := 97
/-- schema.h 106 -/
def «GxSimpleArrayField» : Cpp := 98
/-- schema.h 127 -/
def «Schema» : Cpp := 99
/-- snippet.h 43 -/
def «SnippetCommon» : Cpp := 100
/-- snippet.h 91 -/
def «Snippet» : Cpp := 101
/-- snippet.h 109 -/
def «LinkSnippet» : Cpp := 102
/-- style.h 45 -/
def «Style» : Cpp := 103
/-- stylemap.h 44 -/
def «Pair» : Cpp := 104
/-- stylemap.h 114 -/
def «StyleMap» : Cpp := 105
/-- styleselector.h 38 -/
def «StyleSelector» : Cpp := 106
/-- substyle.h 37 -/
def «SubStyle» : Cpp := 107
/-- timeprimitive.h 42 -/
def «TimePrimitive» : Cpp := 108
/-- timeprimitive.h 62 -/
def «TimeSpan» : Cpp := 109
/-- timeprimitive.h 114 -/
def «TimeStamp» : Cpp := 110
/-- vec2.h 46 -/
def «Vec2» : Cpp := 111
/-- xal.h 60 -/
def «XalAddressDetails» : Cpp := 112
/-- xal.h 83 -/
def «XalAdministrativeArea» : Cpp := 113
/-- xal.h 138 -/
def «XalCountry» : Cpp := 114
/-- xal.h 179 -/
def «XalLocality» : Cpp := 115
/-- xal.h 229 -/
def «XalPostalCode» : Cpp := 116
/-- xal.h 261 -/
def «XalSubAdministrativeArea» : Cpp := 117
/-- xal.h 303 -/
def «XalThoroughfare» : Cpp := 118
end Cpp

/-- The base class in the declaration of each class (see Cpp); `BasicElement<…>` (element.h 271-277), which is an `Element`, is left out. -/
def bases : List (Cpp × Cpp) :=
  [(Cpp.«Field», Cpp.«Element»),
   (Cpp.«AbstractLatLonBox», Cpp.«Object»),
   (Cpp.«AbstractView», Cpp.«Object»),
   (Cpp.«AbstractViewCommon», Cpp.«AbstractView»),
   (Cpp.«LookAt», Cpp.«AbstractViewCommon»),
   (Cpp.«Camera», Cpp.«AbstractViewCommon»),
   (Cpp.«AtomAuthor», Cpp.«Element»),
   (Cpp.«AtomCommon», Cpp.«Element»),
   (Cpp.«AtomCategory», Cpp.«Element»),
   (Cpp.«AtomContent», Cpp.«Element»),
   (Cpp.«AtomEntry», Cpp.«AtomCommon»),
   (Cpp.«AtomFeed», Cpp.«AtomCommon»),
   (Cpp.«AtomLink», Cpp.«Element»),
   (Cpp.«BalloonStyle», Cpp.«SubStyle»),
   (Cpp.«ColorStyle», Cpp.«SubStyle»),
   (Cpp.«Container», Cpp.«Feature»),
   (Cpp.«Document», Cpp.«Container»),
   (Cpp.«SimpleData», Cpp.«Element»),
   (Cpp.«GxSimpleArrayData», Cpp.«Element»),
   (Cpp.«SchemaData», Cpp.«Object»),
   (Cpp.«Data», Cpp.«Object»),
   (Cpp.«ExtendedData», Cpp.«Element»),
   (Cpp.«Metadata», Cpp.«Element»),
   (Cpp.«Feature», Cpp.«Object»),
   (Cpp.«Folder», Cpp.«Container»),
   (Cpp.«Coordinates», Cpp.«Element»),
   (Cpp.«Geometry», Cpp.«Object»),
   (Cpp.«AltitudeGeometryCommon», Cpp.«Geometry»),
   (Cpp.«ExtrudeGeometryCommon», Cpp.«AltitudeGeometryCommon»),
   (Cpp.«CoordinatesGeometryCommon», Cpp.«ExtrudeGeometryCommon»),
   (Cpp.«Point», Cpp.«CoordinatesGeometryCommon»),
   (Cpp.«LineCommon», Cpp.«CoordinatesGeometryCommon»),
   (Cpp.«LineString», Cpp.«LineCommon»),
   (Cpp.«LinearRing», Cpp.«LineCommon»),
   (Cpp.«BoundaryCommon», Cpp.«Element»),
   (Cpp.«OuterBoundaryIs», Cpp.«BoundaryCommon»),
   (Cpp.«InnerBoundaryIs», Cpp.«BoundaryCommon»),
   (Cpp.«Polygon», Cpp.«ExtrudeGeometryCommon»),
   (Cpp.«MultiGeometry», Cpp.«Geometry»),
   (Cpp.«GxTrack», Cpp.«AltitudeGeometryCommon»),
   (Cpp.«GxMultiTrack», Cpp.«Geometry»),
   (Cpp.«Location», Cpp.«Object»),
   (Cpp.«Orientation», Cpp.«Object»),
   (Cpp.«Scale», Cpp.«Object»),
   (Cpp.«Alias», Cpp.«Object»),
   (Cpp.«ResourceMap», Cpp.«Object»),
   (Cpp.«Model», Cpp.«AltitudeGeometryCommon»),
   (Cpp.«GxTimeSpan», Cpp.«TimeSpan»),
   (Cpp.«GxTimeStamp», Cpp.«TimeStamp»),
   (Cpp.«GxTour», Cpp.«Feature»),
   (Cpp.«GxPlaylist», Cpp.«Object»),
   (Cpp.«GxTourPrimitive», Cpp.«Object»),
   (Cpp.«GxTourPrimitiveCommon», Cpp.«GxTourPrimitive»),
   (Cpp.«GxAnimatedUpdate», Cpp.«GxTourPrimitiveCommon»),
   (Cpp.«GxFlyTo», Cpp.«GxTourPrimitiveCommon»),
   (Cpp.«GxWait», Cpp.«GxTourPrimitiveCommon»),
   (Cpp.«GxSoundCue», Cpp.«GxTourPrimitive»),
   (Cpp.«GxTourControl», Cpp.«GxTourPrimitive»),
   (Cpp.«HotSpot», Cpp.«Vec2»),
   (Cpp.«IconStyle», Cpp.«ColorStyle»),
   (Cpp.«Kml», Cpp.«Element»),
   (Cpp.«LabelStyle», Cpp.«ColorStyle»),
   (Cpp.«LineStyle», Cpp.«ColorStyle»),
   (Cpp.«BasicLink», Cpp.«Object»),
   (Cpp.«AbstractLink», Cpp.«BasicLink»),
   (Cpp.«Link», Cpp.«AbstractLink»),
   (Cpp.«Icon», Cpp.«AbstractLink»),
   (Cpp.«Url», Cpp.«AbstractLink»),
   (Cpp.«IconStyleIcon», Cpp.«BasicLink»),
   (Cpp.«ItemIcon», Cpp.«Object»),
   (Cpp.«ListStyle», Cpp.«SubStyle»),
   (Cpp.«NetworkLink», Cpp.«Feature»),
   (Cpp.«UpdateOperation», Cpp.«Element»),
   (Cpp.«Create», Cpp.«UpdateOperation»),
   (Cpp.«Delete», Cpp.«UpdateOperation»),
   (Cpp.«Change», Cpp.«UpdateOperation»),
   (Cpp.«Update», Cpp.«Element»),
   (Cpp.«NetworkLinkControl», Cpp.«Element»),
   (Cpp.«Object», Cpp.«Element»),
   (Cpp.«Overlay», Cpp.«Feature»),
   (Cpp.«LatLonBox», Cpp.«AbstractLatLonBox»),
   (Cpp.«GxLatLonQuad», Cpp.«Object»),
   (Cpp.«GroundOverlay», Cpp.«Overlay»),
   (Cpp.«OverlayXY», Cpp.«Vec2»),
   (Cpp.«ScreenXY», Cpp.«Vec2»),
   (Cpp.«RotationXY», Cpp.«Vec2»),
   (Cpp.«Size», Cpp.«Vec2»),
   (Cpp.«ScreenOverlay», Cpp.«Overlay»),
   (Cpp.«ViewVolume», Cpp.«Object»),
   (Cpp.«ImagePyramid», Cpp.«Object»),
   (Cpp.«PhotoOverlay», Cpp.«Overlay»),
   (Cpp.«Placemark», Cpp.«Feature»),
   (Cpp.«PolyStyle», Cpp.«ColorStyle»),
   (Cpp.«LatLonAltBox», Cpp.«AbstractLatLonBox»),
   (Cpp.«Lod», Cpp.«Object»),
   (Cpp.«Region», Cpp.«Object»),
   (Cpp.«SimpleField», Cpp.«Element»),
   (Cpp.«GxSimpleArrayField», Cpp.«SimpleField»),
   (Cpp.«Schema», Cpp.«Object»),
   (Cpp.«SnippetCommon», Cpp.«Element»),
   (Cpp.«Snippet», Cpp.«SnippetCommon»),
   (Cpp.«LinkSnippet», Cpp.«SnippetCommon»),
   (Cpp.«Style», Cpp.«StyleSelector»),
   (Cpp.«Pair», Cpp.«Object»),
   (Cpp.«StyleMap», Cpp.«StyleSelector»),
   (Cpp.«StyleSelector», Cpp.«Object»),
   (Cpp.«SubStyle», Cpp.«Object»),
   (Cpp.«TimePrimitive», Cpp.«Object»),
   (Cpp.«TimeSpan», Cpp.«TimePrimitive»),
   (Cpp.«TimeStamp», Cpp.«TimePrimitive»),
   (Cpp.«Vec2», Cpp.«Element»),
   (Cpp.«XalAddressDetails», Cpp.«Element»),
   (Cpp.«XalAdministrativeArea», Cpp.«Element»),
   (Cpp.«XalCountry», Cpp.«Element»),
   (Cpp.«XalLocality», Cpp.«Element»),
   (Cpp.«XalPostalCode», Cpp.«Element»),
   (Cpp.«XalSubAdministrativeArea», Cpp.«Element»),
   (Cpp.«XalThoroughfare», Cpp.«Element»)]

/-- kml_factory.cc 46-138 `CreateElementById` and 153-519 `Create…`: the class each case instantiates. -/
def instantiated : List (Ty × Cpp) :=
  [(Ty.«Alias», Cpp.«Alias»),
   (Ty.«AtomAuthor», Cpp.«AtomAuthor»),
   (Ty.«AtomCategory», Cpp.«AtomCategory»),
   (Ty.«AtomContent», Cpp.«AtomContent»),
   (Ty.«AtomEntry», Cpp.«AtomEntry»),
   (Ty.«AtomFeed», Cpp.«AtomFeed»),
   (Ty.«AtomLink», Cpp.«AtomLink»),
   (Ty.«BalloonStyle», Cpp.«BalloonStyle»),
   (Ty.«Camera», Cpp.«Camera»),
   (Ty.«Change», Cpp.«Change»),
   (Ty.«Create», Cpp.«Create»),
   (Ty.«Data», Cpp.«Data»),
   (Ty.«Delete», Cpp.«Delete»),
   (Ty.«Document», Cpp.«Document»),
   (Ty.«ExtendedData», Cpp.«ExtendedData»),
   (Ty.«Folder», Cpp.«Folder»),
   (Ty.«GroundOverlay», Cpp.«GroundOverlay»),
   (Ty.«Icon», Cpp.«Icon»),
   (Ty.«IconStyle», Cpp.«IconStyle»),
   (Ty.«IconStyleIcon», Cpp.«IconStyleIcon»),
   (Ty.«ImagePyramid», Cpp.«ImagePyramid»),
   (Ty.«ItemIcon», Cpp.«ItemIcon»),
   (Ty.«LabelStyle», Cpp.«LabelStyle»),
   (Ty.«LatLonBox», Cpp.«LatLonBox»),
   (Ty.«LatLonAltBox», Cpp.«LatLonAltBox»),
   (Ty.«LinearRing», Cpp.«LinearRing»),
   (Ty.«LineString», Cpp.«LineString»),
   (Ty.«LineStyle», Cpp.«LineStyle»),
   (Ty.«Link», Cpp.«Link»),
   (Ty.«ListStyle», Cpp.«ListStyle»),
   (Ty.«Location», Cpp.«Location»),
   (Ty.«Lod», Cpp.«Lod»),
   (Ty.«LookAt», Cpp.«LookAt»),
   (Ty.«Metadata», Cpp.«Metadata»),
   (Ty.«Model», Cpp.«Model»),
   (Ty.«MultiGeometry», Cpp.«MultiGeometry»),
   (Ty.«NetworkLink», Cpp.«NetworkLink»),
   (Ty.«NetworkLinkControl», Cpp.«NetworkLinkControl»),
   (Ty.«Orientation», Cpp.«Orientation»),
   (Ty.«Pair», Cpp.«Pair»),
   (Ty.«PhotoOverlay», Cpp.«PhotoOverlay»),
   (Ty.«Placemark», Cpp.«Placemark»),
   (Ty.«PolyStyle», Cpp.«PolyStyle»),
   (Ty.«Point», Cpp.«Point»),
   (Ty.«Polygon», Cpp.«Polygon»),
   (Ty.«Region», Cpp.«Region»),
   (Ty.«ResourceMap», Cpp.«ResourceMap»),
   (Ty.«Scale», Cpp.«Scale»),
   (Ty.«Schema», Cpp.«Schema»),
   (Ty.«SchemaData», Cpp.«SchemaData»),
   (Ty.«ScreenOverlay», Cpp.«ScreenOverlay»),
   (Ty.«SimpleData», Cpp.«SimpleData»),
   (Ty.«SimpleField», Cpp.«SimpleField»),
   (Ty.«Snippet», Cpp.«Snippet»),
   (Ty.«Style», Cpp.«Style»),
   (Ty.«StyleMap», Cpp.«StyleMap»),
   (Ty.«TimeSpan», Cpp.«TimeSpan»),
   (Ty.«TimeStamp», Cpp.«TimeStamp»),
   (Ty.«ViewVolume», Cpp.«ViewVolume»),
   (Ty.«Update», Cpp.«Update»),
   (Ty.«Url», Cpp.«Url»),
   (Ty.«coordinates», Cpp.«Coordinates»),
   (Ty.«hotSpot», Cpp.«HotSpot»),
   (Ty.«innerBoundaryIs», Cpp.«InnerBoundaryIs»),
   (Ty.«kml», Cpp.«Kml»),
   (Ty.«linkSnippet», Cpp.«LinkSnippet»),
   (Ty.«overlayXY», Cpp.«OverlayXY»),
   (Ty.«outerBoundaryIs», Cpp.«OuterBoundaryIs»),
   (Ty.«rotationXY», Cpp.«RotationXY»),
   (Ty.«screenXY», Cpp.«ScreenXY»),
   (Ty.«size», Cpp.«Size»),
   (Ty.«XalAddressDetails», Cpp.«XalAddressDetails»),
   (Ty.«XalAdministrativeArea», Cpp.«XalAdministrativeArea»),
   (Ty.«XalCountry», Cpp.«XalCountry»),
   (Ty.«XalLocality», Cpp.«XalLocality»),
   (Ty.«XalPostalCode», Cpp.«XalPostalCode»),
   (Ty.«XalSubAdministrativeArea», Cpp.«XalSubAdministrativeArea»),
   (Ty.«XalThoroughfare», Cpp.«XalThoroughfare»),
   (Ty.«GxAnimatedUpdate», Cpp.«GxAnimatedUpdate»),
   (Ty.«GxFlyTo», Cpp.«GxFlyTo»),
   (Ty.«GxLatLonQuad», Cpp.«GxLatLonQuad»),
   (Ty.«GxMultiTrack», Cpp.«GxMultiTrack»),
   (Ty.«GxPlaylist», Cpp.«GxPlaylist»),
   (Ty.«GxSimpleArrayData», Cpp.«GxSimpleArrayData»),
   (Ty.«GxSimpleArrayField», Cpp.«GxSimpleArrayField»),
   (Ty.«GxSoundCue», Cpp.«GxSoundCue»),
   (Ty.«GxTimeSpan», Cpp.«GxTimeSpan»),
   (Ty.«GxTimeStamp», Cpp.«GxTimeStamp»),
   (Ty.«GxTour», Cpp.«GxTour»),
   (Ty.«GxTourControl», Cpp.«GxTourControl»),
   (Ty.«GxTrack», Cpp.«GxTrack»),
   (Ty.«GxWait», Cpp.«GxWait»)]

/-- A cast: its name, the test on the element, and the class that is cast to.  For `ElementCast<T>` (kml_cast.h 40-47) the test is
`IsA(T::ElementType())`, and `ElementType()` is that of the class or, where it has none, of its base. -/
structure Cast where
  name : Str
  test : Test
  target : Cpp

/-- kml_cast.cc 32-506 and kml_cast.h 67-270. -/
def casts : List Cast :=
  [⟨chars! "AsAbstractLatLonBox", .isA Ty.«AbstractLatLonBox», Cpp.«AbstractLatLonBox»⟩,
   ⟨chars! "AsAbstractView", .isA Ty.«AbstractView», Cpp.«AbstractView»⟩,
   ⟨chars! "AsColorStyle", .isA Ty.«ColorStyle», Cpp.«ColorStyle»⟩,
   ⟨chars! "AsContainer", .isA Ty.«Container», Cpp.«Container»⟩,
   ⟨chars! "AsFeature", .isA Ty.«Feature», Cpp.«Feature»⟩,
   ⟨chars! "AsGeometry", .isA Ty.«Geometry», Cpp.«Geometry»⟩,
   ⟨chars! "AsObject", .isA Ty.«Object», Cpp.«Object»⟩,
   ⟨chars! "AsOverlay", .isA Ty.«Overlay», Cpp.«Overlay»⟩,
   ⟨chars! "AsStyleSelector", .isA Ty.«StyleSelector», Cpp.«StyleSelector»⟩,
   ⟨chars! "AsSubStyle", .isA Ty.«SubStyle», Cpp.«SubStyle»⟩,
   ⟨chars! "AsTimePrimitive", .isA Ty.«TimePrimitive», Cpp.«TimePrimitive»⟩,
   ⟨chars! "AsAlias", .ty Ty.«Alias», Cpp.«Alias»⟩,
   ⟨chars! "AsBalloonStyle", .ty Ty.«BalloonStyle», Cpp.«BalloonStyle»⟩,
   ⟨chars! "AsCamera", .ty Ty.«Camera», Cpp.«Camera»⟩,
   ⟨chars! "AsChange", .ty Ty.«Change», Cpp.«Change»⟩,
   ⟨chars! "AsCreate", .ty Ty.«Create», Cpp.«Create»⟩,
   ⟨chars! "AsData", .ty Ty.«Data», Cpp.«Data»⟩,
   ⟨chars! "AsDelete", .ty Ty.«Delete», Cpp.«Delete»⟩,
   ⟨chars! "AsDocument", .ty Ty.«Document», Cpp.«Document»⟩,
   ⟨chars! "AsFolder", .ty Ty.«Folder», Cpp.«Folder»⟩,
   ⟨chars! "AsGroundOverlay", .ty Ty.«GroundOverlay», Cpp.«GroundOverlay»⟩,
   ⟨chars! "AsHotSpot", .ty Ty.«hotSpot», Cpp.«HotSpot»⟩,
   ⟨chars! "AsIcon", .ty Ty.«Icon», Cpp.«Icon»⟩,
   ⟨chars! "AsIconStyle", .ty Ty.«IconStyle», Cpp.«IconStyle»⟩,
   ⟨chars! "AsIconStyleIcon", .ty Ty.«IconStyleIcon», Cpp.«IconStyleIcon»⟩,
   ⟨chars! "AsImagePyramid", .ty Ty.«ImagePyramid», Cpp.«ImagePyramid»⟩,
   ⟨chars! "AsInnerBoundaryIs", .ty Ty.«innerBoundaryIs», Cpp.«InnerBoundaryIs»⟩,
   ⟨chars! "AsItemIcon", .ty Ty.«ItemIcon», Cpp.«ItemIcon»⟩,
   ⟨chars! "AsLabelStyle", .ty Ty.«LabelStyle», Cpp.«LabelStyle»⟩,
   ⟨chars! "AsLatLonAltBox", .ty Ty.«LatLonAltBox», Cpp.«LatLonAltBox»⟩,
   ⟨chars! "AsLatLonBox", .ty Ty.«LatLonBox», Cpp.«LatLonBox»⟩,
   ⟨chars! "AsLineString", .ty Ty.«LineString», Cpp.«LineString»⟩,
   ⟨chars! "AsLineStyle", .ty Ty.«LineStyle», Cpp.«LineStyle»⟩,
   ⟨chars! "AsLinearRing", .ty Ty.«LinearRing», Cpp.«LinearRing»⟩,
   ⟨chars! "AsLink", .ty Ty.«Link», Cpp.«Link»⟩,
   ⟨chars! "AsLinkSnippet", .ty Ty.«linkSnippet», Cpp.«LinkSnippet»⟩,
   ⟨chars! "AsListStyle", .ty Ty.«ListStyle», Cpp.«ListStyle»⟩,
   ⟨chars! "AsLocation", .ty Ty.«Location», Cpp.«Location»⟩,
   ⟨chars! "AsLod", .ty Ty.«Lod», Cpp.«Lod»⟩,
   ⟨chars! "AsLookAt", .ty Ty.«LookAt», Cpp.«LookAt»⟩,
   ⟨chars! "AsModel", .ty Ty.«Model», Cpp.«Model»⟩,
   ⟨chars! "AsMultiGeometry", .ty Ty.«MultiGeometry», Cpp.«MultiGeometry»⟩,
   ⟨chars! "AsNetworkLink", .ty Ty.«NetworkLink», Cpp.«NetworkLink»⟩,
   ⟨chars! "AsOrientation", .ty Ty.«Orientation», Cpp.«Orientation»⟩,
   ⟨chars! "AsOuterBoundaryIs", .ty Ty.«outerBoundaryIs», Cpp.«OuterBoundaryIs»⟩,
   ⟨chars! "AsOverlayXY", .ty Ty.«overlayXY», Cpp.«OverlayXY»⟩,
   ⟨chars! "AsPair", .ty Ty.«Pair», Cpp.«Pair»⟩,
   ⟨chars! "AsPhotoOverlay", .ty Ty.«PhotoOverlay», Cpp.«PhotoOverlay»⟩,
   ⟨chars! "AsPlacemark", .ty Ty.«Placemark», Cpp.«Placemark»⟩,
   ⟨chars! "AsPoint", .ty Ty.«Point», Cpp.«Point»⟩,
   ⟨chars! "AsPolyStyle", .ty Ty.«PolyStyle», Cpp.«PolyStyle»⟩,
   ⟨chars! "AsPolygon", .ty Ty.«Polygon», Cpp.«Polygon»⟩,
   ⟨chars! "AsRegion", .ty Ty.«Region», Cpp.«Region»⟩,
   ⟨chars! "AsResourceMap", .ty Ty.«ResourceMap», Cpp.«ResourceMap»⟩,
   ⟨chars! "AsRotationXY", .ty Ty.«rotationXY», Cpp.«RotationXY»⟩,
   ⟨chars! "AsScale", .ty Ty.«Scale», Cpp.«Scale»⟩,
   ⟨chars! "AsSchema", .ty Ty.«Schema», Cpp.«Schema»⟩,
   ⟨chars! "AsSchemaData", .ty Ty.«SchemaData», Cpp.«SchemaData»⟩,
   ⟨chars! "AsScreenOverlay", .ty Ty.«ScreenOverlay», Cpp.«ScreenOverlay»⟩,
   ⟨chars! "AsScreenXY", .ty Ty.«screenXY», Cpp.«ScreenXY»⟩,
   ⟨chars! "AsSize", .ty Ty.«size», Cpp.«Size»⟩,
   ⟨chars! "AsSnippet", .ty Ty.«Snippet», Cpp.«Snippet»⟩,
   ⟨chars! "AsStyle", .ty Ty.«Style», Cpp.«Style»⟩,
   ⟨chars! "AsStyleMap", .ty Ty.«StyleMap», Cpp.«StyleMap»⟩,
   ⟨chars! "AsTimeSpan", .isA Ty.«TimeSpan», Cpp.«TimeSpan»⟩,
   ⟨chars! "AsTimeStamp", .isA Ty.«TimeStamp», Cpp.«TimeStamp»⟩,
   ⟨chars! "AsUpdate", .ty Ty.«Update», Cpp.«Update»⟩,
   ⟨chars! "AsViewVolume", .ty Ty.«ViewVolume», Cpp.«ViewVolume»⟩,
   ⟨chars! "AsCoordinates", .isA Ty.«coordinates», Cpp.«Coordinates»⟩,
   ⟨chars! "AsExtendedData", .isA Ty.«ExtendedData», Cpp.«ExtendedData»⟩,
   ⟨chars! "AsKml", .isA Ty.«kml», Cpp.«Kml»⟩,
   ⟨chars! "AsMetadata", .isA Ty.«Metadata», Cpp.«Metadata»⟩,
   ⟨chars! "AsNetworkLinkControl", .isA Ty.«NetworkLinkControl», Cpp.«NetworkLinkControl»⟩,
   ⟨chars! "AsSimpleData", .isA Ty.«SimpleData», Cpp.«SimpleData»⟩,
   ⟨chars! "AsSimpleField", .isA Ty.«SimpleField», Cpp.«SimpleField»⟩,
   ⟨chars! "AsUpdate", .isA Ty.«Update», Cpp.«Update»⟩,
   ⟨chars! "AsAtomAuthor", .isA Ty.«AtomAuthor», Cpp.«AtomAuthor»⟩,
   ⟨chars! "AsAtomCategory", .isA Ty.«AtomCategory», Cpp.«AtomCategory»⟩,
   ⟨chars! "AsAtomContent", .isA Ty.«AtomContent», Cpp.«AtomContent»⟩,
   ⟨chars! "AsAtomEntry", .isA Ty.«AtomEntry», Cpp.«AtomEntry»⟩,
   ⟨chars! "AsAtomFeed", .isA Ty.«AtomFeed», Cpp.«AtomFeed»⟩,
   ⟨chars! "AsAtomLink", .isA Ty.«AtomLink», Cpp.«AtomLink»⟩,
   ⟨chars! "AsXalAddressDetails", .isA Ty.«XalAddressDetails», Cpp.«XalAddressDetails»⟩,
   ⟨chars! "AsXalAdministrativeArea", .isA Ty.«XalAdministrativeArea», Cpp.«XalAdministrativeArea»⟩,
   ⟨chars! "AsXalCountry", .isA Ty.«XalCountry», Cpp.«XalCountry»⟩,
   ⟨chars! "AsXalLocality", .isA Ty.«XalLocality», Cpp.«XalLocality»⟩,
   ⟨chars! "AsXalPostalCode", .isA Ty.«XalPostalCode», Cpp.«XalPostalCode»⟩,
   ⟨chars! "AsXalSubAdministrativeArea", .isA Ty.«XalSubAdministrativeArea», Cpp.«XalSubAdministrativeArea»⟩,
   ⟨chars! "AsXalThoroughfare", .isA Ty.«XalThoroughfare», Cpp.«XalThoroughfare»⟩,
   ⟨chars! "AsGxAnimatedUpdate", .isA Ty.«GxAnimatedUpdate», Cpp.«GxAnimatedUpdate»⟩,
   ⟨chars! "AsGxFlyTo", .isA Ty.«GxFlyTo», Cpp.«GxFlyTo»⟩,
   ⟨chars! "AsGxLatLonQuad", .isA Ty.«GxLatLonQuad», Cpp.«GxLatLonQuad»⟩,
   ⟨chars! "AsGxMultiTrack", .isA Ty.«GxMultiTrack», Cpp.«GxMultiTrack»⟩,
   ⟨chars! "AsGxPlaylist", .isA Ty.«GxPlaylist», Cpp.«GxPlaylist»⟩,
   ⟨chars! "AsGxSimpleArrayField", .isA Ty.«SimpleField», Cpp.«GxSimpleArrayField»⟩,
   ⟨chars! "AsGxSimpleArrayData", .isA Ty.«GxSimpleArrayData», Cpp.«GxSimpleArrayData»⟩,
   ⟨chars! "AsGxSoundCue", .isA Ty.«GxSoundCue», Cpp.«GxSoundCue»⟩,
   ⟨chars! "AsGxTimeSpan", .isA Ty.«GxTimeSpan», Cpp.«GxTimeSpan»⟩,
   ⟨chars! "AsGxTimeStamp", .isA Ty.«GxTimeStamp», Cpp.«GxTimeStamp»⟩,
   ⟨chars! "AsGxTour", .isA Ty.«GxTour», Cpp.«GxTour»⟩,
   ⟨chars! "AsGxTourControl", .isA Ty.«GxTourControl», Cpp.«GxTourControl»⟩,
   ⟨chars! "AsGxTourPrimitive", .isA Ty.«GxTourPrimitive», Cpp.«GxTourPrimitive»⟩,
   ⟨chars! "AsGxTrack", .isA Ty.«GxTrack», Cpp.«GxTrack»⟩,
   ⟨chars! "AsGxWait", .isA Ty.«GxWait», Cpp.«GxWait»⟩]

/-- The class of an element. -/
def Elem.cpp : Elem → Option Cpp
  | .field _ _ => some Cpp.«Field»
  | .node t _ _ _ _ => (instantiated.find? fun p => p.1 = t).map (·.2)

/-- The classes an object of a class is of; the fuel bounds the depth. -/
def ancestors : Nat → Cpp → List Cpp
  | 0, _ => []
  | fuel + 1, c =>
    c :: match bases.find? fun p => p.1 = c with
      | none => []
      | some p => ancestors fuel p.2

/-- The test of a cast. -/
def Cast.accepts (f : Cast) (e : Elem) : Bool :=
  match f.test with
  | .ty t => e.ty = t
  | .isA t => e.isA t
  | .any => true

/-- A cast of a pointer, which may be NULL: `static_pointer_cast` to a class the object is not of is undefined. -/
def Cast.run (f : Cast) : Option Elem → Outcome (Option Elem)
  | none => .ok none
  | some e =>
    if f.accepts e then
      if e.cpp.any fun c => decide (f.target ∈ ancestors 10 c) then .ok (some e) else .ub
    else .ok none

end Kml.Dom
