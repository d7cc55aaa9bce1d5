import Verif.Model.Lit

/-!
# Element type tables

The enumeration of element types, the table of element names, the tables of
enumeration values and the table of type names for debugging, transcribed row
by row from kml22.h and kml22.cc by a script.  A type id is a natural number,
the value the C++ compiler gives to the enumerator.
-/

namespace Kml

/-- kml22.h 40-274: `KmlDomType`; ids are the enumerator values. -/
abbrev Ty := Nat

/-- xsd.h 39-43: `XsdType`. -/
inductive XsdKind
  | simple | complex | unknown
  deriving DecidableEq, Repr

namespace Ty

/-- kml22.h 41. -/
@[match_pattern] abbrev «Unknown» : Ty := 0
/-- kml22.h 43. -/
@[match_pattern] abbrev «ColorStyle» : Ty := 1
/-- kml22.h 44. -/
@[match_pattern] abbrev «Container» : Ty := 2
/-- kml22.h 45. -/
@[match_pattern] abbrev «Feature» : Ty := 3
/-- kml22.h 46. -/
@[match_pattern] abbrev «Geometry» : Ty := 4
/-- kml22.h 47. -/
@[match_pattern] abbrev «AbstractLatLonBox» : Ty := 5
/-- kml22.h 48. -/
@[match_pattern] abbrev «Object» : Ty := 6
/-- kml22.h 49. -/
@[match_pattern] abbrev «Overlay» : Ty := 7
/-- kml22.h 50. -/
@[match_pattern] abbrev «StyleSelector» : Ty := 8
/-- kml22.h 51. -/
@[match_pattern] abbrev «SubStyle» : Ty := 9
/-- kml22.h 52. -/
@[match_pattern] abbrev «TimePrimitive» : Ty := 10
/-- kml22.h 53. -/
@[match_pattern] abbrev «AbstractView» : Ty := 11
/-- kml22.h 54. -/
@[match_pattern] abbrev «BasicLink» : Ty := 12
/-- kml22.h 55. -/
@[match_pattern] abbrev «Vec2» : Ty := 13
/-- kml22.h 57. -/
@[match_pattern] abbrev «Alias» : Ty := 14
/-- kml22.h 58. -/
@[match_pattern] abbrev «BalloonStyle» : Ty := 15
/-- kml22.h 59. -/
@[match_pattern] abbrev «Camera» : Ty := 16
/-- kml22.h 60. -/
@[match_pattern] abbrev «Change» : Ty := 17
/-- kml22.h 61. -/
@[match_pattern] abbrev «Create» : Ty := 18
/-- kml22.h 62. -/
@[match_pattern] abbrev «Data» : Ty := 19
/-- kml22.h 63. -/
@[match_pattern] abbrev «Delete» : Ty := 20
/-- kml22.h 64. -/
@[match_pattern] abbrev «Document» : Ty := 21
/-- kml22.h 65. -/
@[match_pattern] abbrev «ExtendedData» : Ty := 22
/-- kml22.h 66. -/
@[match_pattern] abbrev «Folder» : Ty := 23
/-- kml22.h 67. -/
@[match_pattern] abbrev «GroundOverlay» : Ty := 24
/-- kml22.h 68. -/
@[match_pattern] abbrev «Icon» : Ty := 25
/-- kml22.h 69. -/
@[match_pattern] abbrev «IconStyle» : Ty := 26
/-- kml22.h 70. -/
@[match_pattern] abbrev «IconStyleIcon» : Ty := 27
/-- kml22.h 71. -/
@[match_pattern] abbrev «ImagePyramid» : Ty := 28
/-- kml22.h 72. -/
@[match_pattern] abbrev «ItemIcon» : Ty := 29
/-- kml22.h 73. -/
@[match_pattern] abbrev «LabelStyle» : Ty := 30
/-- kml22.h 74. -/
@[match_pattern] abbrev «LatLonAltBox» : Ty := 31
/-- kml22.h 75. -/
@[match_pattern] abbrev «LatLonBox» : Ty := 32
/-- kml22.h 76. -/
@[match_pattern] abbrev «LineString» : Ty := 33
/-- kml22.h 77. -/
@[match_pattern] abbrev «LineStyle» : Ty := 34
/-- kml22.h 78. -/
@[match_pattern] abbrev «LinearRing» : Ty := 35
/-- kml22.h 79. -/
@[match_pattern] abbrev «Link» : Ty := 36
/-- kml22.h 80. -/
@[match_pattern] abbrev «ListStyle» : Ty := 37
/-- kml22.h 81. -/
@[match_pattern] abbrev «Location» : Ty := 38
/-- kml22.h 82. -/
@[match_pattern] abbrev «Lod» : Ty := 39
/-- kml22.h 83. -/
@[match_pattern] abbrev «LookAt» : Ty := 40
/-- kml22.h 84. -/
@[match_pattern] abbrev «Metadata» : Ty := 41
/-- kml22.h 85. -/
@[match_pattern] abbrev «Model» : Ty := 42
/-- kml22.h 86. -/
@[match_pattern] abbrev «MultiGeometry» : Ty := 43
/-- kml22.h 87. -/
@[match_pattern] abbrev «NetworkLink» : Ty := 44
/-- kml22.h 88. -/
@[match_pattern] abbrev «NetworkLinkControl» : Ty := 45
/-- kml22.h 89. -/
@[match_pattern] abbrev «Orientation» : Ty := 46
/-- kml22.h 90. -/
@[match_pattern] abbrev «Pair» : Ty := 47
/-- kml22.h 91. -/
@[match_pattern] abbrev «PhotoOverlay» : Ty := 48
/-- kml22.h 92. -/
@[match_pattern] abbrev «Placemark» : Ty := 49
/-- kml22.h 93. -/
@[match_pattern] abbrev «Point» : Ty := 50
/-- kml22.h 94. -/
@[match_pattern] abbrev «PolyStyle» : Ty := 51
/-- kml22.h 95. -/
@[match_pattern] abbrev «Polygon» : Ty := 52
/-- kml22.h 96. -/
@[match_pattern] abbrev «Region» : Ty := 53
/-- kml22.h 97. -/
@[match_pattern] abbrev «ResourceMap» : Ty := 54
/-- kml22.h 98. -/
@[match_pattern] abbrev «Scale» : Ty := 55
/-- kml22.h 99. -/
@[match_pattern] abbrev «Schema» : Ty := 56
/-- kml22.h 100. -/
@[match_pattern] abbrev «SchemaData» : Ty := 57
/-- kml22.h 101. -/
@[match_pattern] abbrev «ScreenOverlay» : Ty := 58
/-- kml22.h 102. -/
@[match_pattern] abbrev «SimpleData» : Ty := 59
/-- kml22.h 103. -/
@[match_pattern] abbrev «SimpleField» : Ty := 60
/-- kml22.h 104. -/
@[match_pattern] abbrev «Snippet» : Ty := 61
/-- kml22.h 105. -/
@[match_pattern] abbrev «Style» : Ty := 62
/-- kml22.h 106. -/
@[match_pattern] abbrev «StyleMap» : Ty := 63
/-- kml22.h 107. -/
@[match_pattern] abbrev «TimeSpan» : Ty := 64
/-- kml22.h 108. -/
@[match_pattern] abbrev «TimeStamp» : Ty := 65
/-- kml22.h 109. -/
@[match_pattern] abbrev «Update» : Ty := 66
/-- kml22.h 110. -/
@[match_pattern] abbrev «Url» : Ty := 67
/-- kml22.h 111. -/
@[match_pattern] abbrev «ViewVolume» : Ty := 68
/-- kml22.h 113. -/
@[match_pattern] abbrev «address» : Ty := 69
/-- kml22.h 114. -/
@[match_pattern] abbrev «altitude» : Ty := 70
/-- kml22.h 115. -/
@[match_pattern] abbrev «altitudeMode» : Ty := 71
/-- kml22.h 116. -/
@[match_pattern] abbrev «altitudeModeGroup» : Ty := 72
/-- kml22.h 117. -/
@[match_pattern] abbrev «begin» : Ty := 73
/-- kml22.h 118. -/
@[match_pattern] abbrev «bgColor» : Ty := 74
/-- kml22.h 119. -/
@[match_pattern] abbrev «bottomFov» : Ty := 75
/-- kml22.h 120. -/
@[match_pattern] abbrev «color» : Ty := 76
/-- kml22.h 121. -/
@[match_pattern] abbrev «colorMode» : Ty := 77
/-- kml22.h 122. -/
@[match_pattern] abbrev «cookie» : Ty := 78
/-- kml22.h 123. -/
@[match_pattern] abbrev «coordinates» : Ty := 79
/-- kml22.h 124. -/
@[match_pattern] abbrev «description» : Ty := 80
/-- kml22.h 125. -/
@[match_pattern] abbrev «displayMode» : Ty := 81
/-- kml22.h 126. -/
@[match_pattern] abbrev «displayName» : Ty := 82
/-- kml22.h 127. -/
@[match_pattern] abbrev «drawOrder» : Ty := 83
/-- kml22.h 128. -/
@[match_pattern] abbrev «east» : Ty := 84
/-- kml22.h 129. -/
@[match_pattern] abbrev «end» : Ty := 85
/-- kml22.h 130. -/
@[match_pattern] abbrev «expires» : Ty := 86
/-- kml22.h 131. -/
@[match_pattern] abbrev «extrude» : Ty := 87
/-- kml22.h 132. -/
@[match_pattern] abbrev «fill» : Ty := 88
/-- kml22.h 133. -/
@[match_pattern] abbrev «flyToView» : Ty := 89
/-- kml22.h 134. -/
@[match_pattern] abbrev «gridOrigin» : Ty := 90
/-- kml22.h 135. -/
@[match_pattern] abbrev «heading» : Ty := 91
/-- kml22.h 136. -/
@[match_pattern] abbrev «hotSpot» : Ty := 92
/-- kml22.h 137. -/
@[match_pattern] abbrev «href» : Ty := 93
/-- kml22.h 138. -/
@[match_pattern] abbrev «httpQuery» : Ty := 94
/-- kml22.h 139. -/
@[match_pattern] abbrev «innerBoundaryIs» : Ty := 95
/-- kml22.h 140. -/
@[match_pattern] abbrev «key» : Ty := 96
/-- kml22.h 141. -/
@[match_pattern] abbrev «kml» : Ty := 97
/-- kml22.h 142. -/
@[match_pattern] abbrev «latitude» : Ty := 98
/-- kml22.h 143. -/
@[match_pattern] abbrev «leftFov» : Ty := 99
/-- kml22.h 144. -/
@[match_pattern] abbrev «linkDescription» : Ty := 100
/-- kml22.h 145. -/
@[match_pattern] abbrev «linkName» : Ty := 101
/-- kml22.h 146. -/
@[match_pattern] abbrev «linkSnippet» : Ty := 102
/-- kml22.h 147. -/
@[match_pattern] abbrev «listItemType» : Ty := 103
/-- kml22.h 148. -/
@[match_pattern] abbrev «longitude» : Ty := 104
/-- kml22.h 149. -/
@[match_pattern] abbrev «maxAltitude» : Ty := 105
/-- kml22.h 150. -/
@[match_pattern] abbrev «maxFadeExtent» : Ty := 106
/-- kml22.h 151. -/
@[match_pattern] abbrev «maxHeight» : Ty := 107
/-- kml22.h 152. -/
@[match_pattern] abbrev «maxLength» : Ty := 108
/-- kml22.h 153. -/
@[match_pattern] abbrev «maxLodPixels» : Ty := 109
/-- kml22.h 154. -/
@[match_pattern] abbrev «maxSessionLength» : Ty := 110
/-- kml22.h 155. -/
@[match_pattern] abbrev «maxSnippetLines» : Ty := 111
/-- kml22.h 156. -/
@[match_pattern] abbrev «maxWidth» : Ty := 112
/-- kml22.h 157. -/
@[match_pattern] abbrev «message» : Ty := 113
/-- kml22.h 158. -/
@[match_pattern] abbrev «minAltitude» : Ty := 114
/-- kml22.h 159. -/
@[match_pattern] abbrev «minFadeExtent» : Ty := 115
/-- kml22.h 160. -/
@[match_pattern] abbrev «minLodPixels» : Ty := 116
/-- kml22.h 161. -/
@[match_pattern] abbrev «minRefreshPeriod» : Ty := 117
/-- kml22.h 162. -/
@[match_pattern] abbrev «name» : Ty := 118
/-- kml22.h 163. -/
@[match_pattern] abbrev «near» : Ty := 119
/-- kml22.h 164. -/
@[match_pattern] abbrev «north» : Ty := 120
/-- kml22.h 165. -/
@[match_pattern] abbrev «open» : Ty := 121
/-- kml22.h 166. -/
@[match_pattern] abbrev «outerBoundaryIs» : Ty := 122
/-- kml22.h 167. -/
@[match_pattern] abbrev «outline» : Ty := 123
/-- kml22.h 168. -/
@[match_pattern] abbrev «overlayXY» : Ty := 124
/-- kml22.h 169. -/
@[match_pattern] abbrev «phoneNumber» : Ty := 125
/-- kml22.h 170. -/
@[match_pattern] abbrev «range» : Ty := 126
/-- kml22.h 171. -/
@[match_pattern] abbrev «refreshInterval» : Ty := 127
/-- kml22.h 172. -/
@[match_pattern] abbrev «refreshMode» : Ty := 128
/-- kml22.h 173. -/
@[match_pattern] abbrev «refreshVisibility» : Ty := 129
/-- kml22.h 174. -/
@[match_pattern] abbrev «rightFov» : Ty := 130
/-- kml22.h 175. -/
@[match_pattern] abbrev «roll» : Ty := 131
/-- kml22.h 176. -/
@[match_pattern] abbrev «rotation» : Ty := 132
/-- kml22.h 177. -/
@[match_pattern] abbrev «rotationXY» : Ty := 133
/-- kml22.h 178. -/
@[match_pattern] abbrev «scale» : Ty := 134
/-- kml22.h 179. -/
@[match_pattern] abbrev «screenXY» : Ty := 135
/-- kml22.h 180. -/
@[match_pattern] abbrev «shape» : Ty := 136
/-- kml22.h 181. -/
@[match_pattern] abbrev «size» : Ty := 137
/-- kml22.h 182. -/
@[match_pattern] abbrev «snippet» : Ty := 138
/-- kml22.h 183. -/
@[match_pattern] abbrev «sourceHref» : Ty := 139
/-- kml22.h 184. -/
@[match_pattern] abbrev «south» : Ty := 140
/-- kml22.h 185. -/
@[match_pattern] abbrev «state» : Ty := 141
/-- kml22.h 186. -/
@[match_pattern] abbrev «styleUrl» : Ty := 142
/-- kml22.h 187. -/
@[match_pattern] abbrev «targetHref» : Ty := 143
/-- kml22.h 188. -/
@[match_pattern] abbrev «tessellate» : Ty := 144
/-- kml22.h 189. -/
@[match_pattern] abbrev «text» : Ty := 145
/-- kml22.h 190. -/
@[match_pattern] abbrev «textColor» : Ty := 146
/-- kml22.h 191. -/
@[match_pattern] abbrev «tileSize» : Ty := 147
/-- kml22.h 192. -/
@[match_pattern] abbrev «tilt» : Ty := 148
/-- kml22.h 193. -/
@[match_pattern] abbrev «topFov» : Ty := 149
/-- kml22.h 194. -/
@[match_pattern] abbrev «units» : Ty := 150
/-- kml22.h 195. -/
@[match_pattern] abbrev «value» : Ty := 151
/-- kml22.h 196. -/
@[match_pattern] abbrev «viewBoundScale» : Ty := 152
/-- kml22.h 197. -/
@[match_pattern] abbrev «viewFormat» : Ty := 153
/-- kml22.h 198. -/
@[match_pattern] abbrev «viewRefreshMode» : Ty := 154
/-- kml22.h 199. -/
@[match_pattern] abbrev «viewRefreshTime» : Ty := 155
/-- kml22.h 200. -/
@[match_pattern] abbrev «visibility» : Ty := 156
/-- kml22.h 201. -/
@[match_pattern] abbrev «west» : Ty := 157
/-- kml22.h 202. -/
@[match_pattern] abbrev «when» : Ty := 158
/-- kml22.h 203. -/
@[match_pattern] abbrev «width» : Ty := 159
/-- kml22.h 204. -/
@[match_pattern] abbrev «x» : Ty := 160
/-- kml22.h 205. -/
@[match_pattern] abbrev «y» : Ty := 161
/-- kml22.h 206. -/
@[match_pattern] abbrev «z» : Ty := 162
/-- kml22.h 208. -/
@[match_pattern] abbrev «AtomAuthor» : Ty := 163
/-- kml22.h 209. -/
@[match_pattern] abbrev «AtomCategory» : Ty := 164
/-- kml22.h 210. -/
@[match_pattern] abbrev «AtomContent» : Ty := 165
/-- kml22.h 211. -/
@[match_pattern] abbrev «AtomEntry» : Ty := 166
/-- kml22.h 212. -/
@[match_pattern] abbrev «AtomFeed» : Ty := 167
/-- kml22.h 213. -/
@[match_pattern] abbrev «AtomLink» : Ty := 168
/-- kml22.h 215. -/
@[match_pattern] abbrev «atomEmail» : Ty := 169
/-- kml22.h 216. -/
@[match_pattern] abbrev «atomId» : Ty := 170
/-- kml22.h 217. -/
@[match_pattern] abbrev «atomLabel» : Ty := 171
/-- kml22.h 218. -/
@[match_pattern] abbrev «atomName» : Ty := 172
/-- kml22.h 219. -/
@[match_pattern] abbrev «atomScheme» : Ty := 173
/-- kml22.h 220. -/
@[match_pattern] abbrev «atomSummary» : Ty := 174
/-- kml22.h 221. -/
@[match_pattern] abbrev «atomTerm» : Ty := 175
/-- kml22.h 222. -/
@[match_pattern] abbrev «atomTitle» : Ty := 176
/-- kml22.h 223. -/
@[match_pattern] abbrev «atomUpdated» : Ty := 177
/-- kml22.h 224. -/
@[match_pattern] abbrev «atomUri» : Ty := 178
/-- kml22.h 226. -/
@[match_pattern] abbrev «XalAddressDetails» : Ty := 179
/-- kml22.h 227. -/
@[match_pattern] abbrev «XalAdministrativeArea» : Ty := 180
/-- kml22.h 228. -/
@[match_pattern] abbrev «XalCountry» : Ty := 181
/-- kml22.h 229. -/
@[match_pattern] abbrev «XalLocality» : Ty := 182
/-- kml22.h 230. -/
@[match_pattern] abbrev «XalPostalCode» : Ty := 183
/-- kml22.h 231. -/
@[match_pattern] abbrev «XalSubAdministrativeArea» : Ty := 184
/-- kml22.h 232. -/
@[match_pattern] abbrev «XalThoroughfare» : Ty := 185
/-- kml22.h 234. -/
@[match_pattern] abbrev «xalAdministrativeAreaName» : Ty := 186
/-- kml22.h 235. -/
@[match_pattern] abbrev «xalCountryNameCode» : Ty := 187
/-- kml22.h 236. -/
@[match_pattern] abbrev «xalLocalityName» : Ty := 188
/-- kml22.h 237. -/
@[match_pattern] abbrev «xalPostalCodeNumber» : Ty := 189
/-- kml22.h 238. -/
@[match_pattern] abbrev «xalSubAdministrativeAreaName» : Ty := 190
/-- kml22.h 239. -/
@[match_pattern] abbrev «xalThoroughfareName» : Ty := 191
/-- kml22.h 240. -/
@[match_pattern] abbrev «xalThoroughfareNumber» : Ty := 192
/-- kml22.h 242. -/
@[match_pattern] abbrev «GxTourPrimitive» : Ty := 193
/-- kml22.h 244. -/
@[match_pattern] abbrev «GxAnimatedUpdate» : Ty := 194
/-- kml22.h 245. -/
@[match_pattern] abbrev «GxFlyTo» : Ty := 195
/-- kml22.h 246. -/
@[match_pattern] abbrev «GxLatLonQuad» : Ty := 196
/-- kml22.h 247. -/
@[match_pattern] abbrev «GxMultiTrack» : Ty := 197
/-- kml22.h 248. -/
@[match_pattern] abbrev «GxPlaylist» : Ty := 198
/-- kml22.h 249. -/
@[match_pattern] abbrev «GxSimpleArrayData» : Ty := 199
/-- kml22.h 250. -/
@[match_pattern] abbrev «GxSimpleArrayField» : Ty := 200
/-- kml22.h 251. -/
@[match_pattern] abbrev «GxSoundCue» : Ty := 201
/-- kml22.h 252. -/
@[match_pattern] abbrev «GxTimeSpan» : Ty := 202
/-- kml22.h 253. -/
@[match_pattern] abbrev «GxTimeStamp» : Ty := 203
/-- kml22.h 254. -/
@[match_pattern] abbrev «GxTour» : Ty := 204
/-- kml22.h 255. -/
@[match_pattern] abbrev «GxTourControl» : Ty := 205
/-- kml22.h 256. -/
@[match_pattern] abbrev «GxTrack» : Ty := 206
/-- kml22.h 257. -/
@[match_pattern] abbrev «GxWait» : Ty := 207
/-- kml22.h 259. -/
@[match_pattern] abbrev «GxAltitudeMode» : Ty := 208
/-- kml22.h 260. -/
@[match_pattern] abbrev «GxAngles» : Ty := 209
/-- kml22.h 261. -/
@[match_pattern] abbrev «GxBalloonVisibility» : Ty := 210
/-- kml22.h 262. -/
@[match_pattern] abbrev «GxCoord» : Ty := 211
/-- kml22.h 263. -/
@[match_pattern] abbrev «GxDuration» : Ty := 212
/-- kml22.h 264. -/
@[match_pattern] abbrev «GxFlyToMode» : Ty := 213
/-- kml22.h 265. -/
@[match_pattern] abbrev «GxH» : Ty := 214
/-- kml22.h 266. -/
@[match_pattern] abbrev «GxInterpolate» : Ty := 215
/-- kml22.h 267. -/
@[match_pattern] abbrev «GxPlayMode» : Ty := 216
/-- kml22.h 268. -/
@[match_pattern] abbrev «GxValue» : Ty := 217
/-- kml22.h 269. -/
@[match_pattern] abbrev «GxW» : Ty := 218
/-- kml22.h 270. -/
@[match_pattern] abbrev «GxX» : Ty := 219
/-- kml22.h 271. -/
@[match_pattern] abbrev «GxY» : Ty := 220
/-- kml22.h 273. -/
@[match_pattern] abbrev «Invalid» : Ty := 221

end Ty

/-- kml22.h 40-274: the enumerators in order, by name. -/
def domTypeNames : List Str :=
  [chars! "Type_Unknown",
   chars! "Type_ColorStyle",
   chars! "Type_Container",
   chars! "Type_Feature",
   chars! "Type_Geometry",
   chars! "Type_AbstractLatLonBox",
   chars! "Type_Object",
   chars! "Type_Overlay",
   chars! "Type_StyleSelector",
   chars! "Type_SubStyle",
   chars! "Type_TimePrimitive",
   chars! "Type_AbstractView",
   chars! "Type_BasicLink",
   chars! "Type_Vec2",
   chars! "Type_Alias",
   chars! "Type_BalloonStyle",
   chars! "Type_Camera",
   chars! "Type_Change",
   chars! "Type_Create",
   chars! "Type_Data",
   chars! "Type_Delete",
   chars! "Type_Document",
   chars! "Type_ExtendedData",
   chars! "Type_Folder",
   chars! "Type_GroundOverlay",
   chars! "Type_Icon",
   chars! "Type_IconStyle",
   chars! "Type_IconStyleIcon",
   chars! "Type_ImagePyramid",
   chars! "Type_ItemIcon",
   chars! "Type_LabelStyle",
   chars! "Type_LatLonAltBox",
   chars! "Type_LatLonBox",
   chars! "Type_LineString",
   chars! "Type_LineStyle",
   chars! "Type_LinearRing",
   chars! "Type_Link",
   chars! "Type_ListStyle",
   chars! "Type_Location",
   chars! "Type_Lod",
   chars! "Type_LookAt",
   chars! "Type_Metadata",
   chars! "Type_Model",
   chars! "Type_MultiGeometry",
   chars! "Type_NetworkLink",
   chars! "Type_NetworkLinkControl",
   chars! "Type_Orientation",
   chars! "Type_Pair",
   chars! "Type_PhotoOverlay",
   chars! "Type_Placemark",
   chars! "Type_Point",
   chars! "Type_PolyStyle",
   chars! "Type_Polygon",
   chars! "Type_Region",
   chars! "Type_ResourceMap",
   chars! "Type_Scale",
   chars! "Type_Schema",
   chars! "Type_SchemaData",
   chars! "Type_ScreenOverlay",
   chars! "Type_SimpleData",
   chars! "Type_SimpleField",
   chars! "Type_Snippet",
   chars! "Type_Style",
   chars! "Type_StyleMap",
   chars! "Type_TimeSpan",
   chars! "Type_TimeStamp",
   chars! "Type_Update",
   chars! "Type_Url",
   chars! "Type_ViewVolume",
   chars! "Type_address",
   chars! "Type_altitude",
   chars! "Type_altitudeMode",
   chars! "Type_altitudeModeGroup",
   chars! "Type_begin",
   chars! "Type_bgColor",
   chars! "Type_bottomFov",
   chars! "Type_color",
   chars! "Type_colorMode",
   chars! "Type_cookie",
   chars! "Type_coordinates",
   chars! "Type_description",
   chars! "Type_displayMode",
   chars! "Type_displayName",
   chars! "Type_drawOrder",
   chars! "Type_east",
   chars! "Type_end",
   chars! "Type_expires",
   chars! "Type_extrude",
   chars! "Type_fill",
   chars! "Type_flyToView",
   chars! "Type_gridOrigin",
   chars! "Type_heading",
   chars! "Type_hotSpot",
   chars! "Type_href",
   chars! "Type_httpQuery",
   chars! "Type_innerBoundaryIs",
   chars! "Type_key",
   chars! "Type_kml",
   chars! "Type_latitude",
   chars! "Type_leftFov",
   chars! "Type_linkDescription",
   chars! "Type_linkName",
   chars! "Type_linkSnippet",
   chars! "Type_listItemType",
   chars! "Type_longitude",
   chars! "Type_maxAltitude",
   chars! "Type_maxFadeExtent",
   chars! "Type_maxHeight",
   chars! "Type_maxLength",
   chars! "Type_maxLodPixels",
   chars! "Type_maxSessionLength",
   chars! "Type_maxSnippetLines",
   chars! "Type_maxWidth",
   chars! "Type_message",
   chars! "Type_minAltitude",
   chars! "Type_minFadeExtent",
   chars! "Type_minLodPixels",
   chars! "Type_minRefreshPeriod",
   chars! "Type_name",
   chars! "Type_near",
   chars! "Type_north",
   chars! "Type_open",
   chars! "Type_outerBoundaryIs",
   chars! "Type_outline",
   chars! "Type_overlayXY",
   chars! "Type_phoneNumber",
   chars! "Type_range",
   chars! "Type_refreshInterval",
   chars! "Type_refreshMode",
   chars! "Type_refreshVisibility",
   chars! "Type_rightFov",
   chars! "Type_roll",
   chars! "Type_rotation",
   chars! "Type_rotationXY",
   chars! "Type_scale",
   chars! "Type_screenXY",
   chars! "Type_shape",
   chars! "Type_size",
   chars! "Type_snippet",
   chars! "Type_sourceHref",
   chars! "Type_south",
   chars! "Type_state",
   chars! "Type_styleUrl",
   chars! "Type_targetHref",
   chars! "Type_tessellate",
   chars! "Type_text",
   chars! "Type_textColor",
   chars! "Type_tileSize",
   chars! "Type_tilt",
   chars! "Type_topFov",
   chars! "Type_units",
   chars! "Type_value",
   chars! "Type_viewBoundScale",
   chars! "Type_viewFormat",
   chars! "Type_viewRefreshMode",
   chars! "Type_viewRefreshTime",
   chars! "Type_visibility",
   chars! "Type_west",
   chars! "Type_when",
   chars! "Type_width",
   chars! "Type_x",
   chars! "Type_y",
   chars! "Type_z",
   chars! "Type_AtomAuthor",
   chars! "Type_AtomCategory",
   chars! "Type_AtomContent",
   chars! "Type_AtomEntry",
   chars! "Type_AtomFeed",
   chars! "Type_AtomLink",
   chars! "Type_atomEmail",
   chars! "Type_atomId",
   chars! "Type_atomLabel",
   chars! "Type_atomName",
   chars! "Type_atomScheme",
   chars! "Type_atomSummary",
   chars! "Type_atomTerm",
   chars! "Type_atomTitle",
   chars! "Type_atomUpdated",
   chars! "Type_atomUri",
   chars! "Type_XalAddressDetails",
   chars! "Type_XalAdministrativeArea",
   chars! "Type_XalCountry",
   chars! "Type_XalLocality",
   chars! "Type_XalPostalCode",
   chars! "Type_XalSubAdministrativeArea",
   chars! "Type_XalThoroughfare",
   chars! "Type_xalAdministrativeAreaName",
   chars! "Type_xalCountryNameCode",
   chars! "Type_xalLocalityName",
   chars! "Type_xalPostalCodeNumber",
   chars! "Type_xalSubAdministrativeAreaName",
   chars! "Type_xalThoroughfareName",
   chars! "Type_xalThoroughfareNumber",
   chars! "Type_GxTourPrimitive",
   chars! "Type_GxAnimatedUpdate",
   chars! "Type_GxFlyTo",
   chars! "Type_GxLatLonQuad",
   chars! "Type_GxMultiTrack",
   chars! "Type_GxPlaylist",
   chars! "Type_GxSimpleArrayData",
   chars! "Type_GxSimpleArrayField",
   chars! "Type_GxSoundCue",
   chars! "Type_GxTimeSpan",
   chars! "Type_GxTimeStamp",
   chars! "Type_GxTour",
   chars! "Type_GxTourControl",
   chars! "Type_GxTrack",
   chars! "Type_GxWait",
   chars! "Type_GxAltitudeMode",
   chars! "Type_GxAngles",
   chars! "Type_GxBalloonVisibility",
   chars! "Type_GxCoord",
   chars! "Type_GxDuration",
   chars! "Type_GxFlyToMode",
   chars! "Type_GxH",
   chars! "Type_GxInterpolate",
   chars! "Type_GxPlayMode",
   chars! "Type_GxValue",
   chars! "Type_GxW",
   chars! "Type_GxX",
   chars! "Type_GxY",
   chars! "Type_Invalid"]

/-- kml22.cc 33-281: `kKml22Elements`, one row for each element. -/
def kml22Elements : List (Str × XsdKind) :=
  [(chars! "<Unknown>", .unknown),
   (chars! "AbstractColorStyleGroup", .complex),
   (chars! "Container", .complex),
   (chars! "Feature", .complex),
   (chars! "Geometry", .complex),
   (chars! "AbstractLatLonBox", .complex),
   (chars! "AbstractObjectGroup", .complex),
   (chars! "AbstractOverlayGroup", .complex),
   (chars! "StyleSelector", .complex),
   (chars! "AbstractSubStyleGroup", .complex),
   (chars! "TimePrimitive", .complex),
   (chars! "AbstractView", .complex),
   (chars! "BasicLink", .complex),
   (chars! "vec2Type", .complex),
   (chars! "Alias", .complex),
   (chars! "BalloonStyle", .complex),
   (chars! "Camera", .complex),
   (chars! "Change", .complex),
   (chars! "Create", .complex),
   (chars! "Data", .complex),
   (chars! "Delete", .complex),
   (chars! "Document", .complex),
   (chars! "ExtendedData", .complex),
   (chars! "Folder", .complex),
   (chars! "GroundOverlay", .complex),
   (chars! "Icon", .complex),
   (chars! "IconStyle", .complex),
   (chars! "IconStyleIcon", .complex),
   (chars! "ImagePyramid", .complex),
   (chars! "ItemIcon", .complex),
   (chars! "LabelStyle", .complex),
   (chars! "LatLonAltBox", .complex),
   (chars! "LatLonBox", .complex),
   (chars! "LineString", .complex),
   (chars! "LineStyle", .complex),
   (chars! "LinearRing", .complex),
   (chars! "Link", .complex),
   (chars! "ListStyle", .complex),
   (chars! "Location", .complex),
   (chars! "Lod", .complex),
   (chars! "LookAt", .complex),
   (chars! "Metadata", .complex),
   (chars! "Model", .complex),
   (chars! "MultiGeometry", .complex),
   (chars! "NetworkLink", .complex),
   (chars! "NetworkLinkControl", .complex),
   (chars! "Orientation", .complex),
   (chars! "Pair", .complex),
   (chars! "PhotoOverlay", .complex),
   (chars! "Placemark", .complex),
   (chars! "Point", .complex),
   (chars! "PolyStyle", .complex),
   (chars! "Polygon", .complex),
   (chars! "Region", .complex),
   (chars! "ResourceMap", .complex),
   (chars! "Scale", .complex),
   (chars! "Schema", .complex),
   (chars! "SchemaData", .complex),
   (chars! "ScreenOverlay", .complex),
   (chars! "SimpleData", .complex),
   (chars! "SimpleField", .complex),
   (chars! "Snippet", .complex),
   (chars! "Style", .complex),
   (chars! "StyleMap", .complex),
   (chars! "TimeSpan", .complex),
   (chars! "TimeStamp", .complex),
   (chars! "Update", .complex),
   (chars! "Url", .complex),
   (chars! "ViewVolume", .complex),
   (chars! "address", .simple),
   (chars! "altitude", .simple),
   (chars! "altitudeMode", .simple),
   (chars! "altitudeModeGroup", .simple),
   (chars! "begin", .simple),
   (chars! "bgColor", .simple),
   (chars! "bottomFov", .simple),
   (chars! "color", .simple),
   (chars! "colorMode", .simple),
   (chars! "cookie", .simple),
   (chars! "coordinates", .complex),
   (chars! "description", .simple),
   (chars! "displayMode", .simple),
   (chars! "displayName", .simple),
   (chars! "drawOrder", .simple),
   (chars! "east", .simple),
   (chars! "end", .simple),
   (chars! "expires", .simple),
   (chars! "extrude", .simple),
   (chars! "fill", .simple),
   (chars! "flyToView", .simple),
   (chars! "gridOrigin", .simple),
   (chars! "heading", .simple),
   (chars! "hotSpot", .complex),
   (chars! "href", .simple),
   (chars! "httpQuery", .simple),
   (chars! "innerBoundaryIs", .complex),
   (chars! "key", .simple),
   (chars! "kml", .complex),
   (chars! "latitude", .simple),
   (chars! "leftFov", .simple),
   (chars! "linkDescription", .simple),
   (chars! "linkName", .simple),
   (chars! "linkSnippet", .complex),
   (chars! "listItemType", .simple),
   (chars! "longitude", .simple),
   (chars! "maxAltitude", .simple),
   (chars! "maxFadeExtent", .simple),
   (chars! "maxHeight", .simple),
   (chars! "maxLength", .simple),
   (chars! "maxLodPixels", .simple),
   (chars! "maxSessionLength", .simple),
   (chars! "maxSnippetLines", .simple),
   (chars! "maxWidth", .simple),
   (chars! "message", .simple),
   (chars! "minAltitude", .simple),
   (chars! "minFadeExtent", .simple),
   (chars! "minLodPixels", .simple),
   (chars! "minRefreshPeriod", .simple),
   (chars! "name", .simple),
   (chars! "near", .simple),
   (chars! "north", .simple),
   (chars! "open", .simple),
   (chars! "outerBoundaryIs", .complex),
   (chars! "outline", .simple),
   (chars! "overlayXY", .complex),
   (chars! "phoneNumber", .simple),
   (chars! "range", .simple),
   (chars! "refreshInterval", .simple),
   (chars! "refreshMode", .simple),
   (chars! "refreshVisibility", .simple),
   (chars! "rightFov", .simple),
   (chars! "roll", .simple),
   (chars! "rotation", .simple),
   (chars! "rotationXY", .complex),
   (chars! "scale", .simple),
   (chars! "screenXY", .complex),
   (chars! "shape", .simple),
   (chars! "size", .complex),
   (chars! "snippet", .simple),
   (chars! "sourceHref", .simple),
   (chars! "south", .simple),
   (chars! "state", .simple),
   (chars! "styleUrl", .simple),
   (chars! "targetHref", .simple),
   (chars! "tessellate", .simple),
   (chars! "text", .simple),
   (chars! "textColor", .simple),
   (chars! "tileSize", .simple),
   (chars! "tilt", .simple),
   (chars! "topFov", .simple),
   (chars! "units", .simple),
   (chars! "value", .simple),
   (chars! "viewBoundScale", .simple),
   (chars! "viewFormat", .simple),
   (chars! "viewRefreshMode", .simple),
   (chars! "viewRefreshTime", .simple),
   (chars! "visibility", .simple),
   (chars! "west", .simple),
   (chars! "when", .simple),
   (chars! "width", .simple),
   (chars! "x", .simple),
   (chars! "y", .simple),
   (chars! "z", .simple),
   (chars! "atom:author", .complex),
   (chars! "atom:category", .complex),
   (chars! "atom:content", .complex),
   (chars! "atom:entry", .complex),
   (chars! "atom:feed", .complex),
   (chars! "atom:link", .complex),
   (chars! "atom:email", .simple),
   (chars! "atom:id", .simple),
   (chars! "atom:label", .simple),
   (chars! "atom:name", .simple),
   (chars! "atom:scheme", .simple),
   (chars! "atom:summary", .simple),
   (chars! "atom:term", .simple),
   (chars! "atom:title", .simple),
   (chars! "atom:updated", .simple),
   (chars! "atom:uri", .simple),
   (chars! "xal:AddressDetails", .complex),
   (chars! "xal:AdministrativeArea", .complex),
   (chars! "xal:Country", .complex),
   (chars! "xal:Locality", .complex),
   (chars! "xal:PostalCode", .complex),
   (chars! "xal:SubAdministrativeArea", .complex),
   (chars! "xal:Thoroughfare", .complex),
   (chars! "xal:AdministrativeAreaName", .simple),
   (chars! "xal:CountryNameCode", .simple),
   (chars! "xal:LocalityName", .simple),
   (chars! "xal:PostalCodeNumber", .simple),
   (chars! "xal:SubAdministrativeAreaName", .simple),
   (chars! "xal:ThoroughfareName", .simple),
   (chars! "xal:ThoroughfareNumber", .simple),
   (chars! "gx:AbstractTourPrimitiveGroup", .complex),
   (chars! "gx:AnimatedUpdate", .complex),
   (chars! "gx:FlyTo", .complex),
   (chars! "gx:LatLonQuad", .complex),
   (chars! "gx:MultiTrack", .complex),
   (chars! "gx:Playlist", .complex),
   (chars! "gx:SimpleArrayData", .complex),
   (chars! "gx:SimpleArrayField", .complex),
   (chars! "gx:SoundCue", .complex),
   (chars! "gx:TimeSpan", .complex),
   (chars! "gx:TimeStamp", .complex),
   (chars! "gx:Tour", .complex),
   (chars! "gx:TourControl", .complex),
   (chars! "gx:Track", .complex),
   (chars! "gx:Wait", .complex),
   (chars! "gx:altitudeMode", .simple),
   (chars! "gx:angles", .simple),
   (chars! "gx:balloonVisibility", .simple),
   (chars! "gx:coord", .simple),
   (chars! "gx:duration", .simple),
   (chars! "gx:flyToMode", .simple),
   (chars! "gx:h", .simple),
   (chars! "gx:interpolate", .simple),
   (chars! "gx:playMode", .simple),
   (chars! "gx:value", .simple),
   (chars! "gx:w", .simple),
   (chars! "gx:x", .simple),
   (chars! "gx:y", .simple),
   (chars! "</Unknown>", .unknown)]

/-- kml22.h 279-499: `KmlDomTypeStrings`. -/
def domTypeStrings : List Str :=
  [chars! "Type_Unknown",
   chars! "Type_ColorStyle",
   chars! "Type_Container",
   chars! "Type_Feature",
   chars! "Type_Geometry",
   chars! "Type_AbstractLatLonBox",
   chars! "Type_Object",
   chars! "Type_Overlay",
   chars! "Type_StyleSelector",
   chars! "Type_SubStyle",
   chars! "Type_TimePrimitive",
   chars! "Type_AbstractView",
   chars! "Type_BasicLink",
   chars! "Type_Vec2",
   chars! "Type_Alias",
   chars! "Type_BalloonStyle",
   chars! "Type_Camera",
   chars! "Type_Change",
   chars! "Type_Create",
   chars! "Type_Data",
   chars! "Type_Delete",
   chars! "Type_Document",
   chars! "Type_ExtendedData",
   chars! "Type_Folder",
   chars! "Type_GroundOverlay",
   chars! "Type_Icon",
   chars! "Type_IconStyle",
   chars! "Type_IconStyleIcon",
   chars! "Type_ImagePyramid",
   chars! "Type_ItemIcon",
   chars! "Type_LabelStyle",
   chars! "Type_LatLonAltBox",
   chars! "Type_LatLonBox",
   chars! "Type_LineString",
   chars! "Type_LineStyle",
   chars! "Type_LinearRing",
   chars! "Type_Link",
   chars! "Type_ListStyle",
   chars! "Type_Location",
   chars! "Type_Lod",
   chars! "Type_LookAt",
   chars! "Type_Metadata",
   chars! "Type_Model",
   chars! "Type_MultiGeometry",
   chars! "Type_NetworkLink",
   chars! "Type_NetworkLinkControl",
   chars! "Type_Orientation",
   chars! "Type_Pair",
   chars! "Type_PhotoOverlay",
   chars! "Type_Placemark",
   chars! "Type_Point",
   chars! "Type_PolyStyle",
   chars! "Type_Polygon",
   chars! "Type_Region",
   chars! "Type_ResourceMap",
   chars! "Type_Scale",
   chars! "Type_Schema",
   chars! "Type_SchemaData",
   chars! "Type_ScreenOverlay",
   chars! "Type_SimpleData",
   chars! "Type_SimpleField",
   chars! "Type_Snippet",
   chars! "Type_Style",
   chars! "Type_StyleMap",
   chars! "Type_TimeSpan",
   chars! "Type_TimeStamp",
   chars! "Type_Update",
   chars! "Type_Url",
   chars! "Type_ViewVolume",
   chars! "Type_address",
   chars! "Type_altitude",
   chars! "Type_altitudeMode",
   chars! "Type_altitudeModeGroup",
   chars! "Type_begin",
   chars! "Type_bgColor",
   chars! "Type_bottomFov",
   chars! "Type_color",
   chars! "Type_colorMode",
   chars! "Type_cookie",
   chars! "Type_coordinates",
   chars! "Type_description",
   chars! "Type_displayMode",
   chars! "Type_displayName",
   chars! "Type_drawOrder",
   chars! "Type_east",
   chars! "Type_end",
   chars! "Type_expires",
   chars! "Type_extrude",
   chars! "Type_fill",
   chars! "Type_flyToView",
   chars! "Type_gridOrigin",
   chars! "Type_heading",
   chars! "Type_hotSpot",
   chars! "Type_href",
   chars! "Type_httpQuery",
   chars! "Type_innerBoundaryIs",
   chars! "Type_key",
   chars! "Type_kml",
   chars! "Type_latitude",
   chars! "Type_leftFov",
   chars! "Type_linkDescription",
   chars! "Type_linkName",
   chars! "Type_linkSnippet",
   chars! "Type_listItemType",
   chars! "Type_longitude",
   chars! "Type_maxAltitude",
   chars! "Type_maxFadeExtent",
   chars! "Type_maxHeight",
   chars! "Type_maxLength",
   chars! "Type_maxLodPixels",
   chars! "Type_maxSessionLength",
   chars! "Type_maxSnippetLines",
   chars! "Type_maxWidth",
   chars! "Type_message",
   chars! "Type_minAltitude",
   chars! "Type_minFadeExtent",
   chars! "Type_minLodPixels",
   chars! "Type_minRefreshPeriod",
   chars! "Type_name",
   chars! "Type_near",
   chars! "Type_north",
   chars! "Type_open",
   chars! "Type_outerBoundaryIs",
   chars! "Type_outline",
   chars! "Type_overlayXY",
   chars! "Type_phoneNumber",
   chars! "Type_range",
   chars! "Type_refreshInterval",
   chars! "Type_refreshMode",
   chars! "Type_refreshVisibility",
   chars! "Type_rightFov",
   chars! "Type_roll",
   chars! "Type_rotation",
   chars! "Type_rotationXY",
   chars! "Type_scale",
   chars! "Type_screenXY",
   chars! "Type_shape",
   chars! "Type_size",
   chars! "Type_snippet",
   chars! "Type_sourceHref",
   chars! "Type_south",
   chars! "Type_state",
   chars! "Type_styleUrl",
   chars! "Type_targetHref",
   chars! "Type_tessellate",
   chars! "Type_text",
   chars! "Type_textColor",
   chars! "Type_tileSize",
   chars! "Type_tilt",
   chars! "Type_topFov",
   chars! "Type_units",
   chars! "Type_value",
   chars! "Type_viewBoundScale",
   chars! "Type_viewFormat",
   chars! "Type_viewRefreshMode",
   chars! "Type_viewRefreshTime",
   chars! "Type_visibility",
   chars! "Type_west",
   chars! "Type_when",
   chars! "Type_width",
   chars! "Type_x",
   chars! "Type_y",
   chars! "Type_z",
   chars! "Type_AtomAuthor",
   chars! "Type_AtomCategory",
   chars! "Type_AtomContent",
   chars! "Type_AtomEntry",
   chars! "Type_AtomFeed",
   chars! "Type_AtomLink",
   chars! "Type_atomEmail",
   chars! "Type_atomId",
   chars! "Type_atomLabel",
   chars! "Type_atomName",
   chars! "Type_atomScheme",
   chars! "Type_atomSummary",
   chars! "Type_atomTerm",
   chars! "Type_atomTitle",
   chars! "Type_atomUpdated",
   chars! "Type_atomUri",
   chars! "Type_XalAddressDetails",
   chars! "Type_XalAdministrativeArea",
   chars! "Type_XalCountry",
   chars! "Type_XalLocality",
   chars! "Type_XalPostalCode",
   chars! "Type_XalSubAdministrativeArea",
   chars! "Type_XalThoroughfare",
   chars! "Type_xalAdministrativeAreaName",
   chars! "Type_xalCountryNameCode",
   chars! "Type_xalLocalityName",
   chars! "Type_xalPostalCodeNumber",
   chars! "Type_xalSubAdministrativeAreaName",
   chars! "Type_xalThoroughfareName",
   chars! "Type_xalThoroughfareNumber",
   chars! "Type_GxTourPrimitive",
   chars! "Type_GxAnimatedUpdate",
   chars! "Type_GxFlyTo",
   chars! "Type_GxLatLonQuad",
   chars! "Type_GxPlaylist",
   chars! "Type_GxSoundCue",
   chars! "Type_GxTimeSpan",
   chars! "Type_GxTimeStamp",
   chars! "Type_GxTour",
   chars! "Type_GxTourControl",
   chars! "Type_GxWait",
   chars! "Type_GxAltitudeMode",
   chars! "Type_GxBalloonVisibility",
   chars! "Type_GxDuration",
   chars! "Type_GxFlyToMode",
   chars! "Type_GxPlayMode",
   chars! "Type_Invalid"]

/-- kml22.cc 285-339: `kKml22Enums`, each enumeration element with its values in
order.  The terminating NULL of each list is the end of the Lean list. -/
def kml22Enums : List (Ty × List Str) :=
  [(Ty.«altitudeMode», [chars! "clampToGround", chars! "relativeToGround", chars! "absolute"]),
   (Ty.«colorMode», [chars! "normal", chars! "random"]),
   (Ty.«displayMode», [chars! "default", chars! "hide"]),
   (Ty.«gridOrigin», [chars! "lowerLeft", chars! "upperLeft"]),
   (Ty.«state», [chars! "open", chars! "closed", chars! "error", chars! "fetching0", chars! "fetching1", chars! "fetching2"]),
   (Ty.«listItemType», [chars! "check", chars! "radioFolder", chars! "checkOffOnly", chars! "checkHideChildren"]),
   (Ty.«refreshMode», [chars! "onChange", chars! "onInterval", chars! "onExpire"]),
   (Ty.«shape», [chars! "rectangle", chars! "cylinder", chars! "sphere"]),
   (Ty.«key», [chars! "normal", chars! "highlight"]),
   (Ty.«units», [chars! "fraction", chars! "pixels", chars! "insetPixels"]),
   (Ty.«viewRefreshMode», [chars! "never", chars! "onRequest", chars! "onStop", chars! "onRegion"]),
   (Ty.«GxAltitudeMode», [chars! "clampToSeaFloor", chars! "relativeToSeaFloor"]),
   (Ty.«GxFlyToMode», [chars! "bounce", chars! "smooth"]),
   (Ty.«GxPlayMode», [chars! "pause"])]

end Kml
