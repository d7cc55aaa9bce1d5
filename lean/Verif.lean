import Verif.Lemmas.AttrRound
import Verif.Lemmas.Attributes
import Verif.Lemmas.CanonAttrs
import Verif.Lemmas.Canonical
import Verif.Lemmas.Children
import Verif.Lemmas.Clone
import Verif.Lemmas.Color32
import Verif.Lemmas.Counter
import Verif.Lemmas.Escape
import Verif.Lemmas.Expand
import Verif.Lemmas.Faithful
import Verif.Lemmas.FaithfulBuild
import Verif.Lemmas.Features
import Verif.Lemmas.File
import Verif.Lemmas.FileObs
import Verif.Lemmas.Find
import Verif.Lemmas.FindText
import Verif.Lemmas.Handler
import Verif.Lemmas.Heard
import Verif.Lemmas.Held
import Verif.Lemmas.HeldValues
import Verif.Lemmas.Ids
import Verif.Lemmas.Ieee
import Verif.Lemmas.IeeeNear
import Verif.Lemmas.IeeeText
import Verif.Lemmas.Import
import Verif.Lemmas.Lexer
import Verif.Lemmas.Listen
import Verif.Lemmas.Making
import Verif.Lemmas.Meddle
import Verif.Lemmas.Merge
import Verif.Lemmas.MergeAttrs
import Verif.Lemmas.MergeFields
import Verif.Lemmas.Namespaces
import Verif.Lemmas.Nesting
import Verif.Lemmas.NetCache
import Verif.Lemmas.Observers
import Verif.Lemmas.OldSchema
import Verif.Lemmas.OldSchemaDoc
import Verif.Lemmas.OldSchemaMain
import Verif.Lemmas.OldSchemaRun
import Verif.Lemmas.OldSchemaSim
import Verif.Lemmas.ParseOldIn
import Verif.Lemmas.Pick
import Verif.Lemmas.Print
import Verif.Lemmas.Refine
import Verif.Lemmas.Regionator
import Verif.Lemmas.Rfc
import Verif.Lemmas.RfcResolve
import Verif.Lemmas.SafeBuild
import Verif.Lemmas.StdMap
import Verif.Lemmas.StringUtil
import Verif.Lemmas.Style
import Verif.Lemmas.StyleInline
import Verif.Lemmas.StyleSplit
import Verif.Lemmas.Unknown
import Verif.Lemmas.Unzip
import Verif.Lemmas.UnzipArchive
import Verif.Lemmas.UnzipEntry
import Verif.Lemmas.UnzipGet
import Verif.Lemmas.UnzipSafe
import Verif.Lemmas.UnzipSearch
import Verif.Lemmas.Update
import Verif.Lemmas.UpdateTree
import Verif.Lemmas.Visitor
import Verif.Lemmas.Walk
import Verif.Lemmas.Xsd
import Verif.Lemmas.XsdDoc
import Verif.Lemmas.XsdFile
import Verif.Model.Answers
import Verif.Model.Attributes
import Verif.Model.Basic
import Verif.Model.Bbox
import Verif.Model.CacheLife
import Verif.Model.Casts
import Verif.Model.Classes
import Verif.Model.Clock
import Verif.Model.Clone
import Verif.Model.Color32
import Verif.Model.Color32Obj
import Verif.Model.Convenience
import Verif.Model.Coordinates
import Verif.Model.Counter
import Verif.Model.DateTime
import Verif.Model.DateTimeText
import Verif.Model.Disk
import Verif.Model.DiskWin
import Verif.Model.Dom
import Verif.Model.DoubleArith
import Verif.Model.Entity
import Verif.Model.ExpatCalls
import Verif.Model.FeatureList
import Verif.Model.FeatureListRegionator
import Verif.Model.FeatureSaver
import Verif.Model.Feed
import Verif.Model.Fields
import Verif.Model.Gpx
import Verif.Model.Handler
import Verif.Model.Http
import Verif.Model.Ieee
import Verif.Model.Kml22
import Verif.Model.KmlFile
import Verif.Model.Kmz
import Verif.Model.KmzObject
import Verif.Model.KmzWrite
import Verif.Model.LinkUtil
import Verif.Model.Links
import Verif.Model.Lit
import Verif.Model.Locale
import Verif.Model.Location
import Verif.Model.Making
import Verif.Model.MapsData
import Verif.Model.MathUtil
import Verif.Model.Meddle
import Verif.Model.Merge
import Verif.Model.Namespaces
import Verif.Model.NetCache
import Verif.Model.Numbers
import Verif.Model.Parents
import Verif.Model.ParseNs
import Verif.Model.ParseOld
import Verif.Model.ParseOldIn
import Verif.Model.Referent
import Verif.Model.Regionator
import Verif.Model.Rfc
import Verif.Model.Serializer
import Verif.Model.StdMap
import Verif.Model.Stream
import Verif.Model.StringUtil
import Verif.Model.Style
import Verif.Model.StyleInline
import Verif.Model.StyleSplit
import Verif.Model.Threads
import Verif.Model.Unzip
import Verif.Model.Update
import Verif.Model.Uri
import Verif.Model.UriFile
import Verif.Model.UriMem
import Verif.Model.Visitor
import Verif.Model.Walk
import Verif.Model.XmlChar
import Verif.Model.XmlElement
import Verif.Model.Xsd
import Verif.Model.XsdFile
import Verif.Model.XsdMake
import Verif.Model.XsdNamespace
import Verif.Model.ZipFile
import Verif.Props.Answers
import Verif.Props.Attributes
import Verif.Props.Bbox
import Verif.Props.CacheLife
import Verif.Props.Casts
import Verif.Props.Children
import Verif.Props.Clock
import Verif.Props.Clone
import Verif.Props.Color32
import Verif.Props.Color32Obj
import Verif.Props.Convenience
import Verif.Props.Coordinates
import Verif.Props.Counter
import Verif.Props.DateTime
import Verif.Props.DateTimeText
import Verif.Props.Disk
import Verif.Props.DiskWin
import Verif.Props.DoubleArith
import Verif.Props.Entity
import Verif.Props.ExpatCalls
import Verif.Props.Faithful
import Verif.Props.FeatureList
import Verif.Props.FeatureListRegionator
import Verif.Props.FeatureSaver
import Verif.Props.Feed
import Verif.Props.Fields
import Verif.Props.File
import Verif.Props.Gpx
import Verif.Props.Heard
import Verif.Props.Http
import Verif.Props.Ieee
import Verif.Props.Kmz
import Verif.Props.KmzObject
import Verif.Props.KmzWrite
import Verif.Props.LinkUtil
import Verif.Props.Links
import Verif.Props.Locale
import Verif.Props.Location
import Verif.Props.Making
import Verif.Props.MapsData
import Verif.Props.MathUtil
import Verif.Props.Merge
import Verif.Props.Namespaces
import Verif.Props.NetCache
import Verif.Props.Observers
import Verif.Props.OldSchema
import Verif.Props.Parents
import Verif.Props.ParseNs
import Verif.Props.ParseOld
import Verif.Props.ParseOldIn
import Verif.Props.Parser
import Verif.Props.Quoting
import Verif.Props.Referent
import Verif.Props.Regionator
import Verif.Props.Requests
import Verif.Props.Rfc
import Verif.Props.RfcFetch
import Verif.Props.RoundTrip
import Verif.Props.Scores
import Verif.Props.Serializer
import Verif.Props.Services
import Verif.Props.Stream
import Verif.Props.StringUtil
import Verif.Props.Style
import Verif.Props.StyleInline
import Verif.Props.StyleSplit
import Verif.Props.Threads
import Verif.Props.Unknown
import Verif.Props.Unzip
import Verif.Props.UnzipArchive
import Verif.Props.Update
import Verif.Props.Uri
import Verif.Props.UriFile
import Verif.Props.UriMem
import Verif.Props.Visitor
import Verif.Props.Walk
import Verif.Props.XmlChar
import Verif.Props.XmlElement
import Verif.Props.Xsd
import Verif.Props.XsdFile
import Verif.Props.XsdMake
import Verif.Props.XsdNamespace
import Verif.Props.XsdOf
import Verif.Props.XsdTypes
import Verif.Props.ZipFile
import Verif.Spec.Answers
import Verif.Spec.Build
import Verif.Spec.Canonical
import Verif.Spec.Casts
import Verif.Spec.Children
import Verif.Spec.Clone
import Verif.Spec.Convenience
import Verif.Spec.Counter
import Verif.Spec.DateTimeText
import Verif.Spec.Entity
import Verif.Spec.ExpatCalls
import Verif.Spec.Faithful
import Verif.Spec.FeatureListRegionator
import Verif.Spec.FeatureSaver
import Verif.Spec.Features
import Verif.Spec.Feed
import Verif.Spec.Fields
import Verif.Spec.File
import Verif.Spec.Geo
import Verif.Spec.Gpx
import Verif.Spec.Held
import Verif.Spec.Ieee
import Verif.Spec.Inflate
import Verif.Spec.KmzWrite
import Verif.Spec.Lexer
import Verif.Spec.LinkUtil
import Verif.Spec.Links
import Verif.Spec.Listen
import Verif.Spec.Making
import Verif.Spec.MapsData
import Verif.Spec.MathUtil
import Verif.Spec.Meddle
import Verif.Spec.Merge
import Verif.Spec.Namespaces
import Verif.Spec.NetCache
import Verif.Spec.Numbers
import Verif.Spec.Observers
import Verif.Spec.OldSchema
import Verif.Spec.ParseNs
import Verif.Spec.ParseOldIn
import Verif.Spec.Place
import Verif.Spec.Print
import Verif.Spec.Rfc
import Verif.Spec.Stream
import Verif.Spec.StringUtil
import Verif.Spec.Style
import Verif.Spec.StyleInline
import Verif.Spec.StyleSplit
import Verif.Spec.Unknown
import Verif.Spec.Update
import Verif.Spec.UriFile
import Verif.Spec.Visitor
import Verif.Spec.Xml
import Verif.Spec.XmlChar
import Verif.Spec.XmlTree
import Verif.Spec.Xsd
import Verif.Spec.XsdFile
import Verif.Spec.XsdTypes
import Verif.Spec.Zip
