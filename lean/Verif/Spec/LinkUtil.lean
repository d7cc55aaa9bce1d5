import Verif.Model.LinkUtil
/-! What is used to state C93. -/
namespace Kml.Dom
open Kml.Kmz

/-- The caches after some requests on new caches for `maxSize` files, in any order; `ok` tells which requests for KML files
there may be among them. -/
inductive Reached {F : Type} (lib : UriLib) (w : World) (mk : Str → Str → Option F) (maxSize : Nat) (ok : Str → Str → Prop) :
    Caches F → Prop
  | new : Reached lib w mk maxSize ok (.new maxSize)
  | kml {c c' : Caches F} {fuel : Nat} {base target : Str} {r : Option F} (h : Reached lib w mk maxSize ok c) (hok : ok base target)
      (hr : c.kml lib w mk fuel base target = some (r, c')) : Reached lib w mk maxSize ok c'
  | data {c c' : Caches F} {fuel : Nat} {base target : Str} {r : Option Str} (h : Reached lib w mk maxSize ok c)
      (hr : c.data lib w fuel base target = some (r, c')) : Reached lib w mk maxSize ok c'

/-- The archive of a URI is there and does not have what the URI names. -/
def Missing (w : World) (u : KmlUri) : Prop :=
  ∃ data z, w.net u.kmzUrl = some data ∧ w.openKmz data = some z ∧
    ((u.pathInKmz = [] ∧ readKmlAndGetPath w z = none) ∨
     (u.pathInKmz ≠ [] ∧ ZipFile.getEntry w.caseCounts w.max z u.pathInKmz = none))

/-- A target that is looked for beside an archive, because it was not in it, is not an archive itself, and if it names a file in an
archive then the file is in it. -/
def NoArchiveBeside (lib : UriLib) (w : World) (base target : Str) : Prop :=
  ∀ u v, createRelative lib base target = some u → u.isKmz = true → Missing w u → createRelative lib u.kmzUrl target = some v →
    v.isKmz = true → v.pathInKmz ≠ [] ∧ ¬ Missing w v

/-- The names of the first KML files of all archives can be used as they are in addresses. -/
def PlainNames (lib : UriLib) (w : World) : Prop :=
  ∀ url data z name, w.net url = some data → w.openKmz data = some z → ZipFile.findFirstOf z ".kml".toList = some name →
    fetchableUri lib (url ++ "/".toList ++ name) = some (url ++ "/".toList ++ name)

end Kml.Dom
