import Verif.Model.Kmz
import Verif.Model.Style
/-! Model of `src/kml/engine/link_util.cc`, `link_util.h` and of the rest of `kml_cache.cc`. -/
namespace Kml.Dom
open Kml.Kmz

/-- What is read of a `KmlFile` here (kml_file.h): its URL and whether it has a `KmlCache`. -/
structure FileRef where
  url : Str
  hasCache : Bool

/-- The caches behind a `KmlCache` (kml_cache.h): those of the `KmzCache` and that of the parsed files. -/
structure Caches (F : Type) where
  raw : KState
  files : NetCache.Cache F

/-- kml_cache.cc 36-39: the constructor. -/
def Caches.new {F : Type} (maxSize : Nat) : Caches F := ⟨⟨NetCache.init maxSize, NetCache.init maxSize⟩, NetCache.init maxSize⟩

/-- kml_cache.cc 41-66 `FetchKmlRelative` on a `KmlCache`. -/
def Caches.kml {F : Type} (lib : UriLib) (w : World) (mk : Str → Str → Option F) (fuel : Nat) (c : Caches F) (base target : Str) :
    Option (Option F × Caches F) :=
  (fetchKmlRelative lib w mk fuel c.raw c.files base target).map fun r => (r.1, ⟨r.2.1, r.2.2⟩)

/-- kml_cache.cc 68-74 `FetchKmlAbsolute`. -/
def Caches.kmlAbsolute {F : Type} (lib : UriLib) (w : World) (mk : Str → Str → Option F) (fuel : Nat) (c : Caches F) (uri : Str) :
    Option (Option F × Caches F) := c.kml lib w mk fuel uri uri

/-- kml_cache.cc 76-85 `FetchDataRelative` on a `KmlCache`. -/
def Caches.data {F : Type} (lib : UriLib) (w : World) (fuel : Nat) (c : Caches F) (base target : Str) :
    Option (Option Str × Caches F) :=
  (fetchDataRelative lib w fuel c.raw base target).map fun r => (r.1, { c with raw := r.2 })

/-- link_util.h 54-61 `GetHref`; `none` is false. -/
def getHref (parent : Option Elem) : Option Str := parent.bind fun p => single (p.items M.«href»)

/-- link_util.h 65-68 `GetLinkParentHref`. -/
def getLinkParentHref (parent : Elem) : Option Str := getHref (parent.only M.«link»)

/-- link_util.h 72-75 `GetIconParentHref`. -/
def getIconParentHref (parent : Elem) : Option Str := getHref (parent.only M.«icon»)

/-- link_util.cc 34-43 `FetchLink`; the inner `none` is NULL. -/
def fetchLink {F : Type} (lib : UriLib) (w : World) (mk : Str → Str → Option F) (fuel : Nat) (c : Caches F) (file : FileRef)
    (link : Elem) : Option (Option F × Caches F) :=
  if file.hasCache then
    match getLinkParentHref link with
    | some href => c.kml lib w mk fuel file.url href
    | none => some (none, c)
  else some (none, c)

/-- link_util.cc 45-55 `FetchIcon`; the inner `none` is false. -/
def fetchIcon {F : Type} (lib : UriLib) (w : World) (fuel : Nat) (c : Caches F) (file : FileRef)
    (overlay : Elem) : Option (Option Str × Caches F) :=
  if file.hasCache then
    match getIconParentHref overlay with
    | some href => c.data lib w fuel file.url href
    | none => some (none, c)
  else some (none, c)

end Kml.Dom
