import Verif.Model.StringUtil
/-! Model of how long `KmlCache` objects and the `KmlFile` objects they made may be used: `src/kml/engine/kml_cache.cc`,
`link_util.cc`, `kml_file.cc` and `src/kml/base/net_cache.h`.

How links are resolved (`Model/Kmz.lean`, `Model/Rfc.lean`) and what is fetched (`Model/NetCache.lean`) are parameters here.  The
cache of archives is left out: only what it gives counts. -/
namespace Kml.CacheLife
open Kml

/-- kml_cache.h 92-93 with net_cache.h 210-213: the limit, and the files by URL, the oldest first. -/
structure Cache where
  max : Nat
  entries : List (Str × Nat)

/-- kml_file.h 173-178 and xml_file.h 76: the URL of a file, and its plain pointer to the cache that made it. -/
structure File where
  url : Str
  cache : Option Nat

/-- The variables of the client that hold smart pointers to files (`none` is a null pointer), the caches that live, the files
that were made, and the next id. -/
structure State where
  vars : Nat → Option Nat
  caches : Nat → Option Cache
  files : Nat → Option File
  next : Nat

def State.init : State := ⟨fun _ => none, fun _ => none, fun _ => none, 0⟩

/-- What is outside: the URL of a link in a file with that URL, and, if fetching a URL and parsing what was fetched go well, the
URL of what was fetched (that of a KML file in an archive is longer). -/
structure World where
  resolve : Str → Str → Option Str
  fetch : Str → Option Str

/-- net_cache.h 142-150 `LookUp`. -/
def Cache.lookUp (k : Cache) (url : Str) : Option Nat := (k.entries.find? fun e => e.1 = url).map (·.2)

/-- net_cache.h 157-170 `Save`, with `RemoveOldest`. -/
def Cache.save (k : Cache) (url : Str) (f : Nat) : Cache :=
  match k.lookUp url with
  | some _ => k
  | none => { k with entries := (if k.entries.length = k.max then k.entries.drop 1 else k.entries) ++ [(url, f)] }

/-- kml_cache.cc 41-66 `FetchKmlRelative` of the cache `c`: undefined if it is gone. -/
def fetchRelative (w : World) (s : State) (c : Nat) (base target : Str) : Outcome (Option Nat × State) :=
  match s.caches c with
  | none => .ub
  | some k =>
    match w.resolve base target with
    | none => .ok (none, s)
    | some url =>
      match k.lookUp url with
      | some f => .ok (some f, s)
      | none =>
        match w.fetch url with
        | none => .ok (none, s)
        | some url => .ok (some s.next, { s with
            files := fun f => if f = s.next then some ⟨url, some c⟩ else s.files f
            caches := fun d => if d = c then some (k.save url s.next) else s.caches d
            next := s.next + 1 })

/-- What a client does. -/
inductive Op where
  /-- a cache with that limit, whose id is the next one -/
  | openCache (max : Nat)
  /-- the cache goes out of scope -/
  | closeCache (c : Nat)
  /-- `KmlFile::CreateFromString` into a variable -/
  | parse (v : Nat)
  /-- `FetchKmlAbsolute` of a cache into a variable -/
  | fetch (c : Nat) (url : Str) (v : Nat)
  /-- `FetchLink` of the file in `w` and a link with that content into a variable -/
  | link (w : Nat) (href : Str) (v : Nat)
  /-- a variable goes out of scope -/
  | forget (v : Nat)

def State.put (s : State) (v : Nat) (f : Option Nat) : State := { s with vars := fun x => if x = v then f else s.vars x }

/-- One step.  kml_cache.cc 36-39 (`openCache`), 69-74 `FetchKmlAbsolute`; link_util.cc 34-43 `FetchLink`; kml_file.cc 95-99.
style_merger.cc 103-111 uses the cache of a file in the same way. -/
def step (w : World) (s : State) : Op → Outcome State
  | .openCache max => .ok { s with caches := fun c => if c = s.next then some ⟨max, []⟩ else s.caches c, next := s.next + 1 }
  | .closeCache c => .ok { s with caches := fun d => if d = c then none else s.caches d }
  | .parse v =>
      .ok ({ s with files := fun f => if f = s.next then some ⟨[], none⟩ else s.files f, next := s.next + 1 }.put v (some s.next))
  | .fetch c url v => fetchRelative w s c url url >>= fun r => .ok (r.2.put v r.1)
  | .link x href v =>
      match (s.vars x).bind s.files with
      | none => .ub
      | some file =>
        match file.cache with
        | none => .ok (s.put v none)
        | some c => fetchRelative w s c file.url href >>= fun r => .ok (r.2.put v r.1)
  | .forget v => .ok (s.put v none)

/-- A history.  Not in the code: the caller. -/
def run (w : World) (s : State) : List Op → Outcome State
  | [] => .ok s
  | op :: ops => step w s op >>= fun s => run w s ops

end Kml.CacheLife
