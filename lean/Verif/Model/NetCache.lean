import Verif.Model.StdMap
/-! Model of `src/kml/base/net_cache.h`. -/
namespace Kml.NetCache
open Kml

/-- net_cache.h 208-211: the members.  `α` is `CacheItem`; a null `CacheItemPtr` is `none`.
`cache_count_` is a natural number: the code relies on its 64 bits never rolling over (line 164). -/
structure Cache (α : Type) where
  maxSize : Nat
  map : StdMap (Option α × Nat)
  count : Nat

variable {α : Type}

/-- net_cache.h 106-109: the constructor. -/
def init (maxSize : Nat) : Cache α := ⟨maxSize, [], 0⟩

/-- net_cache.h 142-150 `LookUp`. -/
def lookUp (c : Cache α) (url : Str) : Option α :=
  match c.map.get url with
  | none => none
  | some e => e.1

/-- net_cache.h 190-200: the loop that looks for the smallest time stamp. -/
def findOldest (best : Str × Option α × Nat) : StdMap (Option α × Nat) → Str × Option α × Nat
  | [] => best
  | e :: m => findOldest (if e.2.2 < best.2.2 then e else best) m

/-- net_cache.h 186-202 `RemoveOldest`. -/
def removeOldest (c : Cache α) : Bool × Cache α :=
  match c.map with
  | [] => (false, c)
  | e :: m => (true, { c with map := c.map.erase (findOldest e (e :: m)).1 })

/-- net_cache.h 157-170 `Save`. -/
def save (c : Cache α) (url : Str) (item : Option α) : Bool × Cache α :=
  match lookUp c url with
  | some _ => (false, c)
  | none =>
    let c1 := if c.map.length = c.maxSize then (removeOldest c).2 else c
    (true, { c1 with map := c1.map.set url (item, c1.count), count := c1.count + 1 })

/-- net_cache.h 175-182 `Delete`. -/
def delete (c : Cache α) (url : Str) : Bool × Cache α :=
  match lookUp c url with
  | some _ => (true, { c with map := c.map.erase url })
  | none => (false, c)

/-- net_cache.h 119-136 `Fetch`.  `net url` is the answer of `FetchUrl` (`none` for `false`),
`mk data` that of `CreateFromString`.  The last component tells whether the network was asked. -/
def fetch (net : Str → Option Str) (mk : Str → Option α) (c : Cache α) (url : Str) :
    Option α × Cache α × Bool :=
  match lookUp c url with
  | some i => (some i, c, false)
  | none =>
    match net url with
    | none => (none, c, true)
    | some data =>
      let item := mk data
      let r := save c url item
      if r.1 then (item, r.2, true) else (none, r.2, true)

end Kml.NetCache
