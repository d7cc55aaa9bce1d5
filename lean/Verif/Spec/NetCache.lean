import Verif.Model.Basic
/-! A bounded first-in-first-out queue: what a fetch cache should be. -/
namespace Kml.NetCache
open Kml

/-- Pairs of a URL and the item stored under it, the one stored longest ago first. -/
abbrev Queue (α : Type) := List (Str × Option α)

variable {α : Type}

namespace Queue

/-- The item stored under a URL. -/
def look (q : Queue α) (url : Str) : Option α := (q.lookup url).join

/-- Store under a URL: refused if there is an item; otherwise the oldest entry makes room if the queue is
full, and the new entry becomes the youngest. -/
def save (n : Nat) (q : Queue α) (url : Str) (item : Option α) : Bool × Queue α :=
  if (look q url).isSome then (false, q)
  else (true, (if q.length = n then q.tail else q).filter (fun e => e.1 ≠ url) ++ [(url, item)])

/-- Remove the entry of a URL, if it has an item. -/
def delete (q : Queue α) (url : Str) : Bool × Queue α :=
  if (look q url).isSome then (true, q.filter fun e => e.1 ≠ url) else (false, q)

/-- Remove the oldest entry. -/
def removeOldest (q : Queue α) : Bool × Queue α := (!q.isEmpty, q.tail)

/-- Return the stored item, or ask the network and store the answer. -/
def fetch (net : Str → Option Str) (mk : Str → Option α) (n : Nat) (q : Queue α) (url : Str) :
    Option α × Queue α × Bool :=
  match look q url, net url with
  | some i, _ => (some i, q, false)
  | none, none => (none, q, true)
  | none, some data => (mk data, (save n q url (mk data)).2, true)

end Queue

/-- The calls a client can make. -/
inductive Op (α : Type) where
  | lookUp (url : Str)
  | fetch (url : Str)
  | save (url : Str) (item : Option α)
  | delete (url : Str)
  | removeOldest
  | size

/-- What a client sees. -/
inductive Res (α : Type) where
  | item (i : Option α)
  | fetched (i : Option α) (askedNetwork : Bool)
  | flag (b : Bool)
  | size (n : Nat)

/-- One call on the queue. -/
def Queue.step (net : Str → Option Str) (mk : Str → Option α) (n : Nat) (q : Queue α) : Op α → Res α × Queue α
  | .lookUp url => (.item (Queue.look q url), q)
  | .fetch url => let r := Queue.fetch net mk n q url; (.fetched r.1 r.2.2, r.2.1)
  | .save url item => let r := Queue.save n q url item; (.flag r.1, r.2)
  | .delete url => let r := Queue.delete q url; (.flag r.1, r.2)
  | .removeOldest => let r := Queue.removeOldest q; (.flag r.1, r.2)
  | .size => (.size q.length, q)

/-- A history of calls on the queue: the answers and the final queue. -/
def Queue.run (net : Str → Option Str) (mk : Str → Option α) (n : Nat) : Queue α → List (Op α) → List (Res α) × Queue α
  | q, [] => ([], q)
  | q, op :: ops =>
    let r := Queue.step net mk n q op
    let r' := Queue.run net mk n r.2 ops
    (r.1 :: r'.1, r'.2)

end Kml.NetCache
