import Verif.Model.Basic
/-! `std::map<string, T>` as a list of pairs in ascending key order. -/
namespace Kml

/-- `std::string::operator<`: lexicographic order of the bytes. -/
def strLt : Str → Str → Bool
  | [], [] => false
  | [], _ :: _ => true
  | _ :: _, [] => false
  | a :: as, b :: bs => a.toNat < b.toNat || (a.toNat = b.toNat && strLt as bs)

/-- The entries of a `std::map` with string keys, in iteration order. -/
abbrev StdMap (β : Type u) := List (Str × β)

namespace StdMap

/-- `m.find(k)`, `none` for `end()`. -/
def get : StdMap β → Str → Option β
  | [], _ => none
  | (k', v) :: m, k => if k' = k then some v else get m k

/-- `m[k] = v`. -/
def set : StdMap β → Str → β → StdMap β
  | [], k, v => [(k, v)]
  | (k', v') :: m, k, v =>
    if k' = k then (k, v) :: m
    else if strLt k k' then (k, v) :: (k', v') :: m
    else (k', v') :: set m k v

/-- `m.erase(k)`. -/
def erase : StdMap β → Str → StdMap β
  | [], _ => []
  | (k', v') :: m, k => if k' = k then m else (k', v') :: erase m k

/-- The keys are strictly ascending. -/
def Sorted (m : StdMap β) : Prop := m.Pairwise fun a b => strLt a.1 b.1 = true

end StdMap
end Kml
