import Verif.Model.Style

/-!
# The styles a reference stands for

`find` says which shared style a URL names.  A chain of references is a style map found by one, a pair of which has
another, and so on.
-/

namespace Kml.Dom

open Kml

/-- A pair is for a state: that of its `<key>`, or `normal` if it has none. -/
def Elem.forState (p : Elem) (state : Str) : Bool :=
  match p with
  | .field _ _ => state = chars! "normal"
  | .node _ _ slots _ _ =>
    match slots M.«key» with
    | [.field _ key] => key = state
    | _ => state = chars! "normal"

/-- What is looked at first and what is looked at next: references looked at, and how many up to the last that leads
anywhere. -/
def lastOf (count₁ last₁ last₂ : Nat) : Nat := if last₂ = 0 then last₁ else count₁ + last₂

mutual

/-- `UrlGives find state depth count last url l`: the styles `url` stands for are `l`, in the order in which they are to
be merged.  `depth` is the length of the longest chain of references that leads anywhere; `count` is the number of
pairs and features looked at, whether or not they have a reference, and `last` is the number of the last one
that leads anywhere. -/
inductive UrlGives (find : Str → Option Elem) (state : Str) : Nat → Nat → Nat → Str → List Elem → Prop
  | nothing {url : Str} : find url = none → UrlGives find state 0 1 0 url []
  | found {url : Str} {e : Elem} {d c k : Nat} {l : List Elem} : find url = some e →
    SelGives find state d c k (some e) l → UrlGives find state (d + 1) (c + 1) (k + 1) url l

/-- The same for a style or a style map. -/
inductive SelGives (find : Str → Option Elem) (state : Str) : Nat → Nat → Nat → Option Elem → List Elem → Prop
  | none : SelGives find state 0 0 0 none []
  | style {e : Elem} : e.ty = Ty.«Style» → SelGives find state 0 0 0 (some e) [e]
  | map {e : Elem} {d c k : Nat} {l : List Elem} : e.ty = Ty.«StyleMap» →
    PairsGive find state d c k ((e.items M.«pair_array»).filter fun p => p.forState state) l →
    SelGives find state d c k (some e) l
  | other {e : Elem} : e.ty ≠ Ty.«Style» → e.ty ≠ Ty.«StyleMap» → SelGives find state 0 0 0 (some e) []

/-- The same for pairs: of each the shared style, and over it the one inside. -/
inductive PairsGive (find : Str → Option Elem) (state : Str) : Nat → Nat → Nat → List Elem → List Elem → Prop
  | nil : PairsGive find state 0 0 0 [] []
  | cons {p : Elem} {ps : List Elem} {d₁ c₁ k₁ d₂ c₂ k₂ d₃ c₃ k₃ : Nat} {l₁ l₂ l₃ : List Elem} :
    UrlGives find state d₁ c₁ k₁ (p.text M.«styleurl») l₁ →
    SelGives find state d₂ c₂ k₂ (p.only M.«styleselector») l₂ →
    PairsGive find state d₃ c₃ k₃ ps l₃ →
    PairsGive find state (max d₁ (max d₂ d₃)) (c₁ + (c₂ + c₃)) (lastOf c₁ k₁ (lastOf c₂ k₂ k₃)) (p :: ps)
      (l₁ ++ (l₂ ++ l₃))

end

/-- Merge each style of a list over the ones before. -/
def mergeAll (n : NumLib) : List Elem → Elem → Outcome Elem
  | [], r => .ok r
  | e :: l, r => do
    let r ← mergeElements n e r
    mergeAll n l r

/-- A chain of `k` references, with one pair in each style map that has the state: the styles found. -/
inductive Chain (find : Str → Option Elem) (state : Str) : Nat → Str → List Elem → Prop
  | nothing {url : Str} : find url = none → Chain find state 0 url []
  | style {url : Str} {e : Elem} : find url = some e → e.ty = Ty.«Style» → Chain find state 1 url [e]
  | map {url : Str} {e p : Elem} {k : Nat} {l : List Elem} : find url = some e → e.ty = Ty.«StyleMap» →
    ((e.items M.«pair_array»).filter fun p => p.forState state) = [p] →
    (p.only M.«styleselector» = none ∨ ∃ s, p.only M.«styleselector» = some s ∧ s.ty = Ty.«Style») →
    Chain find state k (p.text M.«styleurl») l →
    Chain find state (k + 1) url (l ++ (p.only M.«styleselector»).toList)

end Kml.Dom
