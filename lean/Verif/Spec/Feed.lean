import Verif.Model.Feed

/-! # Features of a feed -/

namespace Kml.Dom

open Kml

/-- The feature of an entry: the first child that is not an Atom one of its content. -/
def featureOf (entry : Elem) : Option Elem :=
  match (entry.items M.«content»).map Elem.misplaced with
  | (f :: _) :: _ => if f.isA Ty.«Feature» then some f else none
  | _ => none

/-- The features of a feed, in the order of their entries. -/
def featuresOf (feed : Elem) : List Elem := (feed.items M.«entry_array»).filterMap featureOf

/-- Two elements of the same type that are written alike. -/
def SameText (a b : Elem) : Prop := a.ty = b.ty ∧ ∀ newline indent, serialize newline indent a = serialize newline indent b

/-- Two lists of the same length, item by item alike. -/
inductive AllSame : List Elem → List Elem → Prop
  | nil : AllSame [] []
  | cons {a b : Elem} {as bs : List Elem} : SameText a b → AllSame as bs → AllSame (a :: as) (b :: bs)

/-- The pages of a feed: each but the last one leads to the next one. -/
def Pages (fetch : Str → Option Elem) : List Elem → Prop
  | [] => False
  | [p] => (findRelUrl p (chars! "next")).bind fetch = none
  | p :: q :: ps => (findRelUrl p (chars! "next")).bind fetch = some q ∧ Pages fetch (q :: ps)

/-- The first item of a list with a property. -/
def FirstIn (l : List Elem) (P : Elem → Prop) (x : Elem) : Prop :=
  ∃ before after, l = before ++ x :: after ∧ P x ∧ ∀ y ∈ before, ¬ P y

end Kml.Dom
