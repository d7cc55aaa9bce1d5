import Verif.Model.Walk

/-!
# The hierarchy of features
-/

namespace Kml.Dom

open Kml

/-- The feature reached from a feature by going down to the numbered features of containers. -/
def featureAt : Elem → List Nat → Option Elem
  | e, [] => some e
  | .field _ _, _ :: _ => none
  | .node t a slots mis unk, i :: is =>
    if (Elem.node t a slots mis unk).isA Ty.«Container» then ((slots M.«feature_array»)[i]?).bind fun x => featureAt x is
    else none

/-- The place of that feature. -/
def featurePath (is : List Nat) : List Step := is.map (Step.slot M.«feature_array»)

/-- Earlier in a preorder traversal: a feature before the features below it, and one child with all that is below it
before the next child. -/
def Earlier : List Nat → List Nat → Prop
  | [], [] => False
  | [], _ :: _ => True
  | _ :: _, [] => False
  | i :: is, j :: js => i < j ∨ i = j ∧ Earlier is js

end Kml.Dom
