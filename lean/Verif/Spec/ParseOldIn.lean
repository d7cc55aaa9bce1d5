import Verif.Spec.Place
import Verif.Model.ParseOld
import Verif.Lemmas.Clone

/-!
# What converting the instances of old-style schemas does to a tree
-/

namespace Kml.Dom

open Kml

/-- Nothing about an element itself changes, and it keeps its children, but behind its features there are more. -/
def Grown (more : List Elem) : Elem → Elem → Prop
  | .field t s, y => y = .field t s
  | .node t a slots mis unk, y => ∃ slots' mis', y = .node t a slots' mis' unk ∧ mis'.length = mis.length ∧
      (∀ m, m ≠ M.«feature_array» → (slots' m).length = (slots m).length) ∧
      (slots' M.«feature_array»).length = (slots M.«feature_array»).length + more.length ∧
      (slots' M.«feature_array»).drop (slots M.«feature_array»).length = more

/-- The placemarks of a list of texts, each of which is an instance of an old-style schema or not. -/
def PlacemarksOf (n : NumLib) (xml : Str → Option (List Ev)) (schemas : StdMap Elem) (texts : List Str) (marks : List Elem) : Prop :=
  ∃ rs, Each (fun s r => parseOldSchema n xml s schemas = .ok r) texts rs ∧ marks = rs.filterMap id

/-- Each element of the first tree is in the second one at the same place.  Containers other than the root have got the
placemarks of the instances among their unknown elements; nothing else has changed. -/
def Converted (n : NumLib) (xml : Str → Option (List Ev)) (schemas : StdMap Elem) (e e' : Elem) : Prop :=
  ∀ p x, e.at p = some x → ∃ x' more, e'.at p = some x' ∧ Grown more x x' ∧
    (p ≠ [] ∧ x.isA Ty.«Container» = true → PlacemarksOf n xml schemas x.unknownTexts more) ∧
    (¬ (p ≠ [] ∧ x.isA Ty.«Container» = true) → more = [])

end Kml.Dom
