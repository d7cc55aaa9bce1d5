import Verif.Spec.Clone
import Verif.Spec.Place

/-!
# The result of merging one element into another
-/

namespace Kml.Dom

open Kml
open Kml.Attributes (Attributes)

/-- All entries of the second map, and the entries of the first under other names. -/
def over (old new : StdMap Str) : StdMap Str := new.foldl (fun (m : StdMap Str) e => m.set e.1 e.2) old

/-- The attributes of the source, and those of the target the source does not have. -/
def mergedAttrs (source target : Attrs) : Attrs :=
  ⟨over target.known source.known, over target.unknown source.unknown, over target.xmlns source.xmlns⟩

/-- The member is an array. -/
def holdsMany (t : Ty) (m : Mem) : Bool := (classAt t).rules.any fun r => r.2.mem = m && r.2.isArray

/-- Replace the item at a position. -/
def changeAt (l : List Elem) (i : Nat) (f : Elem → Elem) : List Elem :=
  match l[i]? with
  | some x => l.set i (f x)
  | none => l

mutual

/-- The target after the source was merged into it, for a source and a target of the same type.
 * A simple element becomes the source.
 * The points of a `coordinates` are those of the source.
 * The text of an element with text is not merged.
 * Otherwise every member is merged on its own, and the misplaced children of the source come after those of the
   target. -/
def merged : Elem → Elem → Elem
  | .field t s => fun _ => .field t s
  | .node t a slots mis _ => fun target =>
    match target with
    | .field t' s' => .field t' s'
    | .node _ a' slots' mis' unk' =>
      .node t (mergedAttrs a a')
        (fun m =>
          if t = Ty.«coordinates» then slots m
          else if textual t then slots' m
          else if holdsMany t m then mergedItems (slots m) (slots' m) (slots' m)
          else mergedItem (slots m) (slots' m))
        (mis' ++ mis) unk'

/-- A member for one child: an element of the source is merged into that of the target if they have the same type, and
else takes its place. -/
def mergedItem : List Elem → List Elem → List Elem
  | [] => fun old => old
  | x :: _ => fun old =>
    match old with
    | [y] => if x.ty = y.ty then [merged x y] else [x]
    | _ => [x]

/-- A member for many children: an element of the source is merged into the first item of its type that the target
`had`; simple ones, and elements of a type the target had none of, are added at the end. -/
def mergedItems : List Elem → List Elem → List Elem → List Elem
  | [] => fun _ cur => cur
  | x :: xs => fun had cur =>
    mergedItems xs had
      (match had.findIdx? fun y => x.complex && decide (y.ty = x.ty) with
      | some i => changeAt cur i (merged x)
      | none => cur ++ [x])

end

/-- What an element has in a member. -/
def Elem.inside : Elem → Mem → List Elem
  | .field _ _, _ => []
  | .node _ _ slots _ _, m => slots m

/-- The value of an attribute of an element, as it is written. -/
def Elem.attr : Elem → Str → Option Str
  | .field _ _, _ => none
  | .node t a _ _ _, k => (serializeAttributes (classAt t) a).get k

/-- The property in words: the `result` has
 * every simple field of the source,
 * of every field the source does not have that of the target,
 * every attribute of the source, and those of the target the source does not have. -/
structure Overrides (source target result : Elem) : Prop where
  ty : result.ty = target.ty
  set : ∀ m, holdsMany source.ty m = false → ∀ t v, .field t v ∈ source.inside m → result.inside m = [.field t v]
  kept : ∀ m, source.inside m = [] → result.inside m = target.inside m
  attrs : ∀ k, result.attr k = (source.attr k).or (target.attr k)

/-- Only fields for one value, and nothing misplaced. -/
def Single : Elem → Prop
  | .field _ _ => True
  | .node t _ slots mis _ => mis = [] ∧ (t ≠ Ty.«coordinates» → ∀ m, holdsMany t m = true → slots m = [])

end Kml.Dom
