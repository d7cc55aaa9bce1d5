import Verif.Spec.Build
import Verif.Model.Meddle

/-!
# What parsing means with an observer that changes what it is shown

As Build.lean, with the observer's word on what becomes of a finished child.
-/

namespace Kml.Dom

open Kml

variable {σ : Type}

/-- Hand a finished child to its parent. -/
def handOverW (n : NumLib) (w : Meddler σ) (parent : Elem) (s : σ) (child : Elem) : Outcome (Elem × σ) := do
  let r ← w.finish s parent child
  let parent ← giveChild n r.1 r.2.1 child
  .ok (parent, w.added r.2.2 parent child)

/-- One child of `cur`, which is at depth `d`.  `text` is the character data of `cur` so far. -/
def buildChildW (n : NumLib) (w : Meddler σ) (d : Nat) (cur : Elem) (text : Str) (s : σ) (name : Str)
    (attrs : List (Str × Str)) (whole inner : Str) (height : Nat)
    (kids : Elem → σ → Outcome (Option (Elem × Str × σ))) : Outcome (Option (Elem × Str × σ)) :=
  if d + 1 > 100 then .ok none
  else
    match makeElement n (some cur.ty) (Xsd.elementId name) attrs with
    | none =>
      if d + 1 + height > 100 then .ok none
      else .ok (some (addUnknownElement cur (whole ++ ['\n']), text, s))
    | some e => do
      let r ← buildKnown n [w.watch] (d + 1) e s inner height kids
      match r with
      | none => .ok none
      | some (child, s) => do
        let r ← handOverW n w cur s child
        .ok (some (r.1, text, r.2))

mutual

/-- One piece of the content of `cur`. -/
def buildKidW (n : NumLib) (w : Meddler σ) (d : Nat) (cur : Elem) (text : Str) (s : σ) :
    Xml → Outcome (Option (Elem × Str × σ))
  | .text t => .ok (some (cur, text ++ t, s))
  | .empty name attrs =>
    buildChildW n w d cur text s name attrs (Xml.empty name attrs).render [] 0
      (fun e s => .ok (some (e, [], s)))
  | .elem name attrs ks =>
    buildChildW n w d cur text s name attrs (Xml.elem name attrs ks).render (renderAll ks) (depthOf ks)
      (fun e s => buildKidsW n w (d + 1) e [] s ks)

/-- The content of `cur`. -/
def buildKidsW (n : NumLib) (w : Meddler σ) (d : Nat) (cur : Elem) (text : Str) (s : σ) :
    List Xml → Outcome (Option (Elem × Str × σ))
  | [] => .ok (some (cur, text, s))
  | x :: xs => do
    let r ← buildKidW n w d cur text s x
    match r with
    | none => .ok none
    | some (cur, text, s) => buildKidsW n w d cur text s xs

end

/-- The root. -/
def buildRootW (n : NumLib) (w : Meddler σ) (s : σ) (name : Str) (attrs : List (Str × Str))
    (ks : List Xml) : Outcome (Option (Elem × σ)) :=
  match makeElement n none (Xsd.elementId name) attrs with
  | none => .ok none
  | some e => buildKnown n [w.watch] 1 e s (renderAll ks) (depthOf ks)
      (fun e s => buildKidsW n w 1 e [] s ks)

end Kml.Dom
