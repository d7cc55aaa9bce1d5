import Verif.Spec.XmlTree

/-!
# What parsing means

The element a document stands for, by recursion over the document, without the parser's stacks and
counters: each known child is built and handed to its parent, each unknown child is kept as text, and the
content of a `description` is kept as text.  `none` is a parse that was stopped: a document nested too
deeply, a root that is not known, or an observer that said no.
-/

namespace Kml.Dom

open Kml

variable {σ : Type}

/-- Hand a finished child to its parent: observers may veto that, or stop the parse afterwards. -/
def handOver (n : NumLib) (os : List (Observer σ)) (parent : Elem) (s : σ) (child : Elem) :
    Outcome (Option (Elem × σ)) := do
  let r := callAll (fun o s => o.endElement s parent child) os s
  let parent ← giveChild n r.1 parent child
  let r' := callAll (fun o s => o.addChild s parent child) os r.2
  .ok (if r'.1 then some (parent, r'.2) else none)

/-- A known element `e` at depth `d` (its own included): announce it, then read its content.  `kids` reads the
content into the element; `text` and `height` are those of the content. -/
def buildKnown (n : NumLib) (os : List (Observer σ)) (d : Nat) (e : Elem) (s : σ) (text : Str)
    (height : Nat) (kids : Elem → σ → Outcome (Option (Elem × Str × σ))) :
    Outcome (Option (Elem × σ)) :=
  match callAll (fun o s => o.new s e) os s with
  | (false, _) => .ok none
  | (true, s) =>
    if e.ty = Ty.«description» then
      if d + height > 100 then .ok none
      else do
        let e ← finishElement n e text
        .ok (some (e, s))
    else do
      let r ← kids e s
      match r with
      | none => .ok none
      | some (e, text, s) => do
        let e ← finishElement n e text
        .ok (some (e, s))

/-- One child of `cur`, which is at depth `d`.  `text` is the character data of `cur` so far. -/
def buildChild (n : NumLib) (os : List (Observer σ)) (d : Nat) (cur : Elem) (text : Str) (s : σ) (name : Str)
    (attrs : List (Str × Str)) (whole inner : Str) (height : Nat)
    (kids : Elem → σ → Outcome (Option (Elem × Str × σ))) : Outcome (Option (Elem × Str × σ)) :=
  if d + 1 > 100 then .ok none
  else
    match makeElement n (some cur.ty) (Xsd.elementId name) attrs with
    | none =>
      if d + 1 + height > 100 then .ok none
      else .ok (some (addUnknownElement cur (whole ++ ['\n']), text, s))
    | some e => do
      let r ← buildKnown n os (d + 1) e s inner height kids
      match r with
      | none => .ok none
      | some (child, s) => do
        let r ← handOver n os cur s child
        match r with
        | none => .ok none
        | some (cur, s) => .ok (some (cur, text, s))

mutual

/-- One piece of the content of `cur`. -/
def buildKid (n : NumLib) (os : List (Observer σ)) (d : Nat) (cur : Elem) (text : Str) (s : σ) :
    Xml → Outcome (Option (Elem × Str × σ))
  | .text t => .ok (some (cur, text ++ t, s))
  | .empty name attrs =>
    buildChild n os d cur text s name attrs (Xml.empty name attrs).render [] 0
      (fun e s => .ok (some (e, [], s)))
  | .elem name attrs ks =>
    buildChild n os d cur text s name attrs (Xml.elem name attrs ks).render (renderAll ks) (depthOf ks)
      (fun e s => buildKids n os (d + 1) e [] s ks)

/-- The content of `cur`. -/
def buildKids (n : NumLib) (os : List (Observer σ)) (d : Nat) (cur : Elem) (text : Str) (s : σ) :
    List Xml → Outcome (Option (Elem × Str × σ))
  | [] => .ok (some (cur, text, s))
  | x :: xs => do
    let r ← buildKid n os d cur text s x
    match r with
    | none => .ok none
    | some (cur, text, s) => buildKids n os d cur text s xs

end

/-- The root. -/
def buildRoot (n : NumLib) (os : List (Observer σ)) (s : σ) (name : Str) (attrs : List (Str × Str))
    (ks : List Xml) : Outcome (Option (Elem × σ)) :=
  match makeElement n none (Xsd.elementId name) attrs with
  | none => .ok none
  | some e => buildKnown n os 1 e s (renderAll ks) (depthOf ks)
      (fun e s => buildKids n os 1 e [] s ks)

end Kml.Dom
