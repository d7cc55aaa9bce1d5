import Verif.Lemmas.Visitor
import Verif.Props.Walk

/-!
# C78: visitors

A visitor is what it overrides: `overrides` says for which classes it has a method of its own.  `preorderCalls` and
`postorderCalls` give the methods of its own that are run, with the places of the elements they are run for.
-/

namespace Kml.Dom

open Kml

/-- **C78, the tables.** The tables of base classes and of default methods are in order: what follows a name in a
lineage is the lineage of what the table has for it. -/
theorem C78_tables : (baseTable.all fun r => follow baseTable r.1 = r.1 :: follow baseTable r.2) = true ∧
    (visitorTable.all fun r => follow visitorTable r.1 = r.1 :: follow visitorTable r.2) = true := by
  constructor <;> decide +kernel

/-- What the visitor that overrides the given methods runs for a document: the places and methods. -/
def callsIn (evs : List Ev) (names : List Str) : Option (List (List Step × Str)) :=
  (rootOf evs).map fun e => preorderCalls (fun c => names.contains c) e

/-- The same with a `SimplePostorderDriver`. -/
def callsAfter (evs : List Ev) (names : List Str) : Option (List (List Step × Str)) :=
  (rootOf evs).map fun e => postorderCalls (fun c => names.contains c) e

/-- A visitor for features and for placemarks, and a document with folders in folders. -/
example : callsIn nested [chars! "Feature", chars! "Placemark"] = some
    [([], chars! "Feature"), ([.slot M.«feature_array» 0], chars! "Placemark"),
     ([.slot M.«feature_array» 1], chars! "Feature"),
     ([.slot M.«feature_array» 1, .slot M.«feature_array» 0], chars! "Placemark")] := by decide +kernel

example : callsAfter nested [chars! "Feature", chars! "Placemark"] = some
    [([.slot M.«feature_array» 0], chars! "Placemark"),
     ([.slot M.«feature_array» 1, .slot M.«feature_array» 0], chars! "Placemark"),
     ([.slot M.«feature_array» 1], chars! "Feature"), ([], chars! "Feature")] := by decide +kernel

/-- A tree that meets the hypotheses of `C78_every_partial`. -/
example : Held NumLib.integers cPlacemark ∧ Everywhere Tidy cPlacemark ∧
    Everywhere (fun x => x.ty ∉ foreignTypes) cPlacemark ∧ (preorder cPlacemark).map (fun r => r.2.ty) =
      [Ty.«Placemark», Ty.«Point», Ty.«coordinates»] := by
  refine ⟨(cPlacemark_canonical true).held, cPlacemark_tidy, ?_, by decide +kernel⟩
  refine .node (by decide) ?_ ?_
  · intro m x hx
    unfold setSlot at hx
    split at hx
    · rw [List.mem_singleton.1 hx]
      refine .node (by decide) ?_ (by intro x hx; cases hx)
      intro m x hx
      unfold setSlot at hx
      split at hx
      · rw [List.mem_singleton.1 hx]
        refine .node (by decide) ?_ (by intro x hx; cases hx)
        intro m x hx
        unfold pointSlots setSlot at hx
        split at hx
        · simp only [List.map_cons, List.map_nil, List.mem_cons, List.not_mem_nil, or_false] at hx
          rw [hx]
          exact .field (by decide)
        · cases hx
      · cases hx
    · split at hx
      · rw [List.mem_singleton.1 hx]
        exact .field (by decide)
      · cases hx
  · intro x hx
    rw [List.mem_singleton.1 hx]
    exact .field (by decide)

/-- The kinds `C78_kind_partial` is about. -/
example : (Ty.«Feature», chars! "Feature") ∈ kinds ∧ Ty.«Feature» ∉ foreignTypes ∧ Ty.«Feature» ≠ Ty.«hotSpot» := by
  decide +kernel

/-- `<IconStyle><hotSpot/></IconStyle>` -/
def withHotSpot : List Ev :=
  [.start (chars! "IconStyle") [], .start (chars! "hotSpot") [], .stop (chars! "hotSpot"), .stop (chars! "IconStyle")]

/-- **C78 fails: hotSpot.** A visitor's method for `HotSpot` is not run for a hot spot, although it is visited, its class
is `HotSpot` and `Visitor` has that method; the one for `Vec2` is, even if both are overridden. -/
theorem C78_hotspot_violated :
    foundIn withHotSpot Ty.«hotSpot» = some [([.slot M.«hotspot» 0], Ty.«hotSpot»)] ∧
      hasMethod (chars! "HotSpot") = true ∧ callsIn withHotSpot [chars! "HotSpot"] = some [] ∧
      callsIn withHotSpot [chars! "HotSpot", chars! "Vec2"] = some [([.slot M.«hotspot» 0], chars! "Vec2")] := by
  refine ⟨?_, ?_, ?_, ?_⟩ <;> decide +kernel

/-- **C78 fails: Atom and xAL elements.** In `<Placemark><atom:author/><xal:AddressDetails/><Point/></Placemark>` only the
placemark and the point are visited. -/
theorem C78_foreign_violated :
    callsIn [.start (chars! "Placemark") [], .start (chars! "atom:author") [], .stop (chars! "atom:author"),
      .start (chars! "xal:AddressDetails") [], .stop (chars! "xal:AddressDetails"), .start (chars! "Point") [],
      .stop (chars! "Point"), .stop (chars! "Placemark")] [chars! "Element"] =
    some [([], chars! "Element"), ([.slot M.«geometry» 0], chars! "Element")] ∧
    (foundIn [.start (chars! "Placemark") [], .start (chars! "atom:author") [], .stop (chars! "atom:author"),
      .start (chars! "xal:AddressDetails") [], .stop (chars! "xal:AddressDetails"), .start (chars! "Point") [],
      .stop (chars! "Point"), .stop (chars! "Placemark")] Ty.«AtomAuthor») =
    some [([.slot M.«atomauthor» 0], Ty.«AtomAuthor»)] := by
  constructor <;> decide +kernel

/-- **C78 fails: misplaced elements.** In `<Placemark><Folder><Placemark/></Folder></Placemark>` neither the folder nor
the placemark in it is visited. -/
theorem C78_misplaced_violated :
    callsIn [.start (chars! "Placemark") [], .start (chars! "Folder") [], .start (chars! "Placemark") [],
      .stop (chars! "Placemark"), .stop (chars! "Folder"), .stop (chars! "Placemark")] [chars! "Feature"] =
    some [([], chars! "Feature")] := by decide +kernel

attribute [local irreducible] kml22Elements Xsd.tagToId classes inc dec uintSize visitTable classNames acceptTable
  visitorTable baseTable

/-- **C78, the method.** The method a visitor runs for an element is the first one it overrides of the element's class,
its base class, the base class of that and so on; none if it overrides none of them.

The full property has no exception; for `hotSpot` it is false (`C78_hotspot_violated`). -/
theorem C78_method_partial (n : NumLib) (e : Elem) (h : Held n e) (hc : e.complex = true) (hh : e.ty ≠ Ty.«hotSpot»)
    (overrides : Str → Bool) :
    visitedBy overrides e = (lineage e).find? fun c => hasMethod c && overrides c := by
  cases e with
  | field => cases hc
  | node t a slots mis unk =>
    obtain ⟨r, h1, h2, h3⟩ := class_name (held_classOf h)
    have hch := List.all_eq_true.1 chains _ h2
    rw [Bool.or_eq_true] at hch
    rcases hch with hch | hch
    · exact absurd (h3.symm.trans (of_decide_eq_true hch)) hh
    · have hch := of_decide_eq_true hch
      rw [h3] at hch
      show (visitChain t).find? overrides = _
      rw [hch]
      show _ = (follow baseTable (((classNames.find? fun e => e.1 = t).map (·.2)).getD (chars! "Element"))).find? _
      rw [h1]
      show _ = (follow baseTable r.2).find? _
      rw [List.find?_filter]
      congr 1
      funext c
      cases hasMethod c <;> simp

/-- **C78, what is visited.** A driver visits the element it is given and those below it that are complex and are
reached through members, on a way without Atom and xAL elements.

The full property is that every complex element is visited; that is false for misplaced ones and for Atom and xAL
elements (`C78_misplaced_violated`, `C78_foreign_violated`). -/
theorem C78_visited_partial (n : NumLib) (root : Elem) (h : Held n root) (p : List Step) (x : Elem) :
    ((p, x) ∈ preorder root ↔ root.at p = some x ∧ (p ≠ [] → x.complex = true) ∧ Plain root p) ∧
    ((p, x) ∈ postorder root ↔ root.at p = some x ∧ (p ≠ [] → x.complex = true) ∧ Plain root p) :=
  ⟨mem_preorder h, (postorder_perm root).mem_iff.trans (mem_preorder h)⟩

/-- **C78, every element.** If the tree has no misplaced complex element, and no Atom or xAL element, every complex
element is visited. -/
theorem C78_every_partial (n : NumLib) (root : Elem) (h : Held n root) (ht : Everywhere Tidy root)
    (hf : Everywhere (fun x => x.ty ∉ foreignTypes) root) (p : List Step) (x : Elem) (hx : root.at p = some x)
    (hc : x.complex = true) : (p, x) ∈ preorder root ∧ (p, x) ∈ postorder root := by
  have key : ∀ (p : List Step) (e x : Elem), Everywhere Tidy e → Everywhere (fun x => x.ty ∉ foreignTypes) e →
      e.at p = some x → x.complex = true → Plain e p := by
    intro p
    induction p with
    | nil => intros; exact plain_nil _
    | cons s p ih =>
      intro e x ht hf hx hc
      rw [Elem.at] at hx
      obtain ⟨y, hy, hx'⟩ := Option.bind_eq_some_iff.1 hx
      clear hx
      rename' hx' => hx
      cases ht with
      | field => cases hy
      | node t1 t2 t3 =>
        cases hf with
        | node f1 f2 f3 =>
          cases s with
          | slot m i =>
            have hm := List.mem_of_getElem? (show _ = some y from hy)
            refine (plain_cons hy).2 ⟨⟨_, _, rfl⟩, ?_, ih y x (t2 m y hm) (f2 m y hm) hx hc⟩
            have := f2 m y hm
            cases this <;> assumption
          | mis i =>
            exfalso
            have hm := List.mem_of_getElem? (show _ = some y from hy)
            have := t1 y hm
            cases y with
            | node => cases this
            | field =>
              cases p with
              | nil => cases hx; cases hc
              | cons => cases hx
  have hp := key p root x ht hf hx hc
  exact ⟨(mem_preorder h).2 ⟨hx, fun _ => hc, hp⟩, (C78_visited_partial n root h p x).2.2 ⟨hx, fun _ => hc, hp⟩⟩

/-- **C78, once.** Both drivers visit the same elements, and no element twice. -/
theorem C78_once (root : Elem) : (postorder root).Perm (preorder root) ∧ ((preorder root).map (·.1)).Nodup ∧
    ((postorder root).map (·.1)).Nodup := by
  have h : ((preorder root).map (·.1)).Nodup := List.pairwise_map.2 ((preorder_before root).imp fun h => h.1)
  exact ⟨postorder_perm root, h, ((postorder_perm root).map _).nodup_iff.2 h⟩

/-- **C78, parents first.** A `SimplePreorderDriver` visits an element before those below it, and the items of a member,
with all below them, in their order: of two visits the first one is not below the second or at a later item. -/
theorem C78_preorder (root : Elem) (before middle after : List (List Step × Elem)) (a b : List Step × Elem)
    (h : preorder root = before ++ a :: middle ++ b :: after) :
    (¬ ∃ s r, a.1 = b.1 ++ s :: r) ∧
      ¬ ∃ r m i j u v, b.1 = r ++ .slot m i :: u ∧ a.1 = r ++ .slot m j :: v ∧ i < j := by
  have hp := preorder_before root
  rw [h, List.pairwise_append] at hp
  have := hp.2.2 a (by simp) b (by simp)
  exact ⟨fun h => this.2 (.inl h), fun h => this.2 (.inr h)⟩

/-- **C78, parents last.** A `SimplePostorderDriver` visits an element after those below it, and the items of a member
in their order. -/
theorem C78_postorder (root : Elem) (before middle after : List (List Step × Elem)) (a b : List Step × Elem)
    (h : postorder root = before ++ a :: middle ++ b :: after) :
    (¬ ∃ s r, b.1 = a.1 ++ s :: r) ∧
      ¬ ∃ r m i j u v, b.1 = r ++ .slot m i :: u ∧ a.1 = r ++ .slot m j :: v ∧ i < j := by
  have hp := postorder_after root
  rw [h, List.pairwise_append] at hp
  exact (hp.2.2 a (by simp) b (by simp)).2

/-- **C78, one kind.** A visitor with a method for one kind of elements runs it exactly for the elements of that kind,
by `IsA`, that are visited.

Missing from the full property: what is not visited, and the kinds for which it is false: `hotSpot` and those of Atom
and xAL elements. -/
theorem C78_kind_partial (n : NumLib) (root : Elem) (h : Held n root) (hr : root.complex = true) (T : Ty) (name : Str)
    (hk : (T, name) ∈ kinds) (hT : T ∉ foreignTypes) (hh : T ≠ Ty.«hotSpot») (p : List Step) (m : Str) :
    ((p, m) ∈ preorderCalls (fun c => c = name) root ↔
      m = name ∧ ∃ x, root.at p = some x ∧ x.complex = true ∧ Plain root p ∧ x.isA T = true) ∧
    ((p, m) ∈ postorderCalls (fun c => c = name) root ↔
      m = name ∧ ∃ x, root.at p = some x ∧ x.complex = true ∧ Plain root p ∧ x.isA T = true) := by
  have visited : ∀ {p : List Step} {x : Elem}, (p, x) ∈ preorder root ↔
      root.at p = some x ∧ x.complex = true ∧ Plain root p := by
    intro p x
    rw [mem_preorder h]
    constructor
    · rintro ⟨h1, h2, h3⟩
      refine ⟨h1, ?_, h3⟩
      cases p with
      | nil => cases h1; exact hr
      | cons => exact h2 (by simp)
    · rintro ⟨h1, h2, h3⟩
      exact ⟨h1, fun _ => h2, h3⟩
  have kind : ∀ {p : List Step} {x : Elem}, (p, x) ∈ preorder root →
      (visitedBy (fun c => c = name) x = some m ↔ m = name ∧ x.isA T = true) := by
    intro p x hx
    obtain ⟨h1, h2, h3⟩ := visited.1 hx
    have hx := held_at h h1 h2
    cases x with
    | field => cases h2
    | node t a slots mis unk =>
      obtain ⟨c, hc⟩ := Option.isSome_iff_exists.1 (held_classOf hx)
      have hq := List.all_eq_true.1 (List.all_eq_true.1 kinds_chain _ (classOf_pair hc)) _ hk
      dsimp only at hq
      rw [decide_eq_false hT, decide_eq_false hh, Bool.false_or, Bool.false_or] at hq
      have hq := eq_of_beq hq
      have hi : (Elem.node t a slots mis unk).isA T = decide (T ∈ c.isA) := by
        unfold Elem.isA
        dsimp only
        rw [hc]
      rw [hi, ← hq, decide_eq_true_eq]
      show (visitChain t).find? (fun c => c = name) = some m ↔ _
      constructor
      · intro hf
        have hn : m = name := of_decide_eq_true (List.find?_some (p := fun c : Str => decide (c = name)) hf)
        exact ⟨hn, hn ▸ List.mem_of_find?_eq_some hf⟩
      · rintro ⟨rfl, hm⟩
        cases hf : (visitChain t).find? (fun c => c = m) with
        | none => exact absurd (decide_eq_true (rfl : m = m)) (List.find?_eq_none.1 hf m hm)
        | some m' =>
          rw [of_decide_eq_true (List.find?_some (p := fun c : Str => decide (c = m)) hf)]
  have pre : (p, m) ∈ preorderCalls (fun c => c = name) root ↔
      m = name ∧ ∃ x, root.at p = some x ∧ x.complex = true ∧ Plain root p ∧ x.isA T = true := by
    unfold preorderCalls
    rw [List.mem_filterMap]
    constructor
    · rintro ⟨⟨q, x⟩, hx, he⟩
      obtain ⟨m', hm', he⟩ := Option.map_eq_some_iff.1 he
      cases he
      obtain ⟨h1, h2⟩ := (kind hx).1 hm'
      obtain ⟨g1, g2, g3⟩ := visited.1 hx
      exact ⟨h1, x, g1, g2, g3, h2⟩
    · rintro ⟨h1, x, g1, g2, g3, g4⟩
      have hx := visited.2 ⟨g1, g2, g3⟩
      exact ⟨(p, x), hx, Option.map_eq_some_iff.2 ⟨m, (kind hx).2 ⟨h1, g4⟩, rfl⟩⟩
  refine ⟨pre, Iff.trans ?_ pre⟩
  unfold preorderCalls postorderCalls
  exact ((postorder_perm root).filterMap _).mem_iff

end Kml.Dom
