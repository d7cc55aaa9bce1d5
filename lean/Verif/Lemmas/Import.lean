import Verif.Lemmas.Ids
import Verif.Model.KmlFile

/-!
# Lemmas about imported trees
-/

namespace Kml.Dom

open Kml

attribute [local irreducible] kml22Elements Xsd.tagToId classes inc dec uintSize

theorem goto_at : ∀ (p : List Step) (e : Elem), e.goto p = e.at p
  | [], e => by simp only [Elem.goto, Elem.at]
  | s :: p, e => by
    rw [Elem.at]
    cases e with
    | field t v => simp only [Elem.goto, Elem.child, Option.bind_none]
    | node t a slots mis unk =>
      cases s with
      | slot m i => simp only [Elem.goto, Elem.child, goto_at p]
      | mis i => simp only [Elem.goto, Elem.child, goto_at p]

/-- The element at a place is a style selector in a document. -/
def SharedAt (root : Elem) (p : List Step) : Prop :=
  ∃ x q, root.at p = some x ∧ x.isA Ty.«StyleSelector» = true ∧ p ≠ [] ∧ root.at p.dropLast = some q ∧
    q.isA Ty.«Document» = true

/-- One step of the loop over the map of ids. -/
def sharedStep (root : Elem) (m : StdMap (List Step)) (e : Str × List Step) : StdMap (List Step) :=
  match root.goto e.2, parentAt root e.2 with
  | some x, some p =>
    if x.isA Ty.«StyleSelector» && p.isA Ty.«Document» then m.set (x.objectId.getD []) e.2 else m
  | _, _ => m

theorem sharedStep_get {root : Elem} {m : StdMap (List Step)} {id : Str} {p : List Step}
    (hid : ∀ x, root.at p = some x → x.objectId = some id) (id' : Str) (p' : List Step) :
    (sharedStep root m (id, p)).get id' = some p' ↔
      (id' = id ∧ SharedAt root p ∧ p' = p) ∨ (¬ (id' = id ∧ SharedAt root p) ∧ m.get id' = some p') := by
  have stay : ∀ m' : StdMap (List Step), m' = m → ¬ SharedAt root p →
      (m'.get id' = some p' ↔
      (id' = id ∧ SharedAt root p ∧ p' = p) ∨ (¬ (id' = id ∧ SharedAt root p) ∧ m.get id' = some p')) := by
    rintro m' rfl hn
    constructor
    · exact fun h => .inr ⟨fun h => hn h.2, h⟩
    · rintro (⟨_, h, _⟩ | ⟨_, h⟩)
      · exact absurd h hn
      · exact h
  unfold sharedStep
  simp only [goto_at, parentAt]
  split
  · rename_i x q hx hq
    split at hq
    · cases hq
    · rename_i hp
      split
      · rename_i hb
        rw [Bool.and_eq_true] at hb
        have hs : SharedAt root p := ⟨x, q, hx, hb.1, hp, hq, hb.2⟩
        rw [hid x hx, Option.getD_some, StdMap.get_set]
        by_cases hk : id = id'
        · rw [if_pos hk]
          subst hk
          simp only [Option.some.injEq, hs, true_and, not_true_eq_false, false_and, or_false]
          exact eq_comm
        · rw [if_neg hk]
          constructor
          · exact fun h => .inr ⟨fun h => hk h.1.symm, h⟩
          · rintro (⟨h, _⟩ | ⟨_, h⟩)
            · exact absurd h.symm hk
            · exact h
      · rename_i hb
        refine stay _ rfl ?_
        rintro ⟨x', q', h1, h2, _, h4, h5⟩
        rw [hx] at h1
        cases h1
        rw [hq] at h4
        cases h4
        exact hb (by rw [h2, h5]; rfl)
  · rename_i hno
    refine stay _ rfl ?_
    rintro ⟨x', q', h1, h2, h3, h4, h5⟩
    exact hno x' q' h1 (by rw [if_neg h3]; exact h4)

theorem sharedFold_get {root : Elem} (id' : Str) (p' : List Step) : ∀ (l : List (Str × List Step)) (m : StdMap (List Step)),
    (l.map (·.1)).Nodup → (∀ e ∈ l, ∀ x, root.at e.2 = some x → x.objectId = some e.1) →
    ((l.foldl (sharedStep root) m).get id' = some p' ↔
      ((id', p') ∈ l ∧ SharedAt root p') ∨ ((∀ q, (id', q) ∈ l → ¬ SharedAt root q) ∧ m.get id' = some p'))
  | [], m, _, _ => by simp
  | (id, p) :: l, m, hn, hid => by
    rw [List.foldl_cons]
    rw [List.map_cons, List.nodup_cons] at hn
    rw [sharedFold_get id' p' l _ hn.2 fun e he => hid e (List.mem_cons_of_mem _ he),
      sharedStep_get (hid _ (List.mem_cons_self ..))]
    have hout : ∀ q, (id, q) ∉ l := fun q hq => hn.1 (List.mem_map.2 ⟨_, hq, rfl⟩)
    simp only [List.mem_cons, Prod.mk.injEq]
    constructor
    · rintro (⟨h1, h2⟩ | ⟨h1, ⟨h2, h3, h4⟩ | ⟨h2, h3⟩⟩)
      · exact .inl ⟨.inr h1, h2⟩
      · exact .inl ⟨.inl ⟨h2, h4⟩, h4 ▸ h3⟩
      · refine .inr ⟨fun q hq => ?_, h3⟩
        rcases hq with ⟨rfl, rfl⟩ | hq
        · exact fun hs => h2 ⟨rfl, hs⟩
        · exact h1 q hq
    · rintro (⟨⟨rfl, rfl⟩ | h1, h2⟩ | ⟨h1, h2⟩)
      · exact .inr ⟨fun q hq => absurd hq (hout q), .inl ⟨rfl, h2, rfl⟩⟩
      · exact .inl ⟨h1, h2⟩
      · refine .inr ⟨fun q hq => h1 q (.inr hq), .inr ⟨?_, h2⟩⟩
        rintro ⟨rfl, hs⟩
        exact h1 p (.inl ⟨rfl, rfl⟩) hs

theorem importFile_eq (root : Elem) (strict : Bool) :
    importFile root strict = if strict && !(mapIds root).2.isEmpty then none
      else some ((mapIds root).1, (mapIds root).1.foldl (sharedStep root) []) := rfl

/-- An entry of the map of ids is an object with that id. -/
theorem mapIds_object {n : NumLib} {root : Elem} (h : Held n root) {id : Str} {p : List Step}
    (hm : (id, p) ∈ (mapIds root).1) : ∃ x, root.at p = some x ∧ x.objectId = some id := by
  have hs : StdMap.Sorted (mapIds root).1 := idMapper_sorted StdMap.sorted_nil
  have := StdMap.get_of_mem hs hm
  rw [mapIds_get] at this
  obtain ⟨r, hr, rfl⟩ := Option.map_eq_some_iff.1 this
  obtain ⟨h1, h2⟩ := lastWith_some hr
  refine ⟨r.2, ?_, h2⟩
  rcases List.mem_cons.1 h1 with h1 | h1
  · rw [h1]; rfl
  · exact ((mem_saved h).1 h1).1

theorem import_shared {n : NumLib} {root : Elem} (h : Held n root) (id : Str) (p : List Step) :
    ((mapIds root).1.foldl (sharedStep root) []).get id = some p ↔
      (mapIds root).1.get id = some p ∧ SharedAt root p := by
  have hs : StdMap.Sorted (mapIds root).1 := idMapper_sorted StdMap.sorted_nil
  rw [sharedFold_get id p _ _ (StdMap.nodup_keys hs)]
  · rw [StdMap.get_eq_some_iff hs]
    constructor
    · rintro (h | ⟨_, h⟩)
      · exact h
      · cases h
    · exact Or.inl
  · rintro ⟨k, q⟩ he x hx
    obtain ⟨y, hy, hk⟩ := mapIds_object h he
    simp only at hx
    rw [hx] at hy
    cases hy
    exact hk

end Kml.Dom
