import Verif.Lemmas.Walk

/-!
# Lemmas about maps of ids
-/

namespace Kml.Dom

open Kml

attribute [local irreducible] kml22Elements Xsd.tagToId classes inc dec uintSize

/-! ### Elements whose attributes were changed -/

theorem editEach_get {f : Nat → List Step → Attrs → Attrs} : ∀ {xs : List Elem} {i j : Nat},
    (editEach f i xs)[j]? = (xs[j]?).map (editAttrs (f (i + j)))
  | [], _, _ => rfl
  | x :: xs, i, 0 => rfl
  | x :: xs, i, j + 1 => by
    rw [editEach, List.getElem?_cons_succ, List.getElem?_cons_succ, editEach_get,
      show i + 1 + j = i + (j + 1) by omega]

theorem editAttrs_child {f : List Step → Attrs → Attrs} {e : Elem} {s : Step} :
    (editAttrs f e).child s = (e.child s).map (editAttrs fun q => f (s :: q)) := by
  cases e with
  | field t v => cases s <;> rfl
  | node t a slots mis unk =>
    cases s with
    | slot m i =>
      rw [editAttrs, Elem.child, Elem.child, editEach_get, Nat.zero_add]
    | mis i =>
      rw [editAttrs, Elem.child, Elem.child, editEach_get, Nat.zero_add]

theorem editAttrs_at : ∀ {p : List Step} {f : List Step → Attrs → Attrs} {e : Elem},
    (editAttrs f e).at p = (e.at p).map (editAttrs fun q => f (p ++ q))
  | [], f, e => rfl
  | s :: p, f, e => by
    rw [Elem.at, Elem.at, editAttrs_child]
    cases e.child s with
    | none => rfl
    | some x =>
      rw [Option.map_some, Option.bind_some, Option.bind_some, editAttrs_at]
      rfl

theorem editAttrs_objectId {f : List Step → Attrs → Attrs} {e : Elem} {g : Option Str → Option Str}
    (h : ∀ t a slots mis unk, e = .node t a slots mis unk →
      (f [] a).known.get (chars! "id") = g (a.known.get (chars! "id"))) (hn : g none = none) :
    (editAttrs f e).objectId = g e.objectId := by
  cases e with
  | field t s => exact hn.symm
  | node t a slots mis unk =>
    have : (Elem.node t (f [] a) (fun m => editEach (fun i p => f (.slot m i :: p)) 0 (slots m))
      (editEach (fun i p => f (.mis i :: p)) 0 mis) unk).isA Ty.«Object» =
      (Elem.node t a slots mis unk).isA Ty.«Object» := rfl
    rw [editAttrs, Elem.objectId, Elem.objectId, this]
    split
    · exact h t a slots mis unk rfl
    · exact hn.symm

/-- Two changes of the attributes that agree on the elements of a tree. -/
theorem editAttrs_congr {f g : List Step → Attrs → Attrs} : ∀ {e : Elem},
    (∀ p t a slots mis unk, e.at p = some (.node t a slots mis unk) → f p a = g p a) → editAttrs f e = editAttrs g e := by
  have each : ∀ (xs : List Elem) (i : Nat) (f g : Nat → List Step → Attrs → Attrs),
      (∀ x ∈ xs, ∀ f g : List Step → Attrs → Attrs,
        (∀ p t a slots mis unk, x.at p = some (.node t a slots mis unk) → f p a = g p a) → editAttrs f x = editAttrs g x) →
      (∀ j x, xs[j]? = some x → ∀ p t a slots mis unk, x.at p = some (.node t a slots mis unk) →
        f (i + j) p a = g (i + j) p a) → editEach f i xs = editEach g i xs := by
    intro xs
    induction xs with
    | nil => intros; rfl
    | cons x xs ih =>
      intro i f g hx h
      rw [editEach, editEach, hx x (by simp) (f i) (g i) (fun p t a sl mi un hp => by
          have := h 0 x rfl p t a sl mi un hp
          simpa using this),
        ih (i + 1) f g (fun y hy => hx y (List.mem_cons_of_mem _ hy)) (fun j y hy p t a sl mi un hp => by
          have := h (j + 1) y (by simpa using hy) p t a sl mi un hp
          rw [show i + (j + 1) = i + 1 + j by omega] at this
          exact this)]
  intro e
  revert f g
  refine Elem.rec (motive_1 := fun e => ∀ {f g : List Step → Attrs → Attrs},
    (∀ p t a slots mis unk, e.at p = some (.node t a slots mis unk) → f p a = g p a) → editAttrs f e = editAttrs g e)
    (motive_2 := fun l => ∀ e ∈ l, ∀ {f g : List Step → Attrs → Attrs},
    (∀ p t a slots mis unk, e.at p = some (.node t a slots mis unk) → f p a = g p a) → editAttrs f e = editAttrs g e)
    ?_ ?_ ?_ ?_ e
  · intros; rfl
  · intro t a slots mis unk ihs ihm f g h
    rw [editAttrs, editAttrs, h [] t a slots mis unk rfl]
    congr 1
    · funext m
      refine each _ 0 _ _ (fun x hx f g => ihs m x hx) ?_
      intro j x hx p t' a' sl mi un hp
      rw [Nat.zero_add]
      refine h (.slot m j :: p) t' a' sl mi un ?_
      rw [Elem.at, Elem.child, hx, Option.bind_some]
      exact hp
    · refine each _ 0 _ _ (fun x hx f g => ihm x hx) ?_
      intro j x hx p t' a' sl mi un hp
      rw [Nat.zero_add]
      refine h (.mis j :: p) t' a' sl mi un ?_
      rw [Elem.at, Elem.child, hx, Option.bind_some]
      exact hp
  · intro e he; cases he
  · intro x xs h1 h2 e he
    rcases List.mem_cons.1 he with rfl | he
    · exact h1
    · exact h2 e he

theorem editAttrs_editAttrs {f g : List Step → Attrs → Attrs} (e : Elem) :
    editAttrs f (editAttrs g e) = editAttrs (fun p a => f p (g p a)) e := by
  have each : ∀ (xs : List Elem) (i : Nat) (f g : Nat → List Step → Attrs → Attrs),
      (∀ x ∈ xs, ∀ f g : List Step → Attrs → Attrs,
        editAttrs f (editAttrs g x) = editAttrs (fun p a => f p (g p a)) x) →
      editEach f i (editEach g i xs) = editEach (fun i p a => f i p (g i p a)) i xs := by
    intro xs
    induction xs with
    | nil => intros; rfl
    | cons x xs ih =>
      intro i f g hx
      rw [editEach, editEach, editEach, hx x (by simp), ih (i + 1) f g fun y hy => hx y (List.mem_cons_of_mem _ hy)]
  revert f g
  refine Elem.rec (motive_1 := fun e => ∀ {f g : List Step → Attrs → Attrs},
    editAttrs f (editAttrs g e) = editAttrs (fun p a => f p (g p a)) e)
    (motive_2 := fun l => ∀ e ∈ l, ∀ {f g : List Step → Attrs → Attrs},
    editAttrs f (editAttrs g e) = editAttrs (fun p a => f p (g p a)) e)
    ?_ ?_ ?_ ?_ e
  · intros; rfl
  · intro t a slots mis unk ihs ihm f g
    rw [editAttrs, editAttrs, editAttrs]
    congr 1
    · funext m
      exact each _ 0 _ _ fun x hx f g => ihs m x hx
    · exact each _ 0 _ _ fun x hx f g => ihm x hx
  · intro e he; cases he
  · intro x xs h1 h2 e he
    rcases List.mem_cons.1 he with rfl | he
    · exact h1
    · exact h2 e he

/-! ### The map of ids -/

/-- The last of the elements with an id. -/
def lastWith (id : Str) (l : List (List Step × Elem)) : Option (List Step × Elem) :=
  (l.filter fun r => r.2.objectId = some id).getLast?

theorem idMapperStep_get {st : StdMap (List Step) × List (List Step)} {r : List Step × Elem} {id : Str} :
    (idMapperStep st r).1.get id = if r.2.objectId = some id then some r.1 else st.1.get id := by
  unfold idMapperStep
  rcases Option.eq_none_or_eq_some r.2.objectId with h | ⟨i, h⟩
  · rw [h]; simp
  · rw [h]
    have hset : (match st.1.get i with
        | some old => (st.1.set i r.1, st.2 ++ [old])
        | none => (st.1.set i r.1, st.2)).1 = st.1.set i r.1 := by
      split <;> rfl
    show (match st.1.get i with
        | some old => (st.1.set i r.1, st.2 ++ [old])
        | none => (st.1.set i r.1, st.2)).1.get id = _
    rw [hset, StdMap.get_set]
    by_cases hi : id = i
    · subst hi; simp
    · rw [if_neg fun h => hi h.symm, if_neg (by simpa using fun h => hi h.symm)]

theorem idMapper_get {id : Str} : ∀ {l : List (List Step × Elem)} {st : StdMap (List Step) × List (List Step)},
    (l.foldl idMapperStep st).1.get id = ((lastWith id l).map (·.1)).or (st.1.get id)
  | [], st => rfl
  | r :: l, st => by
    rw [List.foldl_cons, idMapper_get, idMapperStep_get]
    unfold lastWith
    by_cases h : r.2.objectId = some id
    · rw [if_pos h, List.filter_cons_of_pos (by simpa using h), List.getLast?_cons]
      cases (List.filter (fun r => decide (r.2.objectId = some id)) l).getLast? with
      | none => rfl
      | some x => rfl
    · rw [if_neg h, List.filter_cons_of_neg (by simpa using h)]

theorem idMapper_sorted : ∀ {l : List (List Step × Elem)} {st : StdMap (List Step) × List (List Step)},
    StdMap.Sorted st.1 → StdMap.Sorted (l.foldl idMapperStep st).1
  | [], st, h => h
  | r :: l, st, h => by
    rw [List.foldl_cons]
    refine idMapper_sorted ?_
    unfold idMapperStep
    split
    · exact h
    · split
      · exact StdMap.sorted_set h _ _
      · exact StdMap.sorted_set h _ _

theorem mapIds_get {root : Elem} {id : Str} :
    (mapIds root).1.get id = (lastWith id (([], root) :: saved root)).map (·.1) := by
  unfold mapIds
  rw [idMapper_get]
  show Option.or _ none = _
  rw [Option.or_none]

theorem mem_mapIds {root : Elem} {p : List Step} :
    p ∈ (mapIds root).1.map (·.2) ↔ ∃ id x, lastWith id (([], root) :: saved root) = some (p, x) := by
  have hs : StdMap.Sorted (mapIds root).1 := idMapper_sorted StdMap.sorted_nil
  rw [List.mem_map]
  constructor
  · rintro ⟨⟨id, q⟩, hm, rfl⟩
    have := StdMap.get_of_mem hs hm
    rw [mapIds_get] at this
    obtain ⟨r, hr, h⟩ := Option.map_eq_some_iff.1 this
    exact ⟨id, r.2, by rw [hr, ← h]⟩
  · rintro ⟨id, x, h⟩
    have hg : (mapIds root).1.get id = some p := by rw [mapIds_get, h]; rfl
    exact ⟨(id, p), StdMap.mem_of_get hg, rfl⟩

theorem lastWith_some {id : Str} {l : List (List Step × Elem)} {r : List Step × Elem} (h : lastWith id l = some r) :
    r ∈ l ∧ r.2.objectId = some id := by
  have := List.mem_of_getLast? h
  rw [List.mem_filter] at this
  exact ⟨this.1, by simpa using this.2⟩

theorem lastWith_none {id : Str} {l : List (List Step × Elem)} (h : lastWith id l = none) {r : List Step × Elem}
    (hr : r ∈ l) : r.2.objectId ≠ some id := by
  intro hid
  have := List.getLast?_eq_none_iff.1 h
  have hm : r ∈ l.filter fun r => r.2.objectId = some id := List.mem_filter.2 ⟨hr, by simpa using hid⟩
  rw [this] at hm
  cases hm

/-- The duplicates are the objects after which there is another one with the same id. -/
theorem mem_dups {p : List Step} : ∀ {l : List (List Step × Elem)} {st : StdMap (List Step) × List (List Step)},
    p ∈ (l.foldl idMapperStep st).2 ↔ p ∈ st.2 ∨ (∃ id, st.1.get id = some p ∧ ∃ r ∈ l, r.2.objectId = some id) ∨
      ∃ l1 r l2 r' l3 id, l = l1 ++ r :: l2 ++ r' :: l3 ∧ r.1 = p ∧ r.2.objectId = some id ∧ r'.2.objectId = some id
  | [], st => by
    simp only [List.foldl_nil, List.not_mem_nil, false_and, exists_false, and_false, false_or, List.append_assoc]
    constructor
    · exact Or.inl
    · rintro (h | ⟨l1, r, l2, r', l3, id, h, _⟩)
      · exact h
      · simp at h
  | r :: l, st => by
    rw [List.foldl_cons, mem_dups]
    have hd : p ∈ (idMapperStep st r).2 ↔ p ∈ st.2 ∨ ∃ id, r.2.objectId = some id ∧ st.1.get id = some p := by
      unfold idMapperStep
      rcases Option.eq_none_or_eq_some r.2.objectId with h | ⟨i, h⟩
      · rw [h]; simp
      · rw [h]
        rcases Option.eq_none_or_eq_some (st.1.get i) with g | ⟨q, g⟩
        · simp only [g, Option.some.injEq]
          constructor
          · exact Or.inl
          · rintro (h | ⟨id, rfl, h⟩)
            · exact h
            · rw [g] at h; cases h
        · simp only [g, Option.some.injEq, List.mem_append, List.mem_singleton]
          constructor
          · rintro (h | rfl)
            · exact .inl h
            · exact .inr ⟨i, rfl, g⟩
          · rintro (h | ⟨id, rfl, h⟩)
            · exact .inl h
            · rw [g] at h; exact .inr (Option.some.inj h).symm
    rw [hd]
    constructor
    · rintro ((h | ⟨id, h1, h2⟩) | ⟨id, h1, r', hr', h2⟩ | ⟨l1, r1, l2, r2, l3, id, rfl, h⟩)
      · exact .inl h
      · exact .inr (.inl ⟨id, h2, r, by simp, h1⟩)
      · rw [idMapperStep_get] at h1
        split at h1
        · rename_i hid
          obtain ⟨l2, l3, rfl⟩ := List.append_of_mem hr'
          exact .inr (.inr ⟨[], r, l2, r', l3, id, rfl, Option.some.inj h1, hid, h2⟩)
        · exact .inr (.inl ⟨id, h1, r', List.mem_cons_of_mem _ hr', h2⟩)
      · exact .inr (.inr ⟨r :: l1, r1, l2, r2, l3, id, rfl, h⟩)
    · rintro (h | ⟨id, h1, r', hr', h2⟩ | ⟨l1, r1, l2, r2, l3, id, he, h⟩)
      · exact .inl (.inl h)
      · rcases List.mem_cons.1 hr' with rfl | hr'
        · exact .inl (.inr ⟨id, h2, h1⟩)
        · by_cases hid : r.2.objectId = some id
          · exact .inl (.inr ⟨id, hid, h1⟩)
          · refine .inr (.inl ⟨id, ?_, r', hr', h2⟩)
            rw [idMapperStep_get, if_neg hid]
            exact h1
      · cases l1 with
        | nil =>
          simp only [List.nil_append, List.cons_append, List.cons.injEq] at he
          obtain ⟨rfl, rfl⟩ := he
          refine .inr (.inl ⟨id, ?_, r2, by simp, h.2.2⟩)
          rw [idMapperStep_get, if_pos h.2.1, h.1]
        | cons r0 l1 =>
          simp only [List.cons_append, List.cons.injEq] at he
          obtain ⟨rfl, rfl⟩ := he
          exact .inr (.inr ⟨l1, r1, l2, r2, l3, id, by simp, h⟩)

/-! ### Tidy trees -/

theorem everywhere_child {P : Elem → Prop} {e x : Elem} {s : Step} (h : Everywhere P e) (hc : e.child s = some x) :
    Everywhere P x := by
  cases h with
  | field _ => cases s <;> cases hc
  | node _ hs hm =>
    cases s with
    | slot m i => exact hs m x (List.mem_of_getElem? hc)
    | mis i => exact hm x (List.mem_of_getElem? hc)

theorem everywhere_at {P : Elem → Prop} : ∀ {p : List Step} {e x : Elem}, Everywhere P e → e.at p = some x → Everywhere P x
  | [], e, x, h, hp => by cases hp; exact h
  | s :: p, e, x, h, hp => by
    obtain ⟨y, hy, hp⟩ := Option.bind_eq_some_iff.1 hp
    exact everywhere_at (everywhere_child h hy) hp

theorem Everywhere.here {P : Elem → Prop} {e : Elem} (h : Everywhere P e) : P e := by
  cases h <;> assumption

theorem tidy_place {p : List Step} {e x : Elem} (h : Everywhere Tidy e) (hp : e.at p = some x) (hx : x.complex = true) :
    p = [] ∨ InMember p := by
  rcases List.eq_nil_or_concat p with rfl | ⟨q, s, rfl⟩
  · exact .inl rfl
  · rw [List.concat_eq_append] at hp ⊢
    right
    cases s with
    | slot m i => exact ⟨q, m, i, rfl⟩
    | mis i =>
      exfalso
      rw [at_append] at hp
      obtain ⟨y, hy, hp⟩ := Option.bind_eq_some_iff.1 hp
      have ht := (everywhere_at h hy).here
      rw [Elem.at] at hp
      obtain ⟨z, hz, hp⟩ := Option.bind_eq_some_iff.1 hp
      cases hp
      cases y with
      | field t s => cases hz
      | node t a sl mi un =>
        have := ht x (List.mem_of_getElem? hz)
        rw [hx] at this
        cases this

theorem objectId_complex {e : Elem} {id : Str} (h : e.objectId = some id) : e.complex = true := by
  cases e with
  | field t s => cases h
  | node => rfl

/-- The objects with ids of a tree without misplaced complex children. -/
theorem mem_visited {n : NumLib} {e x : Elem} {p : List Step} (h : Held n e) (ht : Everywhere Tidy e)
    (hx : x.complex = true) : (p, x) ∈ (([], e) :: saved e) ↔ e.at p = some x := by
  rw [List.mem_cons, mem_saved h]
  constructor
  · rintro (h | h)
    · cases h; rfl
    · exact h.1
  · intro hp
    rcases tidy_place ht hp hx with rfl | hi
    · cases hp; exact .inl rfl
    · exact .inr ⟨hp, hx, hi⟩

theorem clearId_get {a : Attrs} (h : StdMap.Sorted a.known) : (clearId a).known.get (chars! "id") = none := by
  unfold clearId
  rw [StdMap.get_erase h, if_pos rfl]

theorem held_at {n : NumLib} : ∀ {p : List Step} {e x : Elem}, Held n e → e.at p = some x → x.complex = true → Held n x
  | [], e, x, h, hp, _ => by cases hp; exact h
  | s :: p, e, x, h, hp, hx => by
    obtain ⟨y, hy, hp⟩ := Option.bind_eq_some_iff.1 hp
    have hyc : y.complex = true := by
      cases y with
      | node => rfl
      | field t v =>
        cases p with
        | nil => cases hp; cases hx
        | cons s p => cases s <;> cases hp
    exact held_at (held_child h hy hyc) hp hx

theorem held_known_sorted {n : NumLib} {t : Ty} {a : Attrs} {slots : Mem → List Elem} {mis : List Elem} {unk : List Str}
    (h : Held n (.node t a slots mis unk)) : StdMap.Sorted a.known := by
  cases h with
  | node _ _ ha => exact ha.known_sorted
  | text _ ha => exact ha.known_sorted
  | points ha => exact ha.known_sorted

theorem setId_get (id : Str) (a : Attrs) : (setId id a).known.get (chars! "id") = some id := by
  unfold setId
  rw [StdMap.get_set, if_pos rfl]

end Kml.Dom
