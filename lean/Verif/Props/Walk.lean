import Verif.Lemmas.Ids
import Verif.Lemmas.Features
import Verif.Props.RoundTrip

/-!
# C38, C39 and C40: ids, searches and visits

Elements are named by their places (Spec/Place.lean): the steps that lead down to them, each to an item of a member or
to a misplaced child.  `Held` (Spec/Held.lean) says how an element can look: it holds for everything the parser gives
(`parse_held`).  `Tidy` says that no misplaced child is complex.
-/

namespace Kml.Dom

open Kml

attribute [local irreducible] kml22Elements Xsd.tagToId classes inc dec uintSize

/-- The root a document gives. -/
def rootOf (evs : List Ev) : Option Elem :=
  match parseEvents NumLib.integers ([] : List (Observer Unit)) () evs with
  | .ok (r, _) => r
  | _ => none

/-- The places and types found for a type below the root of a document. -/
def foundIn (evs : List Ev) (t : Ty) : Option (List (List Step × Ty)) :=
  (rootOf evs).map fun e => (getElementsById e t).map fun r => (r.1, r.2.ty)

/-! ## C39 Searching by type -/

/-- **C39, exactly.** What is found below a root by type: the complex elements of that type, at any depth, that are
in a member of their parent.  Only those that are misplaced themselves are not found.

The full property has no exception for misplaced elements; for them it is false (`C39_misplaced_violated`). -/
theorem C39_exact_partial (n : NumLib) (root : Elem) (h : Held n root) (t : Ty) (p : List Step) (x : Elem) :
    (p, x) ∈ getElementsById root t ↔ root.at p = some x ∧ x.complex = true ∧ InMember p ∧ x.isA t = true := by
  unfold getElementsById
  rw [List.mem_filter, mem_saved h]
  simp only [and_assoc]

/-- **C39, every one.** If no misplaced element is complex, what is found is every complex element of the type below
the root, and nothing else. -/
theorem C39_every_partial (n : NumLib) (root : Elem) (h : Held n root) (ht : Everywhere Tidy root) (t : Ty)
    (p : List Step) (x : Elem) :
    (p, x) ∈ getElementsById root t ↔ p ≠ [] ∧ root.at p = some x ∧ x.complex = true ∧ x.isA t = true := by
  rw [C39_exact_partial n root h]
  constructor
  · rintro ⟨h1, h2, h3, h4⟩
    exact ⟨fun hp => not_inMember_nil (hp ▸ h3), h1, h2, h4⟩
  · rintro ⟨h1, h2, h3, h4⟩
    exact ⟨h2, h3, (tidy_place ht h2 h3).resolve_left h1, h4⟩

/-- **C39, once.** No element is found twice. -/
theorem C39_once (root : Elem) (t : Ty) : ((getElementsById root t).map (·.1)).Nodup := by
  unfold getElementsById
  exact (saved_nodup root).sublist (List.filter_sublist.map _)

/-- **C39, in document order.** All elements found, of any type, are in the order in which their start tags are written.

Missing from the full property: trees with misplaced complex elements. -/
theorem C39_order_partial (n : NumLib) (root : Elem) (h : Held n root) (ht : Everywhere Tidy root)
    (hc : root.complex = true) :
    (calls root).filter Call.isStart = startCall root :: (getChildElements root true).map fun r => startCall r.2 :=
  saved_starts h ht hc

/-- **C39, types.** Those of one type are in the same order, and a search for all children finds those of all types. -/
theorem C39_types (root : Elem) (t : Ty) :
    (getElementsById root t).Sublist (getChildElements root true) ∧
      ∀ r ∈ getChildElements root true, r.2.isA t = true → r ∈ getElementsById root t :=
  ⟨List.filter_sublist, fun _ hr ht => List.mem_filter.2 ⟨hr, ht⟩⟩

/-- **C39, parsed documents.** The same for the root of any document that was parsed, with any observers. -/
theorem C39_parsed_partial {σ : Type} (n : NumLib) (os : List (Observer σ)) (s s' : σ) (evs : List Ev) (root : Elem)
    (hp : parseEvents n os s evs = .ok (some root, s')) (t : Ty) (p : List Step) (x : Elem) :
    (p, x) ∈ getElementsById root t ↔ root.at p = some x ∧ x.complex = true ∧ InMember p ∧ x.isA t = true :=
  C39_exact_partial n root (parse_held hp) t p x

/-- **C39, children only.** A search that does not go down finds exactly the complex children of the element, if it has
no misplaced complex child. -/
theorem C39_children_partial (n : NumLib) (root : Elem) (h : Held n root) (ht : Tidy root) (p : List Step) (x : Elem) :
    (p, x) ∈ getChildElements root false ↔ ∃ s, p = [s] ∧ root.child s = some x ∧ x.complex = true := by
  show (p, x) ∈ savedHere root ↔ _
  cases root with
  | field t s => simp [savedHere, Elem.child]
  | node t a slots mis unk =>
    have stray : ∀ (l : List Elem) (i : Nat), (∀ y ∈ l, y.complex = false) → savedHereStray i l = [] := by
      intro l
      induction l with
      | nil => intros; rfl
      | cons y l ih =>
        intro i hl
        rw [savedHereStray, ih (i + 1) fun z hz => hl z (List.mem_cons_of_mem _ hz)]
        cases y with
        | field => rfl
        | node => cases hl _ (List.mem_cons_self ..)
    rw [savedHere, stray mis 0 ht, ite_self, List.append_nil, List.mem_flatMap]
    constructor
    · rintro ⟨w, hw, hp⟩
      split at hp
      · rename_i hs
        obtain ⟨i, hi, he⟩ := List.mem_mapIdx.1 hp
        cases he
        refine ⟨.slot w.member i, rfl, ?_, ?_⟩
        · exact List.getElem?_eq_getElem hi
        · exact (held_saves h (List.getElem_mem hi)).2 ⟨w, hw, hs, rfl⟩
      · cases hp
    · rintro ⟨s, rfl, hc, hx⟩
      cases s with
      | slot m i =>
        have hm : (slots m)[i]? = some x := hc
        obtain ⟨w, hw, hs, rfl⟩ := (held_saves h (List.mem_of_getElem? hm)).1 hx
        refine ⟨w, hw, ?_⟩
        rw [if_pos hs, List.mem_mapIdx]
        obtain ⟨hi, hg⟩ := List.getElem?_eq_some_iff.1 hm
        exact ⟨i, hi, by rw [hg]⟩
      | mis i =>
        exfalso
        have := ht x (List.mem_of_getElem? (show mis[i]? = some x from hc))
        rw [hx] at this
        cases this

theorem cPlacemark_tidy : Everywhere Tidy cPlacemark := by
  refine .node ?_ ?_ ?_
  · intro x hx
    rw [List.mem_singleton.1 hx]
    rfl
  · intro m x hx
    unfold setSlot at hx
    split at hx
    · rw [List.mem_singleton.1 hx]
      refine .node (by intro x hx; cases hx) ?_ (by intro x hx; cases hx)
      intro m x hx
      unfold setSlot at hx
      split at hx
      · rw [List.mem_singleton.1 hx]
        refine .node (by intro x hx; cases hx) ?_ (by intro x hx; cases hx)
        intro m x hx
        unfold pointSlots setSlot at hx
        split at hx
        · simp only [List.map_cons, List.map_nil, List.mem_cons, List.not_mem_nil, or_false] at hx
          rw [hx]
          exact .field trivial
        · cases hx
      · cases hx
    · split at hx
      · rw [List.mem_singleton.1 hx]
        exact .field trivial
      · cases hx
  · intro x hx
    rw [List.mem_singleton.1 hx]
    exact .field trivial

/-- A tree that meets the hypotheses: a placemark with a point, which has coordinates. -/
example : Held NumLib.integers cPlacemark ∧ Everywhere Tidy cPlacemark ∧ cPlacemark.complex = true ∧
    (getChildElements cPlacemark true).map (fun r => r.2.ty) = [Ty.«Point», Ty.«coordinates»] ∧
    (getElementsById cPlacemark Ty.«Geometry»).map (fun r => r.1) = [[.slot M.«geometry» 0]] :=
  ⟨(cPlacemark_canonical true).held, cPlacemark_tidy, rfl, by decide +kernel, by decide +kernel⟩

/-- `<Folder><Placemark/><Folder><Placemark/></Folder></Folder>` -/
def nested : List Ev :=
  [.start (chars! "Folder") [], .start (chars! "Placemark") [], .stop (chars! "Placemark"),
    .start (chars! "Folder") [], .start (chars! "Placemark") [], .stop (chars! "Placemark"), .stop (chars! "Folder"),
    .stop (chars! "Folder")]

example : foundIn nested Ty.«Feature» = some
    [([.slot M.«feature_array» 0], Ty.«Placemark»), ([.slot M.«feature_array» 1], Ty.«Folder»),
      ([.slot M.«feature_array» 1, .slot M.«feature_array» 0], Ty.«Placemark»)] := by decide +kernel

/-- **C39 fails: misplaced elements.** In `<Placemark><Folder><Point/><Placemark/></Folder></Placemark>` the folder is
not found, nor is the point in it, although the placemark in the folder is. -/
theorem C39_misplaced_violated :
    foundIn [.start (chars! "Placemark") [], .start (chars! "Folder") [], .start (chars! "Point") [],
      .stop (chars! "Point"), .start (chars! "Placemark") [], .stop (chars! "Placemark"), .stop (chars! "Folder"),
      .stop (chars! "Placemark")] Ty.«Object» =
    some [([.mis 0, .slot M.«feature_array» 0], Ty.«Placemark»)] := by decide +kernel

/-- **C39 fails: children only.** In the same way a search that should not go down does go down into misplaced
children: for `<Placemark><Folder><Placemark/></Folder></Placemark>` it gives the inner placemark. -/
theorem C39_grandchild_violated :
    (rootOf [.start (chars! "Placemark") [], .start (chars! "Folder") [], .start (chars! "Placemark") [],
      .stop (chars! "Placemark"), .stop (chars! "Folder"), .stop (chars! "Placemark")]).map
      (fun e => (getChildElements e false).map fun r => (r.1, r.2.ty)) =
    some [([.mis 0, .slot M.«feature_array» 0], Ty.«Placemark»)] := by decide +kernel

/-! ## C38 Clearing and remapping ids -/

/-- No two objects of a tree have the same id. -/
def DistinctIds (root : Elem) : Prop := ∀ p q x y id, root.at p = some x → root.at q = some y →
  x.objectId = some id → y.objectId = some id → p = q

/-- The last object with an id: of the root and the elements found below it, in that order. -/
def lastWithId (root : Elem) (id : Str) : Option (List Step × Elem) :=
  ((([], root) :: getChildElements root true).filter fun r => r.2.objectId = some id).getLast?

/-- Each object's id is changed to what a function gives for it, if it is the last one with that id. -/
def ChangesLast (root after : Elem) (g : Str → Option Str) : Prop :=
  ∀ p x, root.at p = some x → ∃ y, after.at p = some y ∧ y.ty = x.ty ∧
    (∀ id, lastWithId root id = some (p, x) → y.objectId = g id) ∧
    ((∀ id, lastWithId root id ≠ some (p, x)) → y.objectId = x.objectId)

theorem editAttrs_ty (f : List Step → Attrs → Attrs) (e : Elem) : (editAttrs f e).ty = e.ty := by
  cases e <;> rfl

theorem lastWith_unique {n : NumLib} {root x : Elem} {p : List Step} (h : Held n root) (hp : root.at p = some x) :
    (p ∈ (mapIds root).1.map (·.2)) ↔ ∃ id, lastWithId root id = some (p, x) := by
  rw [mem_mapIds]
  constructor
  · rintro ⟨id, y, hy⟩
    have hm := (lastWith_some hy).1
    have : root.at p = some y := by
      rcases List.mem_cons.1 hm with hm | hm
      · cases hm; rfl
      · exact ((mem_saved h).1 hm).1
    rw [hp] at this
    cases this
    exact ⟨id, hy⟩
  · rintro ⟨id, hy⟩
    exact ⟨id, x, hy⟩

theorem changesLast_edit {n : NumLib} {root : Elem} (h : Held n root) (f : Attrs → Attrs) (g : Str → Option Str)
    (hf : ∀ a id, StdMap.Sorted a.known → a.known.get (chars! "id") = some id →
      (f a).known.get (chars! "id") = g id) :
    ChangesLast root (editAttrs (fun p a => if p ∈ (mapIds root).1.map (·.2) then f a else a) root) g := by
  intro p x hp
  refine ⟨_, by rw [editAttrs_at, hp]; rfl, editAttrs_ty _ _, ?_, ?_⟩
  · intro id hid
    have ho := (lastWith_some hid).2
    have hc := objectId_complex ho
    have hm : p ∈ (mapIds root).1.map (·.2) := (lastWith_unique h hp).2 ⟨id, hid⟩
    have hx := held_at h hp hc
    cases x with
    | field => cases hc
    | node t a slots mis unk =>
      have hs := held_known_sorted hx
      rw [editAttrs, List.append_nil, if_pos hm]
      simp only [Elem.objectId] at ho ⊢
      split at ho
      · rename_i hobj
        refine Eq.trans (if_pos ?_) (hf a id hs ho)
        exact hobj
      · cases ho
  · intro hno
    have hm : ¬ p ∈ (mapIds root).1.map (·.2) := fun hm => by
      obtain ⟨id, hid⟩ := (lastWith_unique h hp).1 hm
      exact hno id hid
    refine editAttrs_objectId (g := fun o => o) (fun t a sl mi un _ => ?_) rfl
    rw [List.append_nil, if_neg hm]

/-- **C38, what clearing does.** After clearing ids, of the objects with a given id the last one found has no id;
every other object has the id it had. No place is gained or lost and types stay.

The full property is that no object has an id; that is false if an id is there twice or an object with an id is
misplaced (`C38_duplicate_violated`, `C38_misplaced_violated`). -/
theorem C38_clear_partial (n : NumLib) (root : Elem) (h : Held n root) :
    ChangesLast root (clearIds root) fun _ => none :=
  changesLast_edit h clearId _ fun _ _ hs _ => clearId_get hs

/-- **C38, what remapping does.** After remapping ids, of the objects with a given id the last one found has the id
the map gives for it, or none if it gives none; every other object has the id it had. -/
theorem C38_remap_partial (n : NumLib) (root : Elem) (h : Held n root) (names : StdMap Str) :
    ChangesLast root (remapIds root names) names.get := by
  refine changesLast_edit h (fun a => match (a.known.get (chars! "id")).bind names.get with
      | some id => setId id a
      | none => clearId a) _ ?_
  intro a id hs hid
  rw [hid, Option.bind_some]
  rcases Option.eq_none_or_eq_some (names.get id) with hn | ⟨id', hn⟩
  · simp only [hn]
    exact clearId_get hs
  · simp only [hn]
    exact setId_get id' a

/-- With distinct ids and no misplaced complex element, every object with an id is the last one with it. -/
theorem distinct_last {n : NumLib} {root x : Elem} (h : Held n root) (ht : Everywhere Tidy root) (hd : DistinctIds root)
    {p : List Step} {id : Str} (hp : root.at p = some x) (hx : x.objectId = some id) :
    lastWithId root id = some (p, x) := by
  have hm := (mem_visited h ht (objectId_complex hx)).2 hp
  rcases Option.eq_none_or_eq_some (lastWithId root id) with hn | ⟨r, hr⟩
  · exact absurd hx (lastWith_none hn hm)
  · obtain ⟨h1, h2⟩ := lastWith_some hr
    have h1 := (mem_visited (p := r.1) h ht (objectId_complex h2)).1 h1
    have := hd _ _ _ _ _ h1 hp h2 hx
    rw [this, hp] at h1
    rw [hr]
    cases h1
    rw [← this]

/-- **C38, cleared.** If no two objects of the tree have the same id and no misplaced element is complex, then after
clearing ids no object at any depth has an id. -/
theorem C38_cleared_partial (n : NumLib) (root : Elem) (h : Held n root) (ht : Everywhere Tidy root)
    (hd : DistinctIds root) (p : List Step) (y : Elem) (hy : (clearIds root).at p = some y) : y.objectId = none := by
  have hx : ∃ x, root.at p = some x := by
    unfold clearIds at hy
    rw [editAttrs_at] at hy
    obtain ⟨x, hx, _⟩ := Option.map_eq_some_iff.1 hy
    exact ⟨x, hx⟩
  obtain ⟨x, hx⟩ := hx
  obtain ⟨y', h1, _, h2, h3⟩ := C38_clear_partial n root h p x hx
  rw [hy] at h1
  cases h1
  rcases Option.eq_none_or_eq_some x.objectId with hn | ⟨id, hid⟩
  · rw [h3 fun id hl => ?_, hn]
    have := (lastWith_some hl).2
    rw [hn] at this
    cases this
  · exact h2 id (distinct_last h ht hd hx hid)

/-- **C38, renamed.** Under the same conditions, after remapping ids every object has the new id of its old id, or none
if the map has none for it. -/
theorem C38_renamed_partial (n : NumLib) (root : Elem) (h : Held n root) (ht : Everywhere Tidy root)
    (hd : DistinctIds root) (names : StdMap Str) (p : List Step) (x : Elem) (hx : root.at p = some x) :
    ∃ y, (remapIds root names).at p = some y ∧ y.ty = x.ty ∧ y.objectId = x.objectId.bind names.get := by
  obtain ⟨y, h1, hty, h2, h3⟩ := C38_remap_partial n root h names p x hx
  refine ⟨y, h1, hty, ?_⟩
  rcases Option.eq_none_or_eq_some x.objectId with hn | ⟨id, hid⟩
  · rw [h3 fun id hl => ?_, hn]
    · rfl
    · have := (lastWith_some hl).2
      rw [hn] at this
      cases this
  · rw [h2 id (distinct_last h ht hd hx hid), hid]
    rfl

/-- A tree with all its `id` attributes taken away. -/
def withoutIds (e : Elem) : Elem := editAttrs (fun _ a => clearId a) e

theorem erase_erase {α : Type} {m : StdMap α} (h : StdMap.Sorted m) (k : Str) : (m.erase k).erase k = m.erase k := by
  refine StdMap.ext (StdMap.sorted_erase (StdMap.sorted_erase h _) _) (StdMap.sorted_erase h _) fun j => ?_
  rw [StdMap.get_erase (StdMap.sorted_erase h _), StdMap.get_erase h]
  split <;> rfl

theorem set_erase {α : Type} {m : StdMap α} (h : StdMap.Sorted m) (k : Str) (v : α) : (m.set k v).erase k = m.erase k := by
  refine StdMap.ext (StdMap.sorted_erase (StdMap.sorted_set h _ _) _) (StdMap.sorted_erase h _) fun j => ?_
  rw [StdMap.get_erase (StdMap.sorted_set h _ _), StdMap.get_set, StdMap.get_erase h]
  split <;> rfl

/-- **C38, nothing else.** Clearing and remapping change nothing but ids: other attributes, children, texts and unknown
content stay. -/
theorem C38_nothing_else (n : NumLib) (root : Elem) (h : Held n root) (names : StdMap Str) :
    withoutIds (clearIds root) = withoutIds root ∧ withoutIds (remapIds root names) = withoutIds root := by
  have key : ∀ f : List Step → Attrs → Attrs,
      (∀ p a, StdMap.Sorted a.known → clearId (f p a) = clearId a) →
      withoutIds (editAttrs f root) = withoutIds root := by
    intro f hf
    unfold withoutIds
    rw [editAttrs_editAttrs]
    refine editAttrs_congr fun p t a sl mi un hp => ?_
    exact hf p a (held_known_sorted (held_at h hp rfl))
  have hcc : ∀ a : Attrs, StdMap.Sorted a.known → clearId (clearId a) = clearId a := by
    intro a hs
    unfold clearId
    rw [erase_erase hs]
  have hcs : ∀ (a : Attrs) id, StdMap.Sorted a.known → clearId (setId id a) = clearId a := by
    intro a id hs
    unfold clearId setId
    rw [set_erase hs]
  constructor
  · refine key _ fun p a hs => ?_
    split
    · exact hcc a hs
    · rfl
  · refine key _ fun p a hs => ?_
    split
    · split
      · exact hcs a _ hs
      · exact hcc a hs
    · rfl

/-- **C38, duplicates.** The vector of duplicates holds the objects after which another one with the same id is found;
so it is empty exactly if all ids that are found are distinct. -/
theorem C38_duplicates (root : Elem) (p : List Step) :
    p ∈ (mapIds root).2 ↔ ∃ l1 r l2 r' l3 id, ([], root) :: getChildElements root true = l1 ++ r :: l2 ++ r' :: l3 ∧
      r.1 = p ∧ r.2.objectId = some id ∧ r'.2.objectId = some id := by
  unfold mapIds
  rw [mem_dups]
  constructor
  · rintro (h | ⟨id, h, _⟩ | h)
    · cases h
    · cases h
    · exact h
  · exact fun h => .inr (.inr h)

/-- **C38, the map of ids** gives for each id the last object with it. -/
theorem C38_map (root : Elem) (id : Str) : (mapIds root).1.get id = (lastWithId root id).map (·.1) := mapIds_get

theorem remapOutput_get {names : StdMap Str} {id' : Str} : ∀ {l : List (Str × List Step)} {out : StdMap (List Step)},
    (∀ p, (l.foldl (fun out e => match names.get e.1 with
      | some id => out.set id e.2
      | none => out) out).get id' = some p →
        out.get id' = some p ∨ ∃ id, (id, p) ∈ l ∧ names.get id = some id') ∧
    ((out.get id').isSome = true ∨ (∃ e ∈ l, names.get e.1 = some id') →
      ((l.foldl (fun out e => match names.get e.1 with
        | some id => out.set id e.2
        | none => out) out).get id').isSome = true)
  | [], out => ⟨fun _ h => .inl h, by simp⟩
  | (k, q) :: l, out => by
    rw [List.foldl_cons]
    rcases Option.eq_none_or_eq_some (names.get k) with hn | ⟨k', hn⟩
    · obtain ⟨h1, h2⟩ := remapOutput_get (names := names) (id' := id') (l := l) (out := out)
      simp only [hn]
      refine ⟨fun p hp => ?_, fun h => h2 ?_⟩
      · rcases h1 p hp with h | ⟨id, h, h'⟩
        · exact .inl h
        · exact .inr ⟨id, List.mem_cons_of_mem _ h, h'⟩
      · rcases h with h | ⟨e, he, h⟩
        · exact .inl h
        · rcases List.mem_cons.1 he with rfl | he
          · rw [hn] at h; cases h
          · exact .inr ⟨e, he, h⟩
    · obtain ⟨h1, h2⟩ := remapOutput_get (names := names) (id' := id') (l := l) (out := out.set k' q)
      simp only [hn]
      rw [StdMap.get_set] at h1 h2
      refine ⟨fun p hp => ?_, fun h => h2 ?_⟩
      · rcases h1 p hp with h | ⟨id, h, h'⟩
        · split at h
          · rename_i hk
            cases h
            exact .inr ⟨k, by simp, by rw [hn, hk]⟩
          · exact .inl h
        · exact .inr ⟨id, List.mem_cons_of_mem _ h, h'⟩
      · by_cases hk : k' = id'
        · rw [if_pos hk]; exact .inl rfl
        · rw [if_neg hk]
          rcases h with h | ⟨e, he, h⟩
          · exact .inl h
          · rcases List.mem_cons.1 he with rfl | he
            · rw [hn] at h; cases h; exact absurd rfl hk
            · exact .inr ⟨e, he, h⟩

/-- **C38, the map that remapping fills** has an object for exactly the new ids given to objects: under a new id there
is an object that got it. -/
theorem C38_output (root : Elem) (names : StdMap Str) (id' : Str) :
    (∀ p, (remapOutput root names).get id' = some p →
      ∃ id x, lastWithId root id = some (p, x) ∧ names.get id = some id') ∧
    ((remapOutput root names).get id' = none → ∀ id r, lastWithId root id = some r → names.get id ≠ some id') := by
  have hs : StdMap.Sorted (mapIds root).1 := idMapper_sorted StdMap.sorted_nil
  obtain ⟨h1, h2⟩ := remapOutput_get (names := names) (id' := id') (l := (mapIds root).1) (out := [])
  constructor
  · intro p hp
    rcases h1 p hp with h | ⟨id, h, h'⟩
    · cases h
    · have := StdMap.get_of_mem hs h
      rw [C38_map] at this
      obtain ⟨r, hr, rfl⟩ := Option.map_eq_some_iff.1 this
      exact ⟨id, r.2, hr, h'⟩
  · intro hn id r hr he
    have : (mapIds root).1.get id = some r.1 := by rw [C38_map, hr]; rfl
    have h3 : ((remapOutput root names).get id').isSome = true := h2 (.inr ⟨(id, r.1), StdMap.mem_of_get this, he⟩)
    rw [hn] at h3
    cases h3

/-- **C38, the number returned by remapping** is the number of objects that lost their id: those ids that are found
and have no new id. -/
theorem C38_count (root : Elem) (names : StdMap Str) : ∃ ids : List Str, ids.Nodup ∧
    (∀ id, id ∈ ids ↔ (lastWithId root id).isSome = true ∧ names.get id = none) ∧
    remapCount root names = ids.length := by
  have hs : StdMap.Sorted (mapIds root).1 := idMapper_sorted StdMap.sorted_nil
  refine ⟨((mapIds root).1.filter fun e => (names.get e.1).isNone).map (·.1), ?_, ?_, ?_⟩
  · exact (StdMap.nodup_keys hs).sublist (List.filter_sublist.map _)
  · intro id
    rw [List.mem_map]
    constructor
    · rintro ⟨e, he, rfl⟩
      rw [List.mem_filter] at he
      have := StdMap.get_of_mem hs he.1
      rw [C38_map] at this
      obtain ⟨r, hr, _⟩ := Option.map_eq_some_iff.1 this
      exact ⟨by rw [hr]; rfl, by simpa using he.2⟩
    · rintro ⟨h1, h2⟩
      obtain ⟨r, hr⟩ := Option.isSome_iff_exists.1 h1
      have : (mapIds root).1.get id = some r.1 := by rw [C38_map, hr]; rfl
      exact ⟨(id, r.1), List.mem_filter.2 ⟨StdMap.mem_of_get this, by simp [h2]⟩, rfl⟩
  · unfold remapCount
    rw [List.length_map]

/-- The ids of the root and of all objects found below it, after a change. -/
def idsAfter (evs : List Ev) (f : Elem → Elem) : Option (List (Option Str)) :=
  (rootOf evs).map fun e => (([], f e) :: saved (f e)).map fun r => r.2.objectId

/-- The ids are `f`, none, `a`, `b`: the hypotheses are met by this document and all is as it should be. -/
def withIds : List Ev :=
  [.start (chars! "Folder") [(chars! "id", chars! "f")], .start (chars! "Placemark") [], .stop (chars! "Placemark"),
    .start (chars! "Folder") [(chars! "id", chars! "a")], .start (chars! "Placemark") [(chars! "id", chars! "b")],
    .stop (chars! "Placemark"), .stop (chars! "Folder"), .stop (chars! "Folder")]

example : idsAfter withIds id = some [some (chars! "f"), none, some (chars! "a"), some (chars! "b")] ∧
    idsAfter withIds clearIds = some [none, none, none, none] ∧
    idsAfter withIds (fun e => remapIds e [(chars! "a", chars! "b"), (chars! "b", chars! "c")]) =
      some [none, none, some (chars! "b"), some (chars! "c")] ∧
    (rootOf withIds).map (fun e => remapCount e [(chars! "a", chars! "b"), (chars! "b", chars! "c")]) = some 1 := by
  decide +kernel

/-- The placemark has one id, so they are distinct. -/
example : DistinctIds cPlacemark := by
  intro p q x y id hp hq hx hy
  have h : ∀ p x id, cPlacemark.at p = some x → x.objectId = some id → p = [] := by
    intro p x id hp hx
    have hm := (mem_visited (cPlacemark_canonical true).held cPlacemark_tidy (objectId_complex hx)).2 hp
    have : ∀ r ∈ saved cPlacemark, r.2.objectId = none := by decide +kernel
    rcases List.mem_cons.1 hm with hm | hm
    · cases hm; rfl
    · have := this _ hm
      rw [hx] at this
      cases this
  rw [h p x id hp hx, h q y id hq hy]

/-- **C38 fails: duplicate ids.** In `<Folder><Placemark id="a"/><Placemark id="a"/></Folder>` the first placemark
keeps its id when ids are cleared, and when `a` is remapped to `b`. -/
theorem C38_duplicate_violated :
    (∀ evs, evs = [.start (chars! "Folder") [], .start (chars! "Placemark") [(chars! "id", chars! "a")],
      .stop (chars! "Placemark"), .start (chars! "Placemark") [(chars! "id", chars! "a")], .stop (chars! "Placemark"),
      .stop (chars! "Folder")] → idsAfter evs clearIds = some [none, some (chars! "a"), none] ∧
      idsAfter evs (fun e => remapIds e [(chars! "a", chars! "b")]) =
        some [none, some (chars! "a"), some (chars! "b")]) := by
  rintro evs rfl
  decide +kernel

/-- **C38 fails: misplaced objects.** In `<Placemark><Folder id="a"/></Placemark>` the folder keeps its id. -/
theorem C38_misplaced_violated :
    (rootOf [.start (chars! "Placemark") [], .start (chars! "Folder") [(chars! "id", chars! "a")],
      .stop (chars! "Folder"), .stop (chars! "Placemark")]).map
      (fun e => ((clearIds e).at [.mis 0]).map Elem.objectId) = some (some (some (chars! "a"))) := by decide +kernel

/-! ## C40 Visiting features -/

/-- **C40.** Visiting a feature calls the visitor with features `l` such that: the features in `l` are the feature
itself and those reached from it by going down to features of containers; each is in `l` once; each feature is before
the features below it, and a child with all that is below it is before the next child. -/
theorem C40_visit (e : Elem) : ∃ l : List (List Nat × Elem),
    visitFeatures e = l.map (fun r => (featurePath r.1, r.2)) ∧
    (∀ is x, (is, x) ∈ l ↔ featureAt e is = some x) ∧ (l.map (·.1)).Nodup ∧ (l.map (·.1)).Pairwise Earlier := by
  obtain ⟨l, h1, h2, h3⟩ := visit_spec e
  exact ⟨l, h1, h2, List.Pairwise.imp (fun h he => by subst he; exact not_earlier_self _ h) h3, h3⟩

/-- **C40, the root feature** is the feature of a `kml` element that has one, and otherwise the element itself if it is
a feature. -/
theorem C40_root (t : Ty) (a : Attrs) (slots : Mem → List Elem) (mis : List Elem) (unk : List Str)
    (p : List Step) (x : Elem) :
    rootFeature (.node t a slots mis unk) = some (p, x) ↔
      (t = Ty.«kml» ∧ p = [.slot M.«feature» 0] ∧ (slots M.«feature»).head? = some x) ∨
      ((t = Ty.«kml» → slots M.«feature» = []) ∧ p = [] ∧ x = .node t a slots mis unk ∧ x.isA Ty.«Feature» = true) := by
  rw [rootFeature]
  by_cases ht : t = Ty.«kml»
  · rw [if_pos ht]
    cases slots M.«feature» with
    | nil =>
      simp only [ht, List.head?_nil]
      split
      · rename_i h
        constructor
        · intro he; cases he; exact .inr ⟨fun _ => trivial, rfl, rfl, h⟩
        · rintro (⟨_, _, h⟩ | ⟨_, rfl, rfl, _⟩)
          · cases h
          · rfl
      · rename_i h
        constructor
        · intro he; cases he
        · rintro (⟨_, _, h⟩ | ⟨_, rfl, rfl, h'⟩)
          · cases h
          · exact absurd h' h
    | cons y ys =>
      constructor
      · intro he; cases he; exact .inl ⟨ht, rfl, rfl⟩
      · rintro (⟨_, rfl, h⟩ | ⟨h, _⟩)
        · cases h; rfl
        · cases h ht
  · rw [if_neg ht]
    simp only [ht, false_and, false_or, false_implies, true_and]
    split
    · rename_i h
      constructor
      · intro he; cases he; exact ⟨rfl, rfl, h⟩
      · rintro ⟨rfl, rfl, _⟩; rfl
    · rename_i h
      constructor
      · intro he; cases he
      · rintro ⟨rfl, rfl, h'⟩; exact absurd h' h

example : (rootOf nested).map (fun e => (visitFeatures e).map fun r => (r.1, r.2.ty)) = some
    [([], Ty.«Folder»), (featurePath [0], Ty.«Placemark»), (featurePath [1], Ty.«Folder»),
      (featurePath [1, 0], Ty.«Placemark»)] := by decide +kernel

example : ((rootOf ([.start (chars! "kml") []] ++ nested ++ [.stop (chars! "kml")])).bind rootFeature).map
    (fun r => (r.1, r.2.ty)) = some ([.slot M.«feature» 0], Ty.«Folder») := by decide +kernel

end Kml.Dom
