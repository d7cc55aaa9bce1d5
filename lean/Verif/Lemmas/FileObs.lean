import Verif.Lemmas.File

/-!
# What the observers of a file take in
-/

namespace Kml.Dom

open Kml

variable {σ : Type}

theorem document_isA : ∀ p ∈ classes, Ty.«Document» ∈ p.2.isA ↔ p.1 = Ty.«Document» := by decide +kernel

theorem document_class : (classOf Ty.«Document»).isSome = true := by decide +kernel

theorem not_iconStyle : Ty.«Document» ≠ Ty.«IconStyle» := by decide

theorem selector_complex : Xsd.elementType Ty.«StyleSelector» ≠ .simple := by decide +kernel

theorem selector_object : ∀ p ∈ classes, Ty.«StyleSelector» ∈ p.2.isA → Ty.«Object» ∈ p.2.isA := by decide +kernel

theorem schemaData_class : (classOf Ty.«SchemaData»).isSome = true := by decide +kernel

attribute [local irreducible] kml22Elements Xsd.tagToId classes inc dec uintSize

theorem snoc_ind {α : Type} {P : List α → Prop} (h0 : P []) (hs : ∀ l x, P l → P (l ++ [x])) (l : List α) : P l := by
  have : ∀ r : List α, P r.reverse := by
    intro r
    induction r with
    | nil => exact h0
    | cons x r ih => rw [List.reverse_cons]; exact hs _ _ ih
  have := this l.reverse
  rwa [List.reverse_reverse] at this

/-- The new elements of a list of notices. -/
def news (l : List Notice) : List Elem :=
  l.filterMap fun
    | .new e => some e
    | .add _ _ => none

/-- The attached elements and their parents. -/
def adds (l : List Notice) : List (Elem × Elem) :=
  l.filterMap fun
    | .new _ => none
    | .add p c => some (p, c)

theorem news_new (l : List Notice) (e : Elem) : news (l ++ [.new e]) = news l ++ [e] := by
  unfold news; rw [List.filterMap_append]; rfl

theorem news_add (l : List Notice) (p c : Elem) : news (l ++ [.add p c]) = news l := by
  unfold news; rw [List.filterMap_append]; exact List.append_nil _

theorem adds_new (l : List Notice) (e : Elem) : adds (l ++ [.new e]) = adds l := by
  unfold adds; rw [List.filterMap_append]; exact List.append_nil _

theorem adds_add (l : List Notice) (p c : Elem) : adds (l ++ [.add p c]) = adds l ++ [(p, c)] := by
  unfold adds; rw [List.filterMap_append]; rfl

theorem isLast_snoc_none {l : List (Option Str)} {id : Str} {i : Nat} : IsLast (l ++ [none]) id i ↔ IsLast l id i := by
  have key : ∀ j : Nat, (l ++ [none])[j]? = some (some id) ↔ l[j]? = some (some id) := by
    intro j
    rw [List.getElem?_append]
    split
    · exact Iff.rfl
    · rename_i h
      rw [List.getElem?_eq_none (by omega : l.length ≤ j)]
      constructor
      · intro h
        have := List.mem_of_getElem? h
        simp at this
      · intro h; cases h
  unfold IsLast
  simp only [ne_eq, key]

theorem isLast_snoc_some {l : List (Option Str)} {k id : Str} {i : Nat} :
    IsLast (l ++ [some k]) id i ↔ if k = id then i = l.length else IsLast l id i := by
  by_cases hk : k = id
  · subst hk
    rw [if_pos rfl]
    constructor
    · rintro ⟨h1, h2⟩
      have hlt : i < (l ++ [some k]).length := (List.getElem?_eq_some_iff.1 h1).1
      rw [List.length_append, List.length_singleton] at hlt
      rcases Nat.lt_or_ge i l.length with hi | hi
      · exact absurd (by simp) (h2 l.length hi)
      · omega
    · rintro rfl
      refine ⟨by simp, fun j hj => ?_⟩
      rw [List.getElem?_eq_none (by simp; omega)]
      simp
  · rw [if_neg hk]
    have key : ∀ j : Nat, (l ++ [some k])[j]? = some (some id) ↔ l[j]? = some (some id) := by
      intro j
      rw [List.getElem?_append]
      split
      · exact Iff.rfl
      · rename_i h
        rw [List.getElem?_eq_none (by omega : l.length ≤ j)]
        constructor
        · intro h
          have := List.mem_of_getElem? h
          simp only [List.mem_singleton, Option.some.injEq] at this
          exact absurd this.symm hk
        · intro h; cases h
    unfold IsLast
    simp only [ne_eq, key]

/-! ### The observers of a file -/

/-- What the observers of a file take in. -/
def fileStep (s : FileState) : Notice → Option FileState
  | .new e => some {
      count := s.count + 1
      ids := match e.objectId with
        | some id => s.ids.set id s.count
        | none => s.ids
      styles := s.styles
      linkParents := if e.ty ∈ linkParentTypes then s.linkParents ++ [s.count] else s.linkParents }
  | .add p c => some { s with
      styles := if p.isA Ty.«Document» && c.isA Ty.«StyleSelector» then s.styles.set (c.objectId.getD []) c else s.styles }

theorem file_listens : Listens (fileObservers false) fileStep where
  new s e := by
    refine ⟨(fun h => by cases h), fun s' h => ?_⟩
    cases h
    unfold fileObservers objectIdObserver sharedStyleObserver linkParentsObserver counting
    rcases Option.eq_none_or_eq_some e.objectId with h | ⟨id, h⟩
    · simp only [callAll, h]
      by_cases hl : e.ty ∈ linkParentTypes
      · simp only [if_pos hl]
      · simp only [if_neg hl]
    · simp only [callAll, h, Bool.false_and, Bool.false_eq_true, if_false]
      by_cases hl : e.ty ∈ linkParentTypes
      · simp only [if_pos hl]
      · simp only [if_neg hl]
  fin s p c := rfl
  add s p c := by
    refine ⟨(fun h => by cases h), fun s' h => ?_⟩
    cases h
    unfold fileObservers objectIdObserver sharedStyleObserver linkParentsObserver counting
    by_cases hb : (p.isA Ty.«Document» && c.isA Ty.«StyleSelector») = true
    · rcases Option.eq_none_or_eq_some c.objectId with h | ⟨id, h⟩
      · simp only [callAll, h, hb, if_true, Option.getD]
      · simp only [callAll, h, hb, if_true, Bool.false_and, Bool.false_eq_true, if_false, Option.getD]
    · simp only [callAll, hb, if_false, Bool.false_eq_true]

/-- The attached elements that are shared styles with an id. -/
def sharedAs (id : Str) (q : Elem × Elem) : Bool :=
  q.1.isA Ty.«Document» && q.2.isA Ty.«StyleSelector» && decide (q.2.objectId.getD [] = id)

/-- The numbers of the items of a list for which something holds. -/
def indices {α : Type} (f : α → Bool) (l : List α) : List Nat :=
  (List.range l.length).filter fun i => (l[i]?).any f

theorem indices_snoc {α : Type} (f : α → Bool) (l : List α) (x : α) :
    indices f (l ++ [x]) = indices f l ++ if f x then [l.length] else [] := by
  unfold indices
  rw [List.length_append, List.length_singleton, List.range_succ, List.filter_append]
  congr 1
  · refine List.filter_congr fun i hi => ?_
    rw [List.getElem?_append_left (List.mem_range.1 hi)]
  · by_cases h : f x <;> simp [h]

/-- What the members of a file hold after a list of notices. -/
structure Took (l : List Notice) (s : FileState) : Prop where
  count : s.count = (news l).length
  ids : ∀ id i, s.ids.get id = some i ↔ IsLast ((news l).map Elem.objectId) id i
  styles : ∀ id, s.styles.get id = ((adds l).filter (sharedAs id)).getLast?.map (·.2)
  parents : s.linkParents = indices (fun e => decide (e.ty ∈ linkParentTypes)) (news l)

theorem file_took {l : List Notice} {s : FileState} (h : takeIn fileStep .init l = some s) : Took l s := by
  refine takeIn_inv Took ⟨rfl, ?_, fun _ => rfl, rfl⟩ ?_ h
  · intro id i
    constructor
    · intro h; cases h
    · rintro ⟨h, _⟩; cases h
  · intro pre s x s' hs hx
    cases x with
    | new e =>
      cases hx
      refine ⟨?_, ?_, ?_, ?_⟩
      · rw [news_new, List.length_append, ← hs.count]; rfl
      · intro id i
        rw [news_new, List.map_append, List.map_singleton]
        rcases Option.eq_none_or_eq_some e.objectId with h | ⟨k, h⟩
        · simp only [h]
          rw [isLast_snoc_none]
          exact hs.ids id i
        · simp only [h]
          rw [isLast_snoc_some, StdMap.get_set, List.length_map, ← hs.count]
          split
          · simp only [Option.some.injEq]
            exact eq_comm
          · exact hs.ids id i
      · intro id
        rw [adds_new]
        exact hs.styles id
      · rw [news_new, indices_snoc]
        simp only [hs.count, hs.parents]
        by_cases hl : e.ty ∈ linkParentTypes
        · rw [if_pos hl, if_pos (decide_eq_true hl)]
        · rw [if_neg hl, if_neg (fun h => hl (of_decide_eq_true h)), List.append_nil]
    | add p c =>
      cases hx
      refine ⟨?_, ?_, ?_, ?_⟩
      · rw [news_add]; exact hs.count
      · rw [news_add]; exact hs.ids
      · intro id
        rw [adds_add, List.filter_append]
        by_cases hb : (p.isA Ty.«Document» && c.isA Ty.«StyleSelector») = true
        · simp only [hb, if_true, StdMap.get_set]
          by_cases hi : c.objectId.getD [] = id
          · rw [if_pos hi, List.filter_cons_of_pos (by simp only [sharedAs, hb, hi, decide_true, Bool.and_self])]
            simp
          · rw [if_neg hi, List.filter_cons_of_neg (by simp only [sharedAs, hb, hi, decide_false, Bool.and_false,
              Bool.false_eq_true, not_false_eq_true]), List.filter_nil, List.append_nil]
            exact hs.styles id
        · simp only [hb, if_false, Bool.false_eq_true]
          rw [List.filter_cons_of_neg (by
            simp only [sharedAs, Bool.and_eq_true]
            rintro ⟨h, _⟩
            exact hb (by rw [Bool.and_eq_true]; exact h)), List.filter_nil, List.append_nil]
          exact hs.styles id
      · rw [news_add]; exact hs.parents

/-! ### What the notices are about -/

theorem about_ids {n : NumLib} {ts : List Told} {l : List Notice} (h : Each (About n) ts l) :
    (news l).map Elem.objectId = (ts.filterMap Told.tag).map fun t => tagId t.1 t.2 := by
  induction h with
  | nil => rfl
  | @cons a b as bs hab _ ih =>
    cases a with
    | start t attrs =>
      cases b with
      | new e =>
        rw [List.filterMap_cons_some (show Told.tag (.start t attrs) = some (t, attrs) from rfl), List.map_cons, ← ih]
        show e.objectId :: _ = _
        rw [start_id hab]
        rfl
      | add => exact hab.elim
    | attach p x =>
      cases b with
      | new => exact hab.elim
      | add => exact ih

theorem about_types {n : NumLib} {ts : List Told} {l : List Notice} (h : Each (About n) ts l) :
    (news l).map Elem.ty = (ts.filterMap Told.tag).map fun t : Ty × List (Str × Str) => t.1 := by
  induction h with
  | nil => rfl
  | @cons a b as bs hab _ ih =>
    cases a with
    | start t attrs =>
      cases b with
      | new e =>
        rw [List.filterMap_cons_some (show Told.tag (.start t attrs) = some (t, attrs) from rfl), List.map_cons, ← ih,
          ← hab.1]
        rfl
      | add => exact hab.elim
    | attach p x =>
      cases b with
      | new => exact hab.elim
      | add => exact ih

theorem about_adds {n : NumLib} {ts : List Told} {l : List Notice} (h : Each (About n) ts l) :
    Each (fun (t : Ty × Xml) (q : Elem × Elem) => q.1.ty = t.1 ∧ StandsFor n t.1 t.2 q.2) (ts.filterMap Told.inner) (adds l) := by
  induction h with
  | nil => exact .nil
  | @cons a b as bs hab _ ih =>
    cases a with
    | start t attrs =>
      cases b with
      | new e => exact ih
      | add => exact hab.elim
    | attach p x =>
      cases b with
      | new => exact hab.elim
      | add q c =>
        exact .cons hab ih

theorem Each.getLast? {α β : Type} {R : α → β → Prop} {as : List α} {bs : List β} (h : Each R as bs) :
    (as.getLast? = none ∧ bs.getLast? = none) ∨ ∃ a b, as.getLast? = some a ∧ bs.getLast? = some b ∧ R a b := by
  induction h with
  | nil => exact .inl ⟨rfl, rfl⟩
  | @cons a b as bs hab _ ih =>
    right
    rw [List.getLast?_cons, List.getLast?_cons]
    rcases ih with ⟨h1, h2⟩ | ⟨x, y, h1, h2, h3⟩
    · rw [h1, h2]; exact ⟨a, b, rfl, rfl, hab⟩
    · rw [h1, h2]; exact ⟨x, y, rfl, rfl, h3⟩

theorem Each.filter {α β : Type} {R : α → β → Prop} {f : α → Bool} {g : β → Bool} {as : List α} {bs : List β}
    (h : Each R as bs) (hfg : ∀ a b, R a b → f a = g b) : Each R (as.filter f) (bs.filter g) := by
  induction h with
  | nil => exact .nil
  | @cons a b as bs hab _ ih =>
    have := hfg a b hab
    by_cases hf : f a = true
    · rw [List.filter_cons_of_pos hf, List.filter_cons_of_pos (this ▸ hf)]
      exact .cons hab ih
    · rw [List.filter_cons_of_neg hf, List.filter_cons_of_neg (this ▸ hf)]
      exact ih

theorem Each.filterMap {α β γ : Type} {R : α → β → Prop} {f : α → Option γ} {g : β → Option γ} {as : List α}
    {bs : List β} (h : Each R as bs) (hfg : ∀ a b, R a b → f a = g b) : as.filterMap f = bs.filterMap g := by
  induction h with
  | nil => rfl
  | @cons a b as bs hab _ ih =>
    rw [List.filterMap_cons, List.filterMap_cons, hfg a b hab, ih]

/-! ### The strict id observer -/

/-- What the strict id observer takes in. -/
def idStep (s : FileState) : Notice → Option FileState
  | .new e =>
    match e.objectId with
    | some id => if (s.ids.get id).isSome then none else some { s with ids := s.ids.set id s.count, count := s.count + 1 }
    | none => some { s with count := s.count + 1 }
  | .add _ _ => some s

theorem id_listens : Listens [objectIdObserver true, counting] idStep where
  new s e := by
    unfold idStep objectIdObserver counting
    rcases Option.eq_none_or_eq_some e.objectId with h | ⟨id, h⟩
    · simp only [callAll, h]
      exact ⟨(fun h => by cases h), (fun s' h => by cases h; rfl)⟩
    · simp only [callAll, h, Bool.true_and]
      by_cases hb : (s.ids.get id).isSome = true
      · simp only [hb, if_true]
        exact ⟨fun _ => by simp, (fun s' h => by cases h)⟩
      · simp only [hb, Bool.false_eq_true, if_false]
        exact ⟨(fun h => by cases h), (fun s' h => by cases h; rfl)⟩
  fin s p c := rfl
  add s p c := ⟨(fun h => by cases h), (fun s' h => by cases h; rfl)⟩

/-- The strict id observer agrees exactly as long as all ids are different. -/
theorem idStep_isSome (l : List Notice) :
    (((news l).filterMap Elem.objectId).Nodup ∧ ∃ s, takeIn idStep .init l = some s ∧ ∀ id, (s.ids.get id).isSome = true ↔
      id ∈ (news l).filterMap Elem.objectId) ∨
    (¬ ((news l).filterMap Elem.objectId).Nodup ∧ takeIn idStep .init l = none) := by
  refine snoc_ind (P := fun l => (((news l).filterMap Elem.objectId).Nodup ∧ ∃ s, takeIn idStep .init l = some s ∧
    ∀ id, (s.ids.get id).isSome = true ↔ id ∈ (news l).filterMap Elem.objectId) ∨
    (¬ ((news l).filterMap Elem.objectId).Nodup ∧ takeIn idStep .init l = none)) ?_ ?_ l
  · left
    refine ⟨List.nodup_nil, _, rfl, fun id => ?_⟩
    constructor
    · intro h; cases h
    · intro h; cases h
  · intro l x ih
    rw [takeIn_snoc]
    cases x with
    | add p c =>
      rw [news_add]
      rcases ih with ⟨h1, s, h2, h3⟩ | ⟨h1, h2⟩
      · exact .inl ⟨h1, s, by rw [h2]; rfl, h3⟩
      · exact .inr ⟨h1, by rw [h2]; rfl⟩
    | new e =>
      rw [news_new, List.filterMap_append]
      rcases Option.eq_none_or_eq_some e.objectId with h | ⟨id, h⟩
      · rw [List.filterMap_cons_none h, List.filterMap_nil, List.append_nil]
        rcases ih with ⟨h1, s, h2, h3⟩ | ⟨h1, h2⟩
        · exact .inl ⟨h1, { s with count := s.count + 1 }, by rw [h2, Option.bind_some]; simp only [idStep, h], h3⟩
        · exact .inr ⟨h1, by rw [h2]; rfl⟩
      · rw [List.filterMap_cons_some h, List.filterMap_nil]
        rcases ih with ⟨h1, s, h2, h3⟩ | ⟨h1, h2⟩
        · by_cases hm : (s.ids.get id).isSome = true
          · right
            refine ⟨fun hn => ?_, by rw [h2, Option.bind_some]; simp only [idStep, h, hm, if_true]⟩
            exact (List.nodup_append.1 hn).2.2 id ((h3 id).1 hm) id (List.mem_singleton_self _) rfl
          · left
            refine ⟨?_, { s with ids := s.ids.set id s.count, count := s.count + 1 },
              by rw [h2, Option.bind_some]; simp only [idStep, h, hm, Bool.false_eq_true, if_false], ?_⟩
            · rw [List.nodup_append]
              refine ⟨h1, by simp, fun a ha b hb hab => ?_⟩
              rw [List.mem_singleton.1 hb] at hab
              exact hm ((h3 id).2 (hab ▸ ha))
            · intro k
              rw [List.mem_append, List.mem_singleton, StdMap.get_set, ← h3 k]
              by_cases hk : id = k
              · simp [hk]
              · rw [if_neg hk]
                exact ⟨Or.inl, fun h => h.resolve_right fun h => hk h.symm⟩
        · right
          refine ⟨fun hn => h1 (List.nodup_append.1 hn).1, by rw [h2]; rfl⟩

/-! ### Links -/

/-- The link of an attached element. -/
def linkAt (q : Elem × Elem) : Option Str :=
  match q.2 with
  | .field t text =>
    if t = Ty.«href» ∨ t = Ty.«styleUrl» ∨ (t = Ty.«targetHref» ∧ q.1.ty = Ty.«Alias») then some text else none
  | .node t a _ _ _ => if t = Ty.«SchemaData» then a.known.get (chars! "schemaUrl") else none

def linkStep (s : List Str) : Notice → Option (List Str)
  | .new _ => some s
  | .add p c => some (s ++ (linkAt (p, c)).toList)

theorem links_listens : Listens [linksObserver] linkStep where
  new s e := ⟨(fun h => by cases h), (fun s' h => by cases h; rfl)⟩
  fin s p c := rfl
  add s p c := by
    refine ⟨(fun h => by cases h), fun s' h => ?_⟩
    cases h
    unfold linksObserver linkAt
    cases c with
    | field t text =>
      simp only [callAll]
      split <;> simp
    | node t a slots mis unk =>
      simp only [callAll]
      by_cases h : t = Ty.«SchemaData»
      · simp only [if_pos h]
        cases a.known.get (chars! "schemaUrl") <;> simp
      · simp only [if_neg h]; simp

theorem links_took {l : List Notice} {s : List Str} (h : takeIn linkStep [] l = some s) : s = (adds l).filterMap linkAt := by
  refine takeIn_inv (fun l s => s = (adds l).filterMap linkAt) rfl ?_ h
  intro pre s x s' hs hx
  cases x with
  | new e => cases hx; rw [adds_new]; exact hs
  | add p c =>
    cases hx
    rw [adds_add, List.filterMap_append, hs]
    cases h : linkAt (p, c) <;> simp [h]

/-- Rows of the table of elements. -/
def linkRows : List (Ty × Str) :=
  [(Ty.«href», chars! "href"), (Ty.«styleUrl», chars! "styleUrl"), (Ty.«targetHref», chars! "targetHref"),
    (Ty.«SchemaData», chars! "SchemaData")]

theorem linkRows_facts : ∀ r ∈ linkRows, r.1 ≠ Ty.Unknown ∧ (kml22Elements[r.1]?).map (·.1) = some r.2 ∧
    Xsd.elementId r.2 = r.1 := by
  decide +kernel

theorem linkRow_iff {t : Ty} {nm : Str} (h : (t, nm) ∈ linkRows) (name : Str) : Xsd.elementId name = t ↔ name = nm := by
  obtain ⟨hv, hr, hi⟩ := linkRows_facts _ h
  constructor
  · intro he
    obtain ⟨_, x, hx⟩ := Xsd.row_of_elementId (n := name) (by rw [he]; exact hv)
    rw [he] at hx
    simp only [hx, Option.map_some, Option.some.injEq] at hr
    exact hr
  · rintro rfl
    exact hi

theorem href_iff (name : Str) : Xsd.elementId name = Ty.«href» ↔ name = chars! "href" :=
  linkRow_iff (.head _) name

theorem styleUrl_iff (name : Str) : Xsd.elementId name = Ty.«styleUrl» ↔ name = chars! "styleUrl" :=
  linkRow_iff (.tail _ (.head _)) name

theorem targetHref_iff (name : Str) : Xsd.elementId name = Ty.«targetHref» ↔ name = chars! "targetHref" :=
  linkRow_iff (.tail _ (.tail _ (.head _))) name

theorem schemaData_iff (name : Str) : Xsd.elementId name = Ty.«SchemaData» ↔ name = chars! "SchemaData" :=
  linkRow_iff (.tail _ (.tail _ (.tail _ (.head _)))) name

theorem link_simple : ∀ t ∈ [Ty.«href», Ty.«styleUrl», Ty.«targetHref»], Xsd.elementType t = .simple := by decide +kernel

theorem schemaData_complex : Xsd.elementType Ty.«SchemaData» = .complex := by decide +kernel

theorem icons_not_schemaData : Ty.«IconStyleIcon» ≠ Ty.«SchemaData» ∧ Ty.«Icon» ≠ Ty.«SchemaData» := by decide

theorem tyIn_schemaData {p : Ty} {name : Str} : tyIn p name = Ty.«SchemaData» ↔ name = chars! "SchemaData" := by
  unfold tyIn
  rw [← schemaData_iff]
  split
  · rename_i h
    rw [h.1]
    exact ⟨fun h => absurd h icons_not_schemaData.1, fun h => absurd h icons_not_schemaData.2⟩
  · exact Iff.rfl

/-- The link of an element is that of what it stands for. -/
theorem linkOf_stands {n : NumLib} {p : Ty} {x : Xml} {q c : Elem} (hq : q.ty = p) (h : StandsFor n p x c) :
    linkOf p x = linkAt (q, c) := by
  obtain ⟨name, attrs, ks, hx, hty, h⟩ := standsFor_cases h
  unfold linkOf
  rw [hx, Option.bind_some]
  rcases h with ⟨hs, hc⟩ | ⟨hs, hc, slots, mis, unk, rfl⟩
  · by_cases hl : name = chars! "href" ∨ name = chars! "styleUrl" ∨ (name = chars! "targetHref" ∧ p = Ty.«Alias»)
    · rw [if_pos hl]
      have hd : name ≠ chars! "description" := by
        rintro rfl
        revert hl
        have : ¬ (chars! "description" = chars! "href" ∨ chars! "description" = chars! "styleUrl" ∨
          chars! "description" = chars! "targetHref") := by decide
        rintro (h | h | ⟨h, _⟩)
        · exact this (.inl h)
        · exact this (.inr (.inl h))
        · exact this (.inr (.inr h))
      rw [hc hd]
      unfold linkAt
      simp only [hq, href_iff, styleUrl_iff, targetHref_iff, hl, if_true]
    · rw [if_neg hl]
      have hsd : ¬ name = chars! "SchemaData" := by
        intro h
        rw [(schemaData_iff name).2 h, schemaData_complex] at hs
        cases hs
      rw [if_neg hsd]
      cases c with
      | field t s =>
        have ht : t = tyIn p name := hty
        have ht' : t = Xsd.elementId name ∨ t = Ty.«IconStyleIcon» := by
          rw [ht]
          unfold tyIn
          split
          · exact .inr rfl
          · exact .inl rfl
        unfold linkAt
        simp only
        rw [if_neg]
        rcases ht' with h | h
        · rw [h, href_iff, styleUrl_iff, targetHref_iff, hq]
          exact hl
        · rw [h]
          have : ¬ Ty.«IconStyleIcon» = Ty.«href» ∧ ¬ Ty.«IconStyleIcon» = Ty.«styleUrl» ∧
            ¬ Ty.«IconStyleIcon» = Ty.«targetHref» := by decide
          rintro (h | h | ⟨h, _⟩)
          · exact this.1 h
          · exact this.2.1 h
          · exact this.2.2 h
      | node t a slots mis unk =>
        have ht : t = tyIn p name := hty
        unfold linkAt
        simp only
        rw [if_neg]
        rw [ht, tyIn_schemaData]
        exact hsd
  · have hl : ¬ (name = chars! "href" ∨ name = chars! "styleUrl" ∨ (name = chars! "targetHref" ∧ p = Ty.«Alias»)) := by
      have key : ∀ t ∈ [Ty.«href», Ty.«styleUrl», Ty.«targetHref»], ¬ Xsd.elementId name = t := by
        intro t ht h
        rw [h, link_simple t ht] at hs
        cases hs
      rintro (h | h | ⟨h, _⟩)
      · exact key _ (by simp) ((href_iff _).2 h)
      · exact key _ (by simp) ((styleUrl_iff _).2 h)
      · exact key _ (by simp) ((targetHref_iff _).2 h)
    rw [if_neg hl]
    unfold linkAt
    simp only [tyIn_schemaData]
    split
    · rename_i hn
      rw [newAttrs_get hc]
      have : tyIn p name = Ty.«SchemaData» := tyIn_schemaData.2 hn
      rw [this]
      exact schemaData_reads
    · rfl

/-! ### Shared styles -/

theorem isA_document {q : Elem} {p : Ty} (hq : q.ty = p) : q.isA Ty.«Document» = decide (p = Ty.«Document») := by
  subst hq
  cases q with
  | field t s => rfl
  | node t a slots mis unk =>
    rcases Option.eq_none_or_eq_some (classOf t) with hc | ⟨c, hc⟩
    · simp only [Elem.isA, hc]; rfl
    · simp only [Elem.isA, hc]
      have := document_isA _ (classOf_pair hc)
      exact decide_eq_decide.2 this

theorem simple_field {n : NumLib} {p : Ty} {x : Xml} {c : Elem} (h : StandsFor n p x c) {name : Str}
    {attrs : List (Str × Str)} {ks : List Xml} (hx : x.parts = some (name, attrs, ks))
    (hs : Xsd.elementType (Xsd.elementId name) = .simple) : ∃ s, c = .field (Xsd.elementId name) s := by
  obtain ⟨name', attrs', ks', d, e, hx', hm, hb⟩ := h
  have : x.parts = some (name', attrs', ks') := by
    rcases hx' with ⟨rfl, rfl⟩ | rfl <;> rfl
  rw [hx] at this
  cases this
  rcases makeElement_cases hm with ⟨_, he⟩ | ⟨hc, _⟩
  · obtain ⟨s1, _, h2⟩ := buildKnown_inv hb
    have hhead : c.head = e.head := by
      rcases h2 with ⟨_, _, hf, _⟩ | ⟨_, e1, text, hk, hf⟩
      · exact finishElement_node hf
      · rw [finishElement_node hf]
        exact (buildKids_head hk).1
    rw [he] at hhead
    cases c with
    | field t s =>
      have := congrArg (·.1) hhead
      simp only [Elem.head, Elem.ty] at this
      exact ⟨s, by rw [this]⟩
    | node => have := congrArg (·.2) hhead; cases this
  · rw [hs] at hc; cases hc

theorem simple_not_selector {t : Ty} (h : Xsd.elementType t = .simple) : (newNode t).isA Ty.«StyleSelector» = false := by
  have hne : ¬ t = Ty.«StyleSelector» := by
    rintro rfl
    exact selector_complex h
  rcases Option.eq_none_or_eq_some (classOf t) with hc | ⟨c, hc⟩
  · simp only [newNode, Elem.isA, hc, decide_eq_false_iff_not]
    exact hne
  · exfalso
    have := List.all_eq_true.1 classes_simple _ (classOf_pair hc)
    simp [h] at this

/-- A shared style: a child of a document that is a style selector. -/
theorem shared_stands {n : NumLib} {p : Ty} {x : Xml} {q c : Elem} (hq : q.ty = p) (h : StandsFor n p x c) (id : Str) :
    decide (p = Ty.«Document» ∧ styleId x = some id) = sharedAs id (q, c) := by
  unfold sharedAs
  rw [isA_document hq]
  by_cases hp : p = Ty.«Document»
  · subst hp
    simp only [decide_true, Bool.true_and, true_and]
    obtain ⟨name, attrs, ks, hx, hty, h'⟩ := standsFor_cases h
    have htn : tyIn Ty.«Document» name = Xsd.elementId name := by
      unfold tyIn
      rw [if_neg fun h => not_iconStyle h.2]
    unfold styleId
    rw [hx, Option.bind_some]
    rcases h' with ⟨hs, _⟩ | ⟨hs, hc, slots, mis, unk, rfl⟩
    · obtain ⟨s, rfl⟩ := simple_field h hx hs
      have h1 := simple_not_selector hs
      have h2 : (Elem.field (Xsd.elementId name) s).isA Ty.«StyleSelector» = false := by
        refine decide_eq_false ?_
        intro h
        rw [h] at hs
        exact selector_complex hs
      rw [h2]
      simp only [h1, Bool.false_eq_true, if_false, Bool.false_and]
      rfl
    · rw [node_isA, node_objectId hc]
      rw [htn] at hc ⊢
      simp only
      by_cases hsel : (newNode (Xsd.elementId name)).isA Ty.«StyleSelector» = true
      · rw [if_pos hsel, hsel, Bool.true_and]
        have hobj : (newNode (Xsd.elementId name)).isA Ty.«Object» = true := by
          obtain ⟨cl, hcl⟩ := Option.isSome_iff_exists.1 hc
          simp only [newNode, Elem.isA, hcl] at hsel ⊢
          exact decide_eq_true (selector_object _ (classOf_pair hcl) (of_decide_eq_true hsel))
        unfold tagId
        rw [if_pos hobj]
        simp only [Option.some.injEq]
      · rw [if_neg hsel]
        simp [hsel]
  · simp [hp]

end Kml.Dom
