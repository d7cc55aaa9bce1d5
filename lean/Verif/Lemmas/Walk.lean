import Verif.Spec.Place
import Verif.Lemmas.Clone

/-! Walks over element trees. -/

set_option linter.unusedVariables false

namespace Kml.Dom

open Kml

theorem classes_complex_rules : (classes.all fun p => p.2.rules.all fun r =>
    match r with
    | (.ty t, .one _) | (.ty t, .many _) | (.isA t, .one _) | (.isA t, .many _) => decide (Xsd.elementType t ≠ .simple)
    | (.any, .one _) | (.any, .many _) => false
    | _ => true) = true := by decide +kernel

attribute [local irreducible] kml22Elements Xsd.tagToId classes inc dec uintSize

theorem member_mem (w : Write) : w.member = w.mem := by cases w <;> rfl

theorem saves_elemOk {w : Write} : w.saves = true ↔ elemOk w.mem w = true := by
  cases w <;> simp [Write.saves, elemOk, Write.mem]

/-- A child taken into a member for elements is complex. -/
theorem complex_child {t : Ty} {x : Elem} {act : Act} (hp : Proper x) (ht : taker t x = some act)
    (ha : (∃ m, act = .one m) ∨ ∃ m, act = .many m) : x.complex = true := by
  obtain ⟨c, test, hc, hmem, _, hr, hm⟩ := taker_rule ht
  have h := List.all_eq_true.1 (List.all_eq_true.1 classes_complex_rules _ hmem) _ hr
  cases x with
  | node t' a sl mi un => rfl
  | field t' s =>
    exfalso
    cases test with
    | ty ct =>
      have hty : t' = ct := of_decide_eq_true hm
      subst hty
      rcases ha with ⟨m, rfl⟩ | ⟨m, rfl⟩ <;> exact of_decide_eq_true h hp
    | isA ct =>
      have hty : t' = ct := of_decide_eq_true hm
      subst hty
      rcases ha with ⟨m, rfl⟩ | ⟨m, rfl⟩ <;> exact of_decide_eq_true h hp
    | any => rcases ha with ⟨m, rfl⟩ | ⟨m, rfl⟩ <;> cases h

/-- The writes of an element call `SaveElement` for exactly its complex children. -/
theorem held_saves {n : NumLib} {t : Ty} {a : Attrs} {slots : Mem → List Elem} {mis : List Elem} {unk : List Str}
    (h : Held n (.node t a slots mis unk)) {m : Mem} {x : Elem} (hx : x ∈ slots m) :
    x.complex = true ↔ ∃ w ∈ (classAt t).writes, w.saves = true ∧ w.member = m := by
  have texty : ∀ {w : Write}, (classAt t).writes = [w] → w.saves = false → x.complex = false →
      (x.complex = true ↔ ∃ w ∈ (classAt t).writes, w.saves = true ∧ w.member = m) := by
    intro w hw hs hx
    rw [hw, hx]
    constructor
    · intro h; cases h
    · rintro ⟨w', h1, h2, _⟩
      rw [List.mem_singleton.1 h1, hs] at h2
      cases h2
  cases h with
  | points _ =>
    refine texty coordinates_writes rfl ?_
    unfold pointTextSlots setSlot at hx
    split at hx
    · obtain ⟨s, _, rfl⟩ := List.mem_map.1 hx
      rfl
    · cases hx
  | text ht ha hs hmis _ =>
    have hf : x.complex = false := by
      rcases hs with rfl | ⟨s, rfl⟩
      · cases hx
      · unfold textSlots setSlot at hx
        split at hx
        · rw [List.mem_singleton.1 hx]; rfl
        · cases hx
    rcases ht with rfl | rfl | rfl
    · exact texty snippet_writes rfl hf
    · exact texty linkSnippet_writes rfl hf
    · exact texty simpleData_writes rfl hf
  | node hclass htext ha hslots hmis hk _ =>
    obtain ⟨c, hc⟩ := Option.isSome_iff_exists.1 hclass
    rw [classAt_eq hc]
    have hnd : (c.writes.map Write.mem).Nodup := nodup_writes (classOf_pair hc)
    obtain ⟨act, h1, h2, h3, _⟩ := hslots m x hx
    by_cases hloc : t = Ty.«XalLocality» ∧ m = M.«localityname»
    · obtain ⟨rfl, rfl⟩ := hloc
      have hnw : ¬ ∃ w ∈ c.writes, w.saves = true ∧ w.member = M.«localityname» := by
        rintro ⟨w, hw, _, hm⟩
        rw [← classAt_eq hc] at hw
        rw [member_mem] at hm
        exact of_decide_eq_true (List.all_eq_true.1 locality_writes _ hw) hm
      refine ⟨fun hcx => ?_, fun h => absurd h hnw⟩
      have hself := List.all_eq_true.1 classes_self _ (classOf_pair hc)
      obtain ⟨c', test, hc', _, hreach, hr, _⟩ := taker_rule h1
      rw [hc] at hc'
      cases hc'
      have hw := List.all_eq_true.1 (List.all_eq_true.1 classes_written _ (classOf_pair hc)) _ hreach
      cases act with
      | one m =>
        rw [Bool.or_eq_true] at hw
        rcases hw with hw | hw
        · simp [unwritten] at hw
        · have : c.writes.any (elemOk m) = true := by cases test <;> exact hw
          obtain ⟨w, hw1, hw2⟩ := List.any_eq_true.1 this
          have hm : w.mem = m := (elemOk_pieces hw2).1
          exact ⟨w, hw1, saves_elemOk.2 (by rw [hm]; exact hw2), by rw [member_mem, hm]; exact h2⟩
      | many m =>
        rw [Bool.or_eq_true] at hw
        rcases hw with hw | hw
        · simp [unwritten] at hw
        · have : c.writes.any (elemOk m) = true := by cases test <;> exact hw
          obtain ⟨w, hw1, hw2⟩ := List.any_eq_true.1 this
          have hm : w.mem = m := (elemOk_pieces hw2).1
          exact ⟨w, hw1, saves_elemOk.2 (by rw [hm]; exact hw2), by rw [member_mem, hm]; exact h2⟩
      | field m k =>
        cases x with
        | field t' s => cases hcx
        | node t' a' sl mi un =>
          rcases h3 with ⟨_, _, _, h⟩ | h
          · cases h
          · cases h
      | fields m k =>
        cases x with
        | field t' s => cases hcx
        | node t' a' sl mi un =>
          rcases h3 with ⟨_, _, _, h⟩ | h
          · cases h
          · cases h
      | selfText m =>
        rcases h3 with ⟨h, _⟩ | h
        · cases h
        · cases x <;> cases h
      | selfPoints m =>
        rcases h3 with ⟨h, _⟩ | h
        · cases h
        · cases x <;> cases h
    · obtain ⟨w, hw1, hw2, hw3⟩ := write_of hc h1 htext (fun h hm => hloc ⟨h, by rw [← h2, hm]⟩)
      rcases hw3 with ⟨k, hact, htag⟩ | ⟨hel, hact⟩
      · have hf : ∃ t' s, x = .field t' s := by
          cases x with
          | field t' s => exact ⟨t', s, rfl⟩
          | node t' a' sl mi un =>
            rcases h3 with ⟨_, _, _, h⟩ | h
            · cases h
            · rcases hact with hact | ⟨hact, _⟩ <;> rw [hact] at h <;> cases h
        obtain ⟨t', s, rfl⟩ := hf
        refine ⟨(by intro h; cases h), ?_⟩
        rintro ⟨w', hw1', hs', hm'⟩
        have : w' = w := nodup_map_inj hnd hw1' hw1 (by rw [hw2, h2, ← member_mem, hm'])
        subst this
        cases w' <;> first | (cases hs'; done) | cases htag
      · refine ⟨fun _ => ⟨w, hw1, saves_elemOk.2 (by rw [hw2]; exact hel), by rw [member_mem, hw2, h2]⟩, fun _ => ?_⟩
        refine complex_child (hk m x hx).proper h1 ?_
        rcases hact with h | h
        · exact .inl ⟨_, h⟩
        · exact .inr ⟨_, h⟩

/-! ### Membership -/

theorem mem_savedEach {m : Mem} : ∀ {xs : List Elem} {i : Nat} {p : List Step} {x : Elem},
    (p, x) ∈ savedEach m i xs ↔ ∃ j y, xs[j]? = some y ∧
      ((p = [.slot m (i + j)] ∧ x = y) ∨ ∃ q, p = .slot m (i + j) :: q ∧ (q, x) ∈ saved y)
  | [], i, p, x => by simp [savedEach]
  | y :: ys, i, p, x => by
    rw [savedEach, List.mem_append, List.mem_cons, List.mem_map, mem_savedEach (xs := ys)]
    constructor
    · rintro ((h | ⟨r, hr, h⟩) | ⟨j, z, hj, h⟩)
      · cases h
        exact ⟨0, y, rfl, .inl ⟨rfl, rfl⟩⟩
      · cases h
        exact ⟨0, y, rfl, .inr ⟨r.1, rfl, hr⟩⟩
      · refine ⟨j + 1, z, hj, ?_⟩
        rw [show i + (j + 1) = i + 1 + j by omega]
        exact h
    · rintro ⟨j, z, hj, h⟩
      cases j with
      | zero =>
        simp only [List.getElem?_cons_zero, Option.some.injEq] at hj
        subst hj
        rcases h with ⟨rfl, rfl⟩ | ⟨q, rfl, hq⟩
        · exact .inl (.inl rfl)
        · exact .inl (.inr ⟨(q, x), hq, rfl⟩)
      | succ j =>
        refine .inr ⟨j, z, hj, ?_⟩
        rw [show i + (j + 1) = i + 1 + j by omega] at h
        exact h

theorem mem_savedStray : ∀ {xs : List Elem} {i : Nat} {p : List Step} {x : Elem},
    (p, x) ∈ savedStray i xs ↔ ∃ j y, xs[j]? = some y ∧ ∃ q, p = .mis (i + j) :: q ∧ (q, x) ∈ saved y
  | [], i, p, x => by simp [savedStray]
  | y :: ys, i, p, x => by
    rw [savedStray, List.mem_append, List.mem_map, mem_savedStray (xs := ys)]
    constructor
    · rintro (⟨r, hr, h⟩ | ⟨j, z, hj, h⟩)
      · cases h
        exact ⟨0, y, rfl, r.1, rfl, hr⟩
      · refine ⟨j + 1, z, hj, ?_⟩
        rw [show i + (j + 1) = i + 1 + j by omega]
        exact h
    · rintro ⟨j, z, hj, h⟩
      cases j with
      | zero =>
        simp only [List.getElem?_cons_zero, Option.some.injEq] at hj
        subst hj
        obtain ⟨q, rfl, hq⟩ := h
        exact .inl ⟨(q, x), hq, rfl⟩
      | succ j =>
        refine .inr ⟨j, z, hj, ?_⟩
        rw [show i + (j + 1) = i + 1 + j by omega] at h
        exact h

theorem mem_saved_node {t : Ty} {a : Attrs} {slots : Mem → List Elem} {mis : List Elem} {unk : List Str} {p : List Step}
    {x : Elem} : (p, x) ∈ saved (.node t a slots mis unk) ↔
      (∃ w ∈ (classAt t).writes, w.saves = true ∧ ∃ j y, (slots w.member)[j]? = some y ∧
        ((p = [.slot w.member j] ∧ x = y) ∨ ∃ q, p = .slot w.member j :: q ∧ (q, x) ∈ saved y)) ∨
      (t ≠ Ty.«coordinates» ∧ ∃ j y, mis[j]? = some y ∧ ∃ q, p = .mis j :: q ∧ (q, x) ∈ saved y) := by
  rw [saved, List.mem_append, List.mem_flatMap]
  constructor
  · rintro (⟨w, hw, h⟩ | h)
    · split at h
      · rename_i hs
        obtain ⟨j, y, hj, h⟩ := mem_savedEach.1 h
        rw [Nat.zero_add] at h
        exact .inl ⟨w, hw, hs, j, y, hj, h⟩
      · cases h
    · split at h
      · cases h
      · rename_i ht
        obtain ⟨j, y, hj, h⟩ := mem_savedStray.1 h
        rw [Nat.zero_add] at h
        exact .inr ⟨ht, j, y, hj, h⟩
  · rintro (⟨w, hw, hs, j, y, hj, h⟩ | ⟨ht, j, y, hj, h⟩)
    · refine .inl ⟨w, hw, ?_⟩
      rw [if_pos hs]
      exact mem_savedEach.2 ⟨j, y, hj, by rw [Nat.zero_add]; exact h⟩
    · right
      rw [if_neg ht]
      exact mem_savedStray.2 ⟨j, y, hj, by rw [Nat.zero_add]; exact h⟩

theorem mem_saved_ne {e : Elem} {p : List Step} {x : Elem} (h : (p, x) ∈ saved e) : p ≠ [] := by
  rintro rfl
  cases e with
  | field t s => cases h
  | node t a slots mis unk =>
    rcases mem_saved_node.1 h with ⟨w, _, _, j, y, _, ⟨h, _⟩ | ⟨q, h, _⟩⟩ | ⟨_, j, y, _, q, h, _⟩ <;> cases h

theorem held_child {n : NumLib} {e x : Elem} (h : Held n e) {s : Step} (hs : e.child s = some x)
    (hx : x.complex = true) : Held n x := by
  cases e with
  | field t v => cases hs
  | node t a slots mis unk =>
    cases h with
    | points _ =>
      cases s with
      | mis i => simp [Elem.child] at hs
      | slot m i =>
        have := List.mem_of_getElem? hs
        unfold pointTextSlots setSlot at this
        split at this
        · obtain ⟨v, _, rfl⟩ := List.mem_map.1 this
          cases hx
        · cases this
    | text ht _ hsl _ hm =>
      cases s with
      | mis i => exact hm _ (List.mem_of_getElem? hs)
      | slot m i =>
        have := List.mem_of_getElem? hs
        rcases hsl with rfl | ⟨v, rfl⟩
        · cases this
        · unfold textSlots setSlot at this
          split at this
          · rw [List.mem_singleton.1 this] at hx
            cases hx
          · cases this
    | node _ _ _ _ _ hk hm =>
      cases s with
      | mis i => exact hm _ (List.mem_of_getElem? hs)
      | slot m i => exact hk m _ (List.mem_of_getElem? hs)

theorem at_append (p q : List Step) : ∀ (e : Elem), e.at (p ++ q) = (e.at p).bind fun x => x.at q := by
  induction p with
  | nil => intro e; rfl
  | cons s p ih =>
    intro e
    rw [List.cons_append, Elem.at, Elem.at]
    cases e.child s with
    | none => rfl
    | some x => exact ih x

theorem inMember_cons {s : Step} {q : List Step} (hq : q ≠ []) : InMember (s :: q) ↔ InMember q := by
  constructor
  · rintro ⟨r, m, i, h⟩
    cases r with
    | nil => simp at h; exact absurd h.2 hq
    | cons s' r =>
      simp only [List.cons_append, List.cons.injEq] at h
      exact ⟨r, m, i, h.2⟩
  · rintro ⟨r, m, i, rfl⟩
    exact ⟨s :: r, m, i, rfl⟩

theorem inMember_single (m : Mem) (i : Nat) : InMember [.slot m i] := ⟨[], m, i, rfl⟩

theorem not_inMember_nil : ¬ InMember [] := by
  rintro ⟨q, m, i, h⟩
  cases q <;> cases h

theorem savedAux {n : NumLib} {t : Ty} {a : Attrs} {slots : Mem → List Elem} {mis : List Elem} {unk : List Str}
    (h : Held n (.node t a slots mis unk)) (ht : t ≠ Ty.«coordinates»)
    (ihs : ∀ m, ∀ y ∈ slots m, y.complex = true → ∀ {p : List Step} {x : Elem},
      (p, x) ∈ saved y ↔ y.at p = some x ∧ x.complex = true ∧ InMember p)
    (ihm : ∀ y ∈ mis, ∀ {p : List Step} {x : Elem},
      (p, x) ∈ saved y ↔ y.at p = some x ∧ x.complex = true ∧ InMember p) {p : List Step} {x : Elem} :
    (p, x) ∈ saved (.node t a slots mis unk) ↔
      (Elem.node t a slots mis unk).at p = some x ∧ x.complex = true ∧ InMember p := by
  rw [mem_saved_node]
  constructor
  · rintro (⟨w, hw, hs, j, y, hj, h'⟩ | ⟨_, j, y, hj, q, rfl, hq⟩)
    · have hy := List.mem_of_getElem? hj
      have hc := (held_saves h hy).2 ⟨w, hw, hs, rfl⟩
      have hch : (Elem.node t a slots mis unk).child (.slot w.member j) = some y := hj
      rcases h' with ⟨rfl, rfl⟩ | ⟨q, rfl, hq⟩
      · refine ⟨?_, hc, inMember_single _ _⟩
        rw [Elem.at, hch]
        rfl
      · obtain ⟨g1, g2, g3⟩ := (ihs _ y hy hc).1 hq
        refine ⟨?_, g2, (inMember_cons (by rintro rfl; exact not_inMember_nil g3)).2 g3⟩
        rw [Elem.at, hch]
        exact g1
    · have hy := List.mem_of_getElem? hj
      have hch : (Elem.node t a slots mis unk).child (.mis j) = some y := hj
      obtain ⟨g1, g2, g3⟩ := (ihm y hy).1 hq
      refine ⟨?_, g2, (inMember_cons (by rintro rfl; exact not_inMember_nil g3)).2 g3⟩
      rw [Elem.at, hch]
      exact g1
  · rintro ⟨g0, g2, g3⟩
    cases p with
    | nil => exact absurd g3 not_inMember_nil
    | cons s q =>
      rw [Elem.at] at g0
      obtain ⟨y, hy, g1⟩ := Option.bind_eq_some_iff.1 g0
      cases s with
      | slot m i =>
        have hm : y ∈ slots m := List.mem_of_getElem? hy
        have hc : y.complex = true := by
          cases q with
          | nil => cases g1; exact g2
          | cons s q =>
            cases y with
            | field t' s' => cases g1
            | node => rfl
        obtain ⟨w, hw, hs, rfl⟩ := (held_saves h hm).1 hc
        refine .inl ⟨w, hw, hs, i, y, hy, ?_⟩
        by_cases hq : q = []
        · subst hq
          cases g1
          exact .inl ⟨rfl, rfl⟩
        · exact .inr ⟨q, rfl, (ihs _ y hm hc).2 ⟨g1, g2, (inMember_cons hq).1 g3⟩⟩
      | mis i =>
        have hm : y ∈ mis := List.mem_of_getElem? hy
        refine .inr ⟨ht, i, y, hy, q, rfl, ?_⟩
        have hq : q ≠ [] := by
          rintro rfl
          obtain ⟨r, m, j, hr⟩ := g3
          cases r with
          | nil => cases hr
          | cons _ r => simp at hr
        exact (ihm y hm).2 ⟨g1, g2, (inMember_cons hq).1 g3⟩

/-- `SaveElement` is called exactly for the complex elements that are not misplaced themselves. -/
theorem mem_saved {n : NumLib} {e : Elem} (h : Held n e) : ∀ {p : List Step} {x : Elem},
    (p, x) ∈ saved e ↔ e.at p = some x ∧ x.complex = true ∧ InMember p := by
  induction h with
  | @field t s _ =>
    intro p x
    simp only [saved, List.not_mem_nil, false_iff]
    rintro ⟨h1, h2, h3⟩
    cases p with
    | nil => cases h1; cases h2
    | cons s p => cases h1
  | @points a pts unk ha =>
    intro p x
    rw [mem_saved_node, coordinates_writes]
    constructor
    · rintro (⟨w, hw, hs, _⟩ | ⟨h, _⟩)
      · rw [List.mem_singleton.1 hw] at hs; cases hs
      · exact absurd rfl h
    · rintro ⟨h1, h2, h3⟩
      exfalso
      cases p with
      | nil => exact not_inMember_nil h3
      | cons s p =>
        rw [Elem.at] at h1
        obtain ⟨y, hy, h1⟩ := Option.bind_eq_some_iff.1 h1
        cases s with
        | mis i => simp [Elem.child] at hy
        | slot m i =>
          have := List.mem_of_getElem? hy
          unfold pointTextSlots setSlot at this
          split at this
          · obtain ⟨v, _, rfl⟩ := List.mem_map.1 this
            cases p with
            | nil => cases h1; cases h2
            | cons _ _ => cases h1
          · cases this
  | @text t a slots mis unk ht ha hs hmis hm ihm =>
    refine savedAux (.text ht ha hs hmis hm) (by rcases ht with rfl | rfl | rfl <;> decide) ?_ ihm
    intro m y hy hc
    exfalso
    rcases hs with rfl | ⟨v, rfl⟩
    · cases hy
    · unfold textSlots setSlot at hy
      split at hy
      · rw [List.mem_singleton.1 hy] at hc
        cases hc
      · cases hy
  | @node t a slots mis unk h1 h2 h3 h4 h5 h6 h7 ihs ihm =>
    exact savedAux (.node h1 h2 h3 h4 h5 h6 h7) (by rintro rfl; cases h2) (fun m x hx _ => ihs m x hx) ihm

/-! ### No place twice -/

theorem nodup_flatMap_slots {f : Write → List (List Step)} : ∀ {ws : List Write}, (ws.map Write.mem).Nodup →
    (∀ w ∈ ws, (f w).Nodup) → (∀ w ∈ ws, ∀ p ∈ f w, ∃ j q, p = .slot w.mem j :: q) → (ws.flatMap f).Nodup
  | [], _, _, _ => List.nodup_nil
  | w :: ws, h1, h2, h3 => by
    rw [List.map_cons, List.nodup_cons] at h1
    rw [List.flatMap_cons, List.nodup_append]
    refine ⟨h2 w (by simp), nodup_flatMap_slots h1.2 (fun v hv => h2 v (List.mem_cons_of_mem _ hv))
      (fun v hv => h3 v (List.mem_cons_of_mem _ hv)), ?_⟩
    intro p hp q hq hpq
    subst hpq
    obtain ⟨v, hv, hq⟩ := List.mem_flatMap.1 hq
    obtain ⟨j, r, rfl⟩ := h3 w (by simp) p hp
    obtain ⟨j', r', he⟩ := h3 v (List.mem_cons_of_mem _ hv) _ hq
    simp only [List.cons.injEq, Step.slot.injEq] at he
    exact h1.1 (List.mem_map.2 ⟨v, hv, he.1.1.symm⟩)

theorem writes_nodup (t : Ty) : ((classAt t).writes.map Write.mem).Nodup := by
  rcases Option.eq_none_or_eq_some (classOf t) with h | ⟨c, h⟩
  · unfold classAt
    rw [h]
    exact List.nodup_nil
  · rw [classAt_eq h]
    exact nodup_writes (classOf_pair h)

theorem nodup_map_cons {s : Step} {l : List (List Step × Elem)} (h : (l.map (·.1)).Nodup) :
    ((l.map fun r => (s :: r.1, r.2)).map (·.1)).Nodup := by
  rw [List.map_map]
  have : ((fun r : List Step × Elem => r.1) ∘ fun r : List Step × Elem => (s :: r.1, r.2)) =
    (fun p => s :: p) ∘ fun r : List Step × Elem => r.1 := rfl
  rw [this, ← List.map_map]
  exact List.Pairwise.map _ (fun a b hab h => hab (by simpa using h)) h

mutual

theorem saved_nodup : (e : Elem) → ((saved e).map (·.1)).Nodup
  | .field _ _ => List.nodup_nil
  | .node t a slots mis unk => by
    rw [saved, List.map_append, List.map_flatMap, List.nodup_append]
    refine ⟨?_, ?_, ?_⟩
    · refine nodup_flatMap_slots (writes_nodup t) ?_ ?_
      · intro w _
        have := savedEach_nodup w.member 0 (slots w.member)
        split
        · exact this
        · exact List.nodup_nil
      · intro w _ p hp
        split at hp
        · obtain ⟨r, hr, rfl⟩ := List.mem_map.1 hp
          obtain ⟨j, y, _, h⟩ := mem_savedEach.1 (show (r.1, r.2) ∈ _ from hr)
          rw [← member_mem]
          rcases h with ⟨h, _⟩ | ⟨q, h, _⟩
          · exact ⟨_, [], h⟩
          · exact ⟨_, q, h⟩
        · cases hp
    · have := savedStray_nodup 0 mis
      split
      · exact List.nodup_nil
      · exact this
    · intro p hp q hq hpq
      subst hpq
      obtain ⟨w, _, hp⟩ := List.mem_flatMap.1 hp
      split at hp
      · obtain ⟨r, hr, rfl⟩ := List.mem_map.1 hp
        obtain ⟨j, y, _, h⟩ := mem_savedEach.1 (show (r.1, r.2) ∈ _ from hr)
        split at hq
        · cases hq
        · obtain ⟨r', hr', he⟩ := List.mem_map.1 hq
          obtain ⟨j', y', _, q', h', _⟩ := mem_savedStray.1 (show (r'.1, r'.2) ∈ _ from hr')
          rw [he] at h'
          rcases h with ⟨h, _⟩ | ⟨q, h, _⟩ <;> rw [h] at h' <;> cases h'
      · cases hp

theorem savedEach_nodup (m : Mem) : (i : Nat) → (xs : List Elem) → ((savedEach m i xs).map (·.1)).Nodup
  | _, [] => List.nodup_nil
  | i, x :: xs => by
    have h1 := nodup_map_cons (s := .slot m i) (saved_nodup x)
    have h2 := savedEach_nodup m (i + 1) xs
    rw [savedEach, List.map_append, List.map_cons, List.nodup_append, List.nodup_cons]
    refine ⟨⟨?_, h1⟩, h2, ?_⟩
    · intro hx
      obtain ⟨r, hr, he⟩ := List.mem_map.1 hx
      obtain ⟨r', hr', rfl⟩ := List.mem_map.1 hr
      simp only [List.cons.injEq, true_and] at he
      have := mem_saved_ne (show (r'.1, r'.2) ∈ _ from hr')
      exact this he
    · intro p hp q hq hpq
      subst hpq
      obtain ⟨r, hr, rfl⟩ := List.mem_map.1 hq
      obtain ⟨j, y, _, h⟩ := mem_savedEach.1 (show (r.1, r.2) ∈ _ from hr)
      have hhead : r.1.head? = some (.slot m (i + 1 + j)) := by
        rcases h with ⟨h, _⟩ | ⟨q, h, _⟩ <;> rw [h] <;> rfl
      have hhead' : r.1.head? = some (.slot m i) := by
        rcases List.mem_cons.1 hp with hp | hp
        · rw [hp]; rfl
        · obtain ⟨r1, hr1, he⟩ := List.mem_map.1 hp
          obtain ⟨r2, _, rfl⟩ := List.mem_map.1 hr1
          rw [← he]; rfl
      rw [hhead] at hhead'
      simp only [Option.some.injEq, Step.slot.injEq, true_and] at hhead'
      omega

theorem savedStray_nodup : (i : Nat) → (xs : List Elem) → ((savedStray i xs).map (·.1)).Nodup
  | _, [] => List.nodup_nil
  | i, x :: xs => by
    have h1 := nodup_map_cons (s := .mis i) (saved_nodup x)
    have h2 := savedStray_nodup (i + 1) xs
    rw [savedStray, List.map_append, List.nodup_append]
    refine ⟨h1, h2, ?_⟩
    intro p hp q hq hpq
    subst hpq
    obtain ⟨r, hr, rfl⟩ := List.mem_map.1 hq
    obtain ⟨j, y, _, q, h, _⟩ := mem_savedStray.1 (show (r.1, r.2) ∈ _ from hr)
    obtain ⟨r1, hr1, he⟩ := List.mem_map.1 hp
    obtain ⟨r2, _, rfl⟩ := List.mem_map.1 hr1
    rw [← he] at h
    simp only [List.cons.injEq, Step.mis.injEq] at h
    omega

end

/-! ### In document order -/

theorem filter_nostart : ∀ {cs : List Call}, (∀ c ∈ cs, c.isStart = false) → cs.filter Call.isStart = [] := by
  intro cs h
  rw [List.filter_eq_nil_iff]
  intro c hc
  rw [h c hc]
  decide

theorem unknown_nostart (unk : List Str) : (unknownCalls unk).filter Call.isStart = [] := by
  refine filter_nostart fun c hc => ?_
  unfold unknownCalls at hc
  obtain ⟨s, _, hc⟩ := List.mem_flatMap.1 hc
  rcases List.mem_cons.1 hc with rfl | hc
  · rfl
  · rw [List.mem_singleton.1 hc]; rfl

theorem each_starts {m : Mem} : ∀ {xs : List Elem} {i : Nat}, (∀ x ∈ xs, (calls x).filter Call.isStart =
      startCall x :: (saved x).map fun r => startCall r.2) →
    (callsEach xs).flatten.filter Call.isStart = (savedEach m i xs).map fun r => startCall r.2
  | [], i, _ => rfl
  | x :: xs, i, h => by
    rw [callsEach, List.flatten_cons, List.filter_append, h x (by simp), savedEach, List.map_append, List.map_cons,
      each_starts (m := m) (i := i + 1) fun y hy => h y (List.mem_cons_of_mem _ hy), List.map_map]
    rfl

theorem stray_simple : ∀ {xs : List Elem} {i : Nat}, (∀ x ∈ xs, x.complex = false) →
    (callsEach xs).flatten.filter Call.isStart = [] ∧ savedStray i xs = []
  | [], i, _ => ⟨rfl, rfl⟩
  | x :: xs, i, h => by
    obtain ⟨h1, h2⟩ := stray_simple (i := i + 1) fun y hy => h y (List.mem_cons_of_mem _ hy)
    cases x with
    | node => cases h _ (List.mem_cons_self ..)
    | field t s =>
      rw [callsEach, List.flatten_cons, List.filter_append, h1, savedStray, h2]
      exact ⟨rfl, rfl⟩

theorem write_starts {slots : Mem → List Elem} {w : Write} (h : ∀ x ∈ slots w.member, w.saves = true →
      (calls x).filter Call.isStart = startCall x :: (saved x).map fun r => startCall r.2) :
    (w.pieces slots).flatten.filter Call.isStart =
      (if w.saves then savedEach w.member 0 (slots w.member) else []).map fun r => startCall r.2 := by
  have value : ∀ {cs : List Call}, (∀ c ∈ cs, c.isStart = false) →
      (cs.map fun c => [c]).flatten.filter Call.isStart = [] := by
    intro cs hc
    rw [flatten_singletons]
    exact filter_nostart hc
  have mapped : ∀ {f : Str → Call} {l : List Str}, (∀ s, (f s).isStart = false) →
      ∀ c ∈ l.map f, c.isStart = false := by
    intro f l hf c hc
    obtain ⟨s, _, rfl⟩ := List.mem_map.1 hc
    exact hf s
  cases w with
  | field m t => exact value (mapped fun _ => rfl)
  | enum m t => exact value (mapped fun _ => rfl)
  | color m t => exact value (mapped fun _ => rfl)
  | vec3 m t => exact value (mapped fun _ => rfl)
  | content m b =>
    refine value ?_
    intro c hc
    split at hc
    · rw [List.mem_singleton.1 hc]; rfl
    · exact mapped (fun _ => rfl) c hc
  | points m => exact value (mapped fun _ => rfl)
  | elem m => exact each_starts fun x hx => h x hx rfl
  | group m g => exact each_starts fun x hx => h x hx rfl
  | array m => exact each_starts fun x hx => h x hx rfl
  | groupArray m g => exact each_starts fun x hx => h x hx rfl

/-- The elements found are those whose start tags are written, in the order they are written. -/
theorem saved_starts {n : NumLib} {e : Elem} (h : Held n e) : Everywhere Tidy e → e.complex = true →
    (calls e).filter Call.isStart = startCall e :: (saved e).map fun r => startCall r.2 := by
  have aux : ∀ {t : Ty} {a : Attrs} {slots : Mem → List Elem} {mis : List Elem} {unk : List Str},
      Held n (.node t a slots mis unk) → t ≠ Ty.«coordinates» → (∀ x ∈ mis, x.complex = false) →
      (∀ m, ∀ x ∈ slots m, x.complex = true →
        (calls x).filter Call.isStart = startCall x :: (saved x).map fun r => startCall r.2) →
      (calls (.node t a slots mis unk)).filter Call.isStart =
        startCall (.node t a slots mis unk) :: (saved (.node t a slots mis unk)).map fun r => startCall r.2 := by
    intro t a slots mis unk hh ht hm hs
    obtain ⟨m1, m2⟩ := stray_simple (i := 0) hm
    rw [calls_node _ _ _ _ _ ht, saved, if_neg ht, m2, List.append_nil]
    simp only [List.cons_append, List.filter_append, List.filter_cons_of_pos (p := Call.isStart) (a := Call.beginElem t _) rfl,
      unknown_nostart, List.append_nil, Elem.pieces, List.flatten_append, m1]
    rw [List.filter_cons_of_neg (by decide), List.filter_nil, List.append_nil]
    have hst : startCall (.node t a slots mis unk) = .beginElem t (serializeAttributes (classAt t) a) := by
      simp only [startCall, if_neg ht]
    rw [hst]
    congr 1
    have : ∀ ws : List Write, (∀ w ∈ ws, w ∈ (classAt t).writes) →
        (ws.flatMap fun w => w.pieces slots).flatten.filter Call.isStart =
        (ws.flatMap fun w => if w.saves then savedEach w.member 0 (slots w.member) else []).map fun r => startCall r.2 := by
      intro ws
      induction ws with
      | nil => intro _; rfl
      | cons w ws ih =>
        intro hw
        rw [List.flatMap_cons, List.flatten_append, List.filter_append, List.flatMap_cons, List.map_append,
          ih fun v hv => hw v (List.mem_cons_of_mem _ hv), write_starts]
        intro x hx hsv
        exact hs _ x hx ((held_saves hh hx).2 ⟨w, hw w (by simp), hsv, rfl⟩)
    exact this _ fun w hw => hw
  induction h with
  | field _ => intro _ h; cases h
  | @points a pts unk ha =>
    intro _ _
    rw [calls, if_pos rfl, saved, if_pos rfl, coordinates_writes]
    have hp : ∀ l : List Str, (l.map Call.vec3).filter Call.isStart = [] := by
      intro l
      refine filter_nostart fun c hc => ?_
      obtain ⟨s, _, rfl⟩ := List.mem_map.1 hc
      rfl
    simp only [List.flatMap_cons, List.flatMap_nil, Write.valueCalls, List.append_nil, List.cons_append,
      List.filter_cons_of_pos (p := Call.isStart) (a := Call.beginElem _ _) rfl, List.filter_append, hp]
    rfl
  | @text t a slots mis unk ht ha hs hmis hm ihm =>
    intro hty _
    cases hty with
    | node hp _ hmi =>
    refine aux (.text ht ha hs hmis hm) (by rcases ht with rfl | rfl | rfl <;> decide) hp ?_
    intro m y hy hc
    exfalso
    rcases hs with rfl | ⟨v, rfl⟩
    · cases hy
    · unfold textSlots setSlot at hy
      split at hy
      · rw [List.mem_singleton.1 hy] at hc
        cases hc
      · cases hy
  | @node t a slots mis unk h1 h2 h3 h4 h5 h6 h7 ihs ihm =>
    intro hty _
    cases hty with
    | node hp hsl hmi =>
    exact aux (.node h1 h2 h3 h4 h5 h6 h7) (by rintro rfl; cases h2) hp fun m x hx hc => ihs m x hx (hsl m x hx) hc

end Kml.Dom
