import Verif.Spec.Visitor
import Verif.Lemmas.Walk

/-! Visits. -/

namespace Kml.Dom

open Kml

theorem visits_rules : (classes.all fun p => (reachable p.2.rules).all fun r =>
    match r with
    | (.ty c, .one m) | (.ty c, .many m) =>
      decide (m ∈ visitMembers p.1) == !decide (c ∈ foreignTypes)
    | (.isA c, .one m) | (.isA c, .many m) =>
      classes.all fun q => !decide (c ∈ q.2.isA) || (decide (m ∈ visitMembers p.1) == !decide (q.1 ∈ foreignTypes))
    | (.any, .one _) | (.any, .many _) => false
    | (_, a) => decide (a.mem ∉ visitMembers p.1)) = true := by decide +kernel

theorem visits_nodup : (visitTable.all fun p => decide p.2.Nodup) = true := by decide +kernel

theorem text_visits : visitMembers Ty.«Snippet» = [] ∧ visitMembers Ty.«linkSnippet» = [] ∧
    visitMembers Ty.«SimpleData» = [] ∧ visitMembers Ty.«coordinates» = [] := by decide +kernel

theorem chains : (classNames.all fun p => decide (p.1 = Ty.«hotSpot») ||
    decide (visitChain p.1 = (follow baseTable p.2).filter hasMethod)) = true := by decide +kernel

theorem classes_named : (classes.all fun p => (classNames.find? fun e => e.1 = p.1).isSome) = true := by
  decide +kernel

theorem kinds_chain : (classes.all fun c => kinds.all fun k => decide (k.1 ∈ foreignTypes) ||
    decide (k.1 = Ty.«hotSpot») || (decide (k.2 ∈ visitChain c.1) == decide (k.1 ∈ c.2.isA))) = true := by
  decide +kernel

attribute [local irreducible] kml22Elements Xsd.tagToId classes inc dec uintSize visitTable classNames acceptTable
  visitorTable baseTable

theorem visitMembers_nodup (t : Ty) : (visitMembers t).Nodup := by
  unfold visitMembers
  rcases Option.eq_none_or_eq_some (visitTable.find? fun e => e.1 = t) with h | ⟨r, h⟩
  · rw [h]; exact List.nodup_nil
  · rw [h]
    exact of_decide_eq_true (List.all_eq_true.1 visits_nodup _ (List.mem_of_find?_eq_some h))

theorem held_classOf {n : NumLib} {t : Ty} {a : Attrs} {slots : Mem → List Elem} {mis : List Elem} {unk : List Str}
    (h : Held n (.node t a slots mis unk)) : (classOf t).isSome = true := by
  cases h with
  | node h _ _ _ _ _ _ => exact h
  | text h _ _ _ _ =>
    rcases h with rfl | rfl | rfl
    · rw [classOf_snippet]; rfl
    · rw [classOf_linkSnippet]; rfl
    · rw [classOf_simpleData]; rfl
  | points _ => rw [classOf_coordinates]; rfl

/-- The members visited are those with complex children that are not Atom or xAL elements. -/
theorem visits_child {n : NumLib} {t : Ty} {a : Attrs} {slots : Mem → List Elem} {mis : List Elem} {unk : List Str}
    (h : Held n (.node t a slots mis unk)) {m : Mem} {x : Elem} (hx : x ∈ slots m) :
    m ∈ visitMembers t ↔ x.complex = true ∧ x.ty ∉ foreignTypes := by
  have texty : visitMembers t = [] → x.complex = false →
      (m ∈ visitMembers t ↔ x.complex = true ∧ x.ty ∉ foreignTypes) := by
    intro h1 h2
    rw [h1, h2]
    simp
  cases h with
  | points _ =>
    refine texty text_visits.2.2.2 ?_
    unfold pointTextSlots setSlot at hx
    split at hx
    · obtain ⟨s, _, rfl⟩ := List.mem_map.1 hx
      rfl
    · cases hx
  | text ht ha hs hmis _ =>
    have hf : x.complex = false := by
      rcases hs with rfl | ⟨s, rfl⟩
      · cases hx
      · unfold textSlots setSlot at hx
        split at hx
        · rw [List.mem_singleton.1 hx]; rfl
        · cases hx
    rcases ht with rfl | rfl | rfl
    · exact texty text_visits.1 hf
    · exact texty text_visits.2.1 hf
    · exact texty text_visits.2.2.1 hf
  | node hclass htext ha hslots hmis hk _ =>
    obtain ⟨act, h1, h2, h3, _⟩ := hslots m x hx
    obtain ⟨c, test, hc, hmem, hreach, hr, hm⟩ := taker_rule h1
    have hv := List.all_eq_true.1 (List.all_eq_true.1 visits_rules _ hmem) _ hreach
    have pick : (∃ m, act = .one m) ∨ (∃ m, act = .many m) →
        (m ∈ visitMembers t ↔ x.complex = true ∧ x.ty ∉ foreignTypes) := by
      intro hact
      have hcx := complex_child (hk m x hx).proper h1 hact
      rw [hcx]
      simp only [true_and]
      cases test with
      | any => rcases hact with ⟨m', rfl⟩ | ⟨m', rfl⟩ <;> cases hv
      | ty ct =>
        have hty : x.ty = ct := of_decide_eq_true hm
        have hb : decide (act.mem ∈ visitMembers t) = !decide (ct ∈ foreignTypes) := by
          rcases hact with ⟨m', rfl⟩ | ⟨m', rfl⟩ <;> exact eq_of_beq hv
        rw [h2] at hb
        rw [hty]
        by_cases hf : ct ∈ foreignTypes
        · rw [decide_eq_true hf] at hb
          exact ⟨fun h => absurd h (of_decide_eq_false hb), fun h => absurd hf h⟩
        · rw [decide_eq_false hf] at hb
          exact ⟨fun _ => hf, fun _ => of_decide_eq_true hb⟩
      | isA ct =>
        have hb : (classes.all fun q => !decide (ct ∈ q.2.isA) ||
            (decide (act.mem ∈ visitMembers t) == !decide (q.1 ∈ foreignTypes))) = true := by
          rcases hact with ⟨m', rfl⟩ | ⟨m', rfl⟩ <;> exact hv
        rw [h2] at hb
        have hi : x.isA ct = true := hm
        have hxh := hk m x hx
        cases x with
        | field t' s => cases hcx
        | node t' a' sl mi un =>
          obtain ⟨c', hc'⟩ := Option.isSome_iff_exists.1 (held_classOf hxh)
          have hi' : ct ∈ c'.isA := by
            unfold Elem.isA at hi
            dsimp only at hi
            rw [hc'] at hi
            exact of_decide_eq_true hi
          have hq := List.all_eq_true.1 hb _ (classOf_pair hc')
          dsimp only at hq
          rw [decide_eq_true hi', Bool.not_true, Bool.false_or] at hq
          have hq := eq_of_beq hq
          show m ∈ visitMembers t ↔ t' ∉ foreignTypes
          by_cases hf : t' ∈ foreignTypes
          · rw [decide_eq_true hf] at hq
            exact ⟨fun h => absurd h (of_decide_eq_false hq), fun h => absurd hf h⟩
          · rw [decide_eq_false hf] at hq
            exact ⟨fun _ => hf, fun _ => of_decide_eq_true hq⟩
    have simple : act.mem ∉ visitMembers t → x.complex = false →
        (m ∈ visitMembers t ↔ x.complex = true ∧ x.ty ∉ foreignTypes) := by
      intro ha hx
      rw [h2] at ha
      rw [hx]
      simp [ha]
    have hself := List.all_eq_true.1 (List.all_eq_true.1 classes_self _ hmem) _ hr
    dsimp only at hself
    rw [htext, Bool.false_or] at hself
    cases act with
    | one m' => exact pick (.inl ⟨_, rfl⟩)
    | many m' => exact pick (.inr ⟨_, rfl⟩)
    | field m' k =>
      refine simple (by cases test <;> exact of_decide_eq_true hv) ?_
      cases x with
      | field => rfl
      | node t' a' sl mi un =>
        rcases h3 with ⟨_, _, _, h⟩ | h <;> cases h
    | fields m' k =>
      refine simple (by cases test <;> exact of_decide_eq_true hv) ?_
      cases x with
      | field => rfl
      | node t' a' sl mi un =>
        rcases h3 with ⟨_, _, _, h⟩ | h <;> cases h
    | selfText m' => cases hself
    | selfPoints m' => cases hself

/-! ### Membership -/

theorem mem_preorderEach {m : Mem} : ∀ {xs : List Elem} {i : Nat} {p : List Step} {x : Elem},
    (p, x) ∈ preorderEach m i xs ↔ ∃ j y q, xs[j]? = some y ∧ p = .slot m (i + j) :: q ∧ (q, x) ∈ preorder y
  | [], i, p, x => by simp [preorderEach]
  | y :: ys, i, p, x => by
    rw [preorderEach, List.mem_append, mem_preorderEach (xs := ys)]
    constructor
    · rintro (h | ⟨j, z, q, h1, h2, h3⟩)
      · obtain ⟨r, hr, he⟩ := List.mem_map.1 h
        cases he
        exact ⟨0, y, r.1, rfl, rfl, hr⟩
      · exact ⟨j + 1, z, q, h1, by rw [h2]; congr 2; omega, h3⟩
    · rintro ⟨j, z, q, h1, h2, h3⟩
      cases j with
      | zero =>
        cases h1
        exact .inl (List.mem_map.2 ⟨(q, x), h3, by rw [h2]; rfl⟩)
      | succ j => exact .inr ⟨j, z, q, h1, by rw [h2]; congr 2; omega, h3⟩

theorem mem_preorder_node {t : Ty} {a : Attrs} {slots : Mem → List Elem} {mis : List Elem} {unk : List Str}
    {p : List Step} {x : Elem} : (p, x) ∈ preorder (.node t a slots mis unk) ↔
      (p = [] ∧ x = .node t a slots mis unk) ∨
        ∃ m ∈ visitMembers t, ∃ j y q, (slots m)[j]? = some y ∧ p = .slot m j :: q ∧ (q, x) ∈ preorder y := by
  rw [preorder, List.mem_cons, List.mem_flatMap]
  simp only [mem_preorderEach, Nat.zero_add, Prod.mk.injEq]

theorem plain_nil (e : Elem) : Plain e [] := by
  intro q s r h
  cases q <;> cases h

theorem plain_cons {e y : Elem} {s : Step} {p : List Step} (h : e.child s = some y) :
    Plain e (s :: p) ↔ (∃ m i, s = .slot m i) ∧ y.ty ∉ foreignTypes ∧ Plain y p := by
  constructor
  · intro hp
    have h0 := hp [] s p rfl
    refine ⟨h0.1, h0.2 y (by simp [Elem.at, h]), ?_⟩
    intro q s' r hq
    obtain ⟨h1, h2⟩ := hp (s :: q) s' r (by rw [hq]; rfl)
    refine ⟨h1, fun x hx => h2 x ?_⟩
    rw [List.cons_append, Elem.at, h]
    exact hx
  · rintro ⟨h1, h2, h3⟩ q s' r hq
    cases q with
    | nil =>
      cases hq
      refine ⟨h1, fun x hx => ?_⟩
      simp [Elem.at, h] at hx
      rw [← hx]; exact h2
    | cons s'' q =>
      cases hq
      obtain ⟨g1, g2⟩ := h3 q s' r rfl
      refine ⟨g1, fun x hx => g2 x ?_⟩
      rw [List.cons_append, Elem.at, h] at hx
      exact hx

/-- What is visited. -/
theorem mem_preorder {n : NumLib} {e : Elem} (h : Held n e) : ∀ {p : List Step} {x : Elem},
    (p, x) ∈ preorder e ↔ e.at p = some x ∧ (p ≠ [] → x.complex = true) ∧ Plain e p := by
  have node : ∀ {t : Ty} {a : Attrs} {slots : Mem → List Elem} {mis : List Elem} {unk : List Str},
      Held n (.node t a slots mis unk) →
      (∀ m, ∀ y ∈ slots m, y.complex = true → ∀ {p : List Step} {x : Elem},
        (p, x) ∈ preorder y ↔ y.at p = some x ∧ (p ≠ [] → x.complex = true) ∧ Plain y p) →
      ∀ {p : List Step} {x : Elem}, (p, x) ∈ preorder (.node t a slots mis unk) ↔
        (Elem.node t a slots mis unk).at p = some x ∧ (p ≠ [] → x.complex = true) ∧
          Plain (.node t a slots mis unk) p := by
    intro t a slots mis unk hh ih p x
    rw [mem_preorder_node]
    constructor
    · rintro (⟨rfl, rfl⟩ | ⟨m, hm, j, y, q, hy, rfl, hq⟩)
      · exact ⟨rfl, fun h => absurd rfl h, plain_nil _⟩
      · have hym := List.mem_of_getElem? hy
        obtain ⟨hc, hf⟩ := (visits_child hh hym).1 hm
        obtain ⟨g1, g2, g3⟩ := (ih m y hym hc).1 hq
        have hch : (Elem.node t a slots mis unk).child (.slot m j) = some y := hy
        refine ⟨?_, ?_, (plain_cons hch).2 ⟨⟨_, _, rfl⟩, hf, g3⟩⟩
        · rw [Elem.at, hch]; exact g1
        · intro _
          cases q with
          | nil => cases g1; exact hc
          | cons => exact g2 (by simp)
    · rintro ⟨h1, h2, h3⟩
      cases p with
      | nil => cases h1; exact .inl ⟨rfl, rfl⟩
      | cons s q =>
        rw [Elem.at] at h1
        obtain ⟨y, hy, h1'⟩ := Option.bind_eq_some_iff.1 h1
        clear h1
        rename' h1' => h1
        obtain ⟨⟨m, j, rfl⟩, hf, hp⟩ := (plain_cons hy).1 h3
        have hy' : (slots m)[j]? = some y := hy
        have hym := List.mem_of_getElem? hy'
        have hc : y.complex = true := by
          cases y with
          | node => rfl
          | field =>
            cases q with
            | nil => cases h1; exact h2 (by simp)
            | cons => cases h1
        exact .inr ⟨m, (visits_child hh hym).2 ⟨hc, hf⟩, j, y, q, hy', rfl,
          (ih m y hym hc).2 ⟨h1, fun _ => h2 (by simp), hp⟩⟩
  induction h with
  | @field t s _ =>
    intro p x
    simp only [preorder, List.mem_singleton, Prod.mk.injEq]
    constructor
    · rintro ⟨rfl, rfl⟩
      exact ⟨rfl, fun h => absurd rfl h, plain_nil _⟩
    · rintro ⟨h1, h2, h3⟩
      cases p with
      | nil => cases h1; exact ⟨rfl, rfl⟩
      | cons s p => cases h1
  | @points a pts unk ha =>
    intro p x
    refine node (.points ha) ?_
    intro m y hy hc
    exfalso
    unfold pointTextSlots setSlot at hy
    split at hy
    · obtain ⟨v, _, rfl⟩ := List.mem_map.1 hy
      cases hc
    · cases hy
  | @text t a slots mis unk ht ha hs hmis hm ihm =>
    intro p x
    refine node (.text ht ha hs hmis hm) ?_
    intro m y hy hc
    exfalso
    rcases hs with rfl | ⟨v, rfl⟩
    · cases hy
    · unfold textSlots setSlot at hy
      split at hy
      · rw [List.mem_singleton.1 hy] at hc
        cases hc
      · cases hy
  | @node t a slots mis unk h1 h2 h3 h4 h5 h6 h7 ihs ihm =>
    exact node (.node h1 h2 h3 h4 h5 h6 h7) fun m y hy _ => ihs m y hy

/-! ### Both drivers visit the same -/

mutual

theorem postorder_perm : (e : Elem) → (postorder e).Perm (preorder e)
  | .field _ _ => .refl _
  | .node t a slots mis unk => by
    rw [postorder, preorder]
    refine (List.perm_append_singleton ..).trans (.cons _ ?_)
    have : ∀ ms : List Mem, (ms.flatMap fun m => postorderEach m 0 (slots m)).Perm
        (ms.flatMap fun m => preorderEach m 0 (slots m)) := by
      intro ms
      induction ms with
      | nil => exact .refl _
      | cons m ms ih =>
        rw [List.flatMap_cons, List.flatMap_cons]
        exact (postorderEach_perm m 0 (slots m)).append ih
    exact this _

theorem postorderEach_perm (m : Mem) : (i : Nat) → (xs : List Elem) →
    (postorderEach m i xs).Perm (preorderEach m i xs)
  | _, [] => .refl _
  | i, x :: xs => by
    rw [postorderEach, preorderEach]
    exact ((postorder_perm x).map _).append (postorderEach_perm m (i + 1) xs)

end

/-! ### Order -/

/-- A place is above another, or the other goes to a later item of the same member. -/
def Follow (p q : List Step) : Prop :=
  (∃ s r, q = p ++ s :: r) ∨ ∃ r m i j u v, p = r ++ .slot m i :: u ∧ q = r ++ .slot m j :: v ∧ i < j

theorem follow_cons {s : Step} {p q : List Step} : Follow (s :: p) (s :: q) ↔ Follow p q := by
  constructor
  · rintro (⟨s', r, h⟩ | ⟨r, m, i, j, u, v, h1, h2, h3⟩)
    · exact .inl ⟨s', r, by simpa using h⟩
    · cases r with
      | nil =>
        exfalso
        simp only [List.nil_append, List.cons.injEq] at h1 h2
        have := h1.1.symm.trans h2.1
        simp only [Step.slot.injEq, true_and] at this
        omega
      | cons s' r =>
        simp only [List.cons_append, List.cons.injEq] at h1 h2
        exact .inr ⟨r, m, i, j, u, v, h1.2, h2.2, h3⟩
  · rintro (⟨s', r, h⟩ | ⟨r, m, i, j, u, v, h1, h2, h3⟩)
    · exact .inl ⟨s', r, by rw [h]; rfl⟩
    · exact .inr ⟨s :: r, m, i, j, u, v, by rw [h1]; rfl, by rw [h2]; rfl, h3⟩

theorem not_follow_slot {m m' : Mem} {i j : Nat} {p q : List Step} (h : m = m' → j < i) :
    ¬ Follow (.slot m i :: p) (.slot m' j :: q) := by
  rintro (⟨s, r, h'⟩ | ⟨r, m'', i', j', u, v, h1, h2, h3⟩)
  · simp only [List.cons_append, List.cons.injEq, Step.slot.injEq] at h'
    have := h h'.1.1.symm
    omega
  · cases r with
    | nil =>
      simp only [List.nil_append, List.cons.injEq, Step.slot.injEq] at h1 h2
      have := h (h1.1.1.trans h2.1.1.symm)
      omega
    | cons s r =>
      simp only [List.cons_append, List.cons.injEq] at h1 h2
      have := h1.1.trans h2.1.symm
      simp only [Step.slot.injEq] at this
      have := h this.1
      omega

theorem mem_postorderEach {m : Mem} {xs : List Elem} {i : Nat} {p : List Step} {x : Elem} :
    (p, x) ∈ postorderEach m i xs ↔ (p, x) ∈ preorderEach m i xs := (postorderEach_perm m i xs).mem_iff

/-- The relation between two visits: the first is neither below the second nor at a later item. -/
def Before (a b : List Step × Elem) : Prop := a.1 ≠ b.1 ∧ ¬ Follow b.1 a.1

theorem pair_before {m m' : Mem} {xs ys : List Elem} {i i' : Nat} (hm : m ≠ m') {a b : List Step × Elem}
    (ha : a ∈ preorderEach m i xs) (hb : b ∈ preorderEach m' i' ys) : Before a b := by
  obtain ⟨j, y, q, _, h1, _⟩ := mem_preorderEach.1 (show (a.1, a.2) ∈ _ from ha)
  obtain ⟨j', y', q', _, h1', _⟩ := mem_preorderEach.1 (show (b.1, b.2) ∈ _ from hb)
  unfold Before
  rw [h1, h1']
  refine ⟨?_, not_follow_slot fun h => absurd h.symm hm⟩
  intro h
  simp only [List.cons.injEq, Step.slot.injEq] at h
  exact hm h.1.1

theorem pairwise_flatMap {α : Type} {R : α → α → Prop} {f : Mem → List α} : ∀ {ms : List Mem}, ms.Nodup →
    (∀ m, (f m).Pairwise R) → (∀ m m', m ≠ m' → ∀ a ∈ f m, ∀ b ∈ f m', R a b) → (ms.flatMap f).Pairwise R
  | [], _, _, _ => List.Pairwise.nil
  | m :: ms, h, h1, h2 => by
    rw [List.nodup_cons] at h
    rw [List.flatMap_cons, List.pairwise_append]
    refine ⟨h1 m, pairwise_flatMap h.2 h1 h2, ?_⟩
    intro a ha b hb
    obtain ⟨m', hm', hb⟩ := List.mem_flatMap.1 hb
    exact h2 m m' (fun he => h.1 (he ▸ hm')) a ha b hb

theorem before_map {s : Step} {l : List (List Step × Elem)} (h : l.Pairwise Before) :
    (l.map fun r => (s :: r.1, r.2)).Pairwise Before := by
  refine List.Pairwise.map _ ?_ h
  intro a b hab
  exact ⟨fun h => hab.1 (by simpa using h), fun h => hab.2 (follow_cons.1 h)⟩

mutual

theorem preorder_before : (e : Elem) → (preorder e).Pairwise Before
  | .field _ _ => List.pairwise_singleton _ _
  | .node t a slots mis unk => by
    rw [preorder, List.pairwise_cons]
    refine ⟨?_, pairwise_flatMap (visitMembers_nodup t) (fun m => preorderEach_before m 0 (slots m))
      (fun m m' hm a ha b hb => pair_before hm ha hb)⟩
    intro r hr
    obtain ⟨m, _, hr⟩ := List.mem_flatMap.1 hr
    obtain ⟨j, y, q, _, h1, _⟩ := mem_preorderEach.1 (show (r.1, r.2) ∈ _ from hr)
    refine ⟨by rw [h1]; simp, ?_⟩
    rintro (⟨s, v, h⟩ | ⟨v, m, i, j, u, w, h, h', _⟩)
    · rw [h1] at h; cases h
    · cases v <;> cases h'

theorem preorderEach_before (m : Mem) : (i : Nat) → (xs : List Elem) → (preorderEach m i xs).Pairwise Before
  | _, [] => List.Pairwise.nil
  | i, x :: xs => by
    rw [preorderEach, List.pairwise_append]
    refine ⟨before_map (preorder_before x), preorderEach_before m (i + 1) xs, ?_⟩
    intro a ha b hb
    obtain ⟨r, _, rfl⟩ := List.mem_map.1 ha
    obtain ⟨j, y, q, _, h1, _⟩ := mem_preorderEach.1 (show (b.1, b.2) ∈ _ from hb)
    unfold Before
    rw [h1]
    refine ⟨?_, not_follow_slot fun _ => by omega⟩
    intro h
    simp only [List.cons.injEq, Step.slot.injEq] at h
    omega

end

/-- The relation between two visits of the other driver: the first is neither above the second nor at a later item. -/
def Trails (a b : List Step × Elem) : Prop :=
  a.1 ≠ b.1 ∧ ¬ (∃ s r, b.1 = a.1 ++ s :: r) ∧
    ¬ ∃ r m i j u v, b.1 = r ++ .slot m i :: u ∧ a.1 = r ++ .slot m j :: v ∧ i < j

theorem after_slot {m m' : Mem} {i j : Nat} {p q : List Step} {x y : Elem} (h1 : ¬ (m = m' ∧ i = j))
    (h : m = m' → i < j) : Trails (.slot m i :: p, x) (.slot m' j :: q, y) := by
  refine ⟨?_, ?_, ?_⟩
  · intro he
    simp only [List.cons.injEq, Step.slot.injEq] at he
    exact h1 he.1
  · rintro ⟨s, r, he⟩
    simp only [List.cons_append, List.cons.injEq, Step.slot.injEq] at he
    exact h1 ⟨he.1.1.symm, he.1.2.symm⟩
  · intro hl
    exact not_follow_slot (m := m') (m' := m) (i := j) (j := i) (p := q) (q := p) (fun he => h he.symm) (.inr hl)

theorem after_map {s : Step} {l : List (List Step × Elem)} (h : l.Pairwise Trails) :
    (l.map fun r => (s :: r.1, r.2)).Pairwise Trails := by
  refine List.Pairwise.map _ ?_ h
  rintro a b ⟨h1, h2, h3⟩
  refine ⟨fun h => h1 (by simpa using h), ?_, ?_⟩
  · rintro ⟨s', r, he⟩
    exact h2 ⟨s', r, by simpa using he⟩
  · rintro ⟨r, m, i, j, u, v, he, he', hij⟩
    cases r with
    | nil =>
      simp only [List.nil_append, List.cons.injEq] at he he'
      have := he.1.symm.trans he'.1
      simp only [Step.slot.injEq, true_and] at this
      omega
    | cons s' r =>
      simp only [List.cons_append, List.cons.injEq] at he he'
      exact h3 ⟨r, m, i, j, u, v, he.2, he'.2, hij⟩

mutual

theorem postorder_after : (e : Elem) → (postorder e).Pairwise Trails
  | .field _ _ => List.pairwise_singleton _ _
  | .node t a slots mis unk => by
    rw [postorder, List.pairwise_append]
    refine ⟨pairwise_flatMap (visitMembers_nodup t) (fun m => postorderEach_after m 0 (slots m)) ?_,
      List.pairwise_singleton _ _, ?_⟩
    · intro m m' hm a ha b hb
      obtain ⟨j, y, q, _, h1, _⟩ := mem_preorderEach.1 (mem_postorderEach.1 (show (a.1, a.2) ∈ _ from ha))
      obtain ⟨j', y', q', _, h1', _⟩ := mem_preorderEach.1 (mem_postorderEach.1 (show (b.1, b.2) ∈ _ from hb))
      obtain ⟨a1, a2⟩ := a
      obtain ⟨b1, b2⟩ := b
      dsimp only at h1 h1'
      subst h1 h1'
      exact after_slot (fun h => hm h.1) (fun h => absurd h hm)
    · intro r hr b hb
      rw [List.mem_singleton.1 hb]
      obtain ⟨m, _, hr⟩ := List.mem_flatMap.1 hr
      obtain ⟨j, y, q, _, h1, _⟩ := mem_preorderEach.1 (mem_postorderEach.1 (show (r.1, r.2) ∈ _ from hr))
      refine ⟨by rw [h1]; simp, ?_, ?_⟩
      · rintro ⟨s, v, h⟩
        rw [h1] at h; cases h
      · rintro ⟨v, m, i, j, u, w, h, _⟩
        cases v <;> cases h

theorem postorderEach_after (m : Mem) : (i : Nat) → (xs : List Elem) → (postorderEach m i xs).Pairwise Trails
  | _, [] => List.Pairwise.nil
  | i, x :: xs => by
    rw [postorderEach, List.pairwise_append]
    refine ⟨after_map (postorder_after x), postorderEach_after m (i + 1) xs, ?_⟩
    intro a ha b hb
    obtain ⟨r, _, rfl⟩ := List.mem_map.1 ha
    obtain ⟨j, y, q, _, h1, _⟩ := mem_preorderEach.1 (mem_postorderEach.1 (show (b.1, b.2) ∈ _ from hb))
    obtain ⟨b1, b2⟩ := b
    dsimp only at h1
    subst h1
    exact after_slot (fun h => by omega) (fun _ => by omega)

end

/-! ### Methods -/

theorem class_name {t : Ty} (h : (classOf t).isSome = true) :
    ∃ r, (classNames.find? fun e => e.1 = t) = some r ∧ r ∈ classNames ∧ r.1 = t := by
  obtain ⟨c, hc⟩ := Option.isSome_iff_exists.1 h
  obtain ⟨r, hr⟩ := Option.isSome_iff_exists.1 (List.all_eq_true.1 classes_named _ (classOf_pair hc))
  exact ⟨r, hr, List.mem_of_find?_eq_some hr,
    of_decide_eq_true (List.find?_some (p := fun e : Ty × Str => decide (e.1 = t)) hr)⟩

end Kml.Dom
