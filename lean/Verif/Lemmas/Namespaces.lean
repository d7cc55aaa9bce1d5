import Verif.Spec.Namespaces
import Verif.Lemmas.Ids
import Verif.Lemmas.AttrRound
import Verif.Lemmas.Visitor

/-! Namespaces of the tags that are written. -/

namespace Kml.Dom

open Kml
open Kml.Attributes (Attributes)

/-- The tag a write writes by itself. -/
def Write.ownTag : Write → Option Ty
  | .field _ t | .enum _ t | .color _ t | .vec3 _ t => some t
  | _ => none

/-- The tags of its values an element writes. -/
def ownTags : Elem → List Ty
  | .field _ _ => []
  | .node t _ _ _ _ => (classAt t).writes.filterMap Write.ownTag

/-- The namespace an instance of a type is found with. -/
def typeXmlns (t : Ty) : XmlnsId := ((xmlnsTable.find? fun e => e.1 = t).map (·.2)).getD 0

/-- The prefix of a tag is the one the namespace of a class is found with. -/
def covers (t tag : Ty) : Bool :=
  match prefixOf (Xsd.elementName tag) with
  | none => true
  | some p =>
    match findXmlNamespaceAndPrefix (typeXmlns t) with
    | none => false
    | some r => r.1 = p && decide (r ∈ standardPrefixes)

theorem classes_covers : (classes.all fun c => (c.1 :: c.2.writes.filterMap Write.ownTag).all fun tag =>
    decide (tag ∈ lonePrefixed) || covers c.1 tag) = true := by decide +kernel

theorem classes_kml : (classes.all fun c => decide (c.1 ∈ namespaceless) ||
    (prefixOf (Xsd.elementName c.1)).isSome || decide (typeXmlns c.1 = 13)) = true := by decide +kernel

theorem classes_plain : (classes.all fun c => (prefixOf (Xsd.elementName c.1)).isSome ||
    (c.2.writes.filterMap Write.ownTag).all fun tag => decide (tag ∈ lonePrefixed) ||
      (prefixOf (Xsd.elementName tag)).isNone) = true := by decide +kernel

theorem ids_small : (xmlnsTable.all fun r => decide (r.2 < 20)) = true := by decide +kernel

theorem find_kml : findXmlNamespaceAndPrefix 13 = some (chars! "kml", kmlNamespace) := by decide +kernel

theorem prefixes_once : (xmlNamespaces.all fun a => xmlNamespaces.all fun b =>
    decide (a.2.1 ≠ b.2.1) || decide (a = b)) = true := by decide +kernel

theorem prefix_not_xmlns : (xmlNamespaces.all fun a => decide (a.2.1 ≠ chars! "xmlns")) = true := by decide +kernel

theorem standard_not_kml : (standardPrefixes.all fun a => decide (a.1 ≠ chars! "kml")) = true := by decide +kernel

theorem classes_found : (classes.all fun c => match findXmlNamespaceAndPrefix (typeXmlns c.1) with
    | none => true
    | some r => decide (r ∈ standardPrefixes) || decide (r = (chars! "kml", kmlNamespace))) = true := by decide +kernel

theorem xmlns_not_known : (classes.all fun c => c.2.sets.all fun k =>
    decide (k ≠ chars! "xmlns") && !Attributes.hasPrefix (chars! "xmlns") k) = true := by decide +kernel

attribute [local irreducible] kml22Elements Xsd.tagToId classes inc dec uintSize xmlnsTable xmlNamespaces

/-! ### What `FindXmlNamespaces` collects -/

theorem find_unique {i j : XmlnsId} {p v w : Str} (h1 : findXmlNamespaceAndPrefix i = some (p, v))
    (h2 : findXmlNamespaceAndPrefix j = some (p, w)) : v = w ∧ i = j := by
  have key : ∀ {i : XmlnsId} {p v : Str}, findXmlNamespaceAndPrefix i = some (p, v) → (i, p, v) ∈ xmlNamespaces := by
    intro i p v h
    unfold findXmlNamespaceAndPrefix at h
    split at h
    · cases h
    · obtain ⟨r, hr, he⟩ := Option.map_eq_some_iff.1 h
      have := of_decide_eq_true (List.find?_some (p := fun e : XmlnsId × Str × Str => decide (e.1 = i)) hr)
      have hm := List.mem_of_find?_eq_some hr
      obtain ⟨r1, r2⟩ := r
      dsimp only at this he
      subst this he
      exact hm
  have h := List.all_eq_true.1 (List.all_eq_true.1 prefixes_once _ (key h1)) _ (key h2)
  rw [Bool.or_eq_true] at h
  rcases h with h | h
  · exact absurd rfl (of_decide_eq_true h)
  · have := of_decide_eq_true h
    simp only [Prod.mk.injEq, true_and] at this
    exact ⟨this.2, this.1⟩

theorem find_ne_xmlns {i : XmlnsId} {v : Str} : findXmlNamespaceAndPrefix i ≠ some (chars! "xmlns", v) := by
  intro h
  unfold findXmlNamespaceAndPrefix at h
  split at h
  · cases h
  · obtain ⟨r, hr, he⟩ := Option.map_eq_some_iff.1 h
    have := of_decide_eq_true (List.all_eq_true.1 prefix_not_xmlns _ (List.mem_of_find?_eq_some hr))
    rw [he] at this
    exact this rfl

theorem collect_get : ∀ (l : List XmlnsId) (m : Attributes) (p : Str),
    (∀ i ∈ l, ∀ v, findXmlNamespaceAndPrefix i = some (p, v) →
      (l.foldl (fun (m : Attributes) id =>
        match findXmlNamespaceAndPrefix id with
        | some (pre, ns) => Attributes.setValue m pre ns
        | none => m) m).get p = some v) ∧
    ((∀ i ∈ l, ∀ v, findXmlNamespaceAndPrefix i ≠ some (p, v)) →
      (l.foldl (fun (m : Attributes) id =>
        match findXmlNamespaceAndPrefix id with
        | some (pre, ns) => Attributes.setValue m pre ns
        | none => m) m).get p = m.get p)
  | [], m, p => ⟨(fun i hi => nomatch hi), fun _ => rfl⟩
  | j :: l, m, p => by
    rw [List.foldl_cons]
    obtain ⟨h1, h2⟩ := collect_get l (match findXmlNamespaceAndPrefix j with
        | some (pre, ns) => Attributes.setValue m pre ns
        | none => m) p
    constructor
    · intro i hi v hv
      by_cases hl : ∃ k ∈ l, ∃ w, findXmlNamespaceAndPrefix k = some (p, w)
      · obtain ⟨k, hk, w, hw⟩ := hl
        rw [h1 k hk w hw, (find_unique hw hv).1]
      · rw [h2 fun k hk w hw => hl ⟨k, hk, w, hw⟩]
        rcases List.mem_cons.1 hi with rfl | hi
        · rw [hv]
          dsimp only
          unfold Attributes.setValue
          rw [StdMap.get_set, if_pos rfl]
        · exact absurd ⟨i, hi, v, hv⟩ hl
    · intro hn
      rw [h2 fun i hi => hn i (List.mem_cons_of_mem _ hi)]
      cases hj : findXmlNamespaceAndPrefix j with
      | none => rfl
      | some r =>
        obtain ⟨q, w⟩ := r
        dsimp only
        unfold Attributes.setValue
        rw [StdMap.get_set, if_neg]
        rintro rfl
        exact hn j (List.mem_cons_self ..) w hj

theorem collect_sorted : ∀ (l : List XmlnsId) (m : Attributes), StdMap.Sorted m → StdMap.Sorted
    (l.foldl (fun (m : Attributes) id =>
        match findXmlNamespaceAndPrefix id with
        | some (pre, ns) => Attributes.setValue m pre ns
        | none => m) m)
  | [], m, h => h
  | j :: l, m, h => by
    rw [List.foldl_cons]
    refine collect_sorted l _ ?_
    split
    · exact StdMap.sorted_set h _ _
    · exact h

theorem xmlnsOf_small (e : Elem) : xmlnsOf e < 20 := by
  cases e with
  | field => exact Nat.succ_pos _
  | node t a slots mis unk =>
    unfold xmlnsOf
    dsimp only
    rcases Option.eq_none_or_eq_some (xmlnsTable.find? fun e => e.1 = t) with h | ⟨r, h⟩
    · rw [h]; exact Nat.succ_pos _
    · rw [h]
      exact of_decide_eq_true (List.all_eq_true.1 ids_small _ (List.mem_of_find?_eq_some h))

theorem mem_found (e : Elem) (i : XmlnsId) : i ∈ (List.range 20).filter (fun id => id ∈ namespacesFound e) ↔
    ∃ y, Found e y ∧ xmlnsOf y = i := by
  rw [List.mem_filter, List.mem_range, decide_eq_true_eq]
  unfold namespacesFound Found getChildElements
  rw [List.mem_cons, List.mem_map]
  simp only [if_true]
  constructor
  · rintro ⟨_, h | ⟨r, hr, h⟩⟩
    · exact ⟨e, .inl rfl, h.symm⟩
    · exact ⟨r.2, .inr ⟨r.1, hr⟩, h⟩
  · rintro ⟨y, h | ⟨p, hp⟩, rfl⟩
    · subst h
      exact ⟨xmlnsOf_small y, .inl rfl⟩
    · exact ⟨xmlnsOf_small y, .inr ⟨(p, y), hp, rfl⟩⟩

/-- The declarations of the root afterwards. -/
theorem insert_xmlns {t : Ty} {a : Attrs} {slots : Mem → List Elem} {mis : List Elem} {unk : List Str}
    (ha : StdMap.Sorted a.xmlns) : ∃ x, StdMap.Sorted x ∧
      findAndInsertXmlNamespaces (.node t a slots mis unk) = .node t { a with xmlns := x } slots mis unk ∧
      (∀ y p v, Found (.node t a slots mis unk) y → findXmlNamespaceAndPrefix (xmlnsOf y) = some (p, v) →
        p ≠ chars! "kml" → x.get p = some v) ∧
      (∀ p, p ≠ chars! "kml" → p ≠ chars! "xmlns" →
        (∀ y v, Found (.node t a slots mis unk) y → findXmlNamespaceAndPrefix (xmlnsOf y) ≠ some (p, v)) →
        x.get p = a.xmlns.get p) ∧
      x.get (chars! "kml") = a.xmlns.get (chars! "kml") ∧
      ((∃ y, Found (.node t a slots mis unk) y ∧ xmlnsOf y = 13) → x.get (chars! "xmlns") = some kmlNamespace) ∧
      ((∀ y, Found (.node t a slots mis unk) y → xmlnsOf y ≠ 13) →
        x.get (chars! "xmlns") = a.xmlns.get (chars! "xmlns")) := by
  have hg := collect_get ((List.range 20).filter fun id => id ∈ namespacesFound (.node t a slots mis unk)) []
  have hs := collect_sorted ((List.range 20).filter fun id => id ∈ namespacesFound (.node t a slots mis unk)) []
    StdMap.sorted_nil
  change ∀ p, (∀ i ∈ _, ∀ v, _ → (findXmlNamespaces (.node t a slots mis unk) []).get p = some v) ∧
    (_ → (findXmlNamespaces (.node t a slots mis unk) []).get p = _) at hg
  change StdMap.Sorted (findXmlNamespaces (.node t a slots mis unk) []) at hs
  revert hg hs
  generalize hF : findXmlNamespaces (.node t a slots mis unk) [] = F
  intro hg hs
  have found : ∀ y p v, Found (.node t a slots mis unk) y → findXmlNamespaceAndPrefix (xmlnsOf y) = some (p, v) →
      F.get p = some v := fun y p v hy hv => (hg p).1 _ ((mem_found _ _).2 ⟨y, hy, rfl⟩) v hv
  have none : ∀ p, (∀ y v, Found (.node t a slots mis unk) y → findXmlNamespaceAndPrefix (xmlnsOf y) ≠ some (p, v)) →
      F.get p = none := by
    intro p h
    refine ((hg p).2 ?_).trans rfl
    intro i hi v hv
    obtain ⟨y, hy, rfl⟩ := (mem_found _ _).1 hi
    exact h y v hy hv
  have hx : F.get (chars! "xmlns") = .none := none _ fun y v _ => find_ne_xmlns
  unfold findAndInsertXmlNamespaces
  rw [hF]
  unfold Attributes.cutValue
  rcases Option.eq_none_or_eq_some (F.get (chars! "kml")) with hk | ⟨ns, hk⟩
  · rw [hk]
    obtain ⟨m1, m2⟩ := Attributes.merge_spec F a.xmlns hs ha
    refine ⟨Attributes.mergeAttributes a.xmlns F, m1, rfl, ?_, ?_, ?_, ?_, ?_⟩
    · intro y p v hy hv _
      rw [m2, found y p v hy hv]; rfl
    · intro p _ _ h
      rw [m2, none p h]; rfl
    · rw [m2, hk]; rfl
    · rintro ⟨y, hy, h13⟩
      have := found y _ _ hy (h13 ▸ find_kml)
      rw [hk] at this
      cases this
    · intro _
      rw [m2, hx]; rfl
  · rw [hk]
    have he : StdMap.Sorted (StdMap.erase F (chars! "kml")) := StdMap.sorted_erase hs _
    obtain ⟨m1, m2⟩ := Attributes.merge_spec (StdMap.set (StdMap.erase F (chars! "kml")) (chars! "xmlns") ns) a.xmlns
      (StdMap.sorted_set he _ _) ha
    have h13 : ∃ y, Found (.node t a slots mis unk) y ∧ xmlnsOf y = 13 := by
      refine Classical.byContradiction fun hne => ?_
      have := none (chars! "kml") fun y v hy hv => hne ⟨y, hy, (find_unique hv find_kml).2⟩
      rw [hk] at this
      cases this
    refine ⟨Attributes.mergeAttributes a.xmlns (StdMap.set (StdMap.erase F (chars! "kml")) (chars! "xmlns") ns), m1,
      rfl, ?_, ?_, ?_, ?_, ?_⟩
    · intro y p v hy hv hp
      rw [m2, StdMap.get_set]
      by_cases hpx : chars! "xmlns" = p
      · subst hpx
        exact absurd hv find_ne_xmlns
      · rw [if_neg hpx, StdMap.get_erase hs, if_neg (Ne.symm hp), found y p v hy hv]; rfl
    · intro p hp hpx h
      rw [m2, StdMap.get_set, if_neg (Ne.symm hpx), StdMap.get_erase hs, if_neg (Ne.symm hp), none p h]; rfl
    · rw [m2, StdMap.get_set, if_neg (by decide), StdMap.get_erase hs, if_pos rfl]; rfl
    · rintro ⟨y, hy, h13⟩
      have := found y _ _ hy (h13 ▸ find_kml)
      rw [hk] at this
      cases this
      rw [m2, StdMap.get_set, if_pos rfl]; rfl
    · intro h
      obtain ⟨y, hy, h13⟩ := h13
      exact absurd h13 (h y hy)

/-! ### The tags that are written -/

theorem value_tag {slots : Mem → List Elem} {w : Write} {cs : List Call} {c : Call} {t : Ty}
    (h : w.valueCalls slots = some cs) (hc : c ∈ cs) (ht : c.tag = some t) : w.ownTag = some t := by
  cases w with
  | field m t' =>
    cases h
    obtain ⟨s, _, rfl⟩ := List.mem_map.1 hc
    exact ht
  | enum m t' =>
    cases h
    obtain ⟨s, _, rfl⟩ := List.mem_map.1 hc
    exact ht
  | color m t' =>
    cases h
    obtain ⟨s, _, rfl⟩ := List.mem_map.1 hc
    exact ht
  | vec3 m t' =>
    cases h
    obtain ⟨s, _, rfl⟩ := List.mem_map.1 hc
    exact ht
  | content m b =>
    simp only [Write.valueCalls, Option.some.injEq] at h
    subst h
    exfalso
    split at hc
    · rw [List.mem_singleton.1 hc] at ht; cases ht
    · obtain ⟨s, _, rfl⟩ := List.mem_map.1 hc
      cases ht
  | points m =>
    cases h
    obtain ⟨s, _, rfl⟩ := List.mem_map.1 hc
    cases ht
  | elem => cases h
  | group => cases h
  | array => cases h
  | groupArray => cases h

theorem value_saves {slots : Mem → List Elem} {w : Write} (h : w.valueCalls slots = none) : w.saves = true := by
  cases w <;> first | rfl | cases h

theorem unknown_tag {unk : List Str} {c : Call} {t : Ty} (hc : c ∈ unknownCalls unk) (ht : c.tag = some t) : False := by
  unfold unknownCalls at hc
  obtain ⟨s, _, hc⟩ := List.mem_flatMap.1 hc
  rcases List.mem_cons.1 hc with rfl | hc
  · cases ht
  · rw [List.mem_singleton.1 hc] at ht; cases ht

/-- A tag without a prefix, or one of the simple gx elements. -/
def Unprefixed (t : Ty) : Prop := prefixOf (Xsd.elementName t) = none ∨ t ∈ lonePrefixed

/-- An element without a prefix writes such tags itself. -/
theorem own_plain {y : Elem} {t : Ty} (h : prefixOf (Xsd.elementName y.ty) = none) (ht : t = y.ty ∨ t ∈ ownTags y) :
    Unprefixed t := by
  rcases ht with rfl | ht
  · exact .inl h
  · cases y with
    | field => cases ht
    | node ty a slots mis unk =>
      have hm : t ∈ (classAt ty).writes.filterMap Write.ownTag := ht
      rcases Option.eq_none_or_eq_some (classOf ty) with hc | ⟨c, hc⟩
      · unfold classAt at hm
        rw [hc] at hm
        cases hm
      · have := List.all_eq_true.1 classes_plain _ (classOf_pair hc)
        have h' : prefixOf (Xsd.elementName ty) = none := h
        rw [h', Option.isSome_none, Bool.false_or] at this
        rw [classAt_eq hc] at hm
        have := List.all_eq_true.1 this _ hm
        rw [Bool.or_eq_true] at this
        rcases this with h1 | h1
        · exact .inr (of_decide_eq_true h1)
        · exact .inl (Option.isNone_iff_eq_none.1 h1)

mutual

/-- Every tag that is written is that of the element or one found below it, or that of a value of one of these, or has no
prefix. -/
theorem tag_calls : (e : Elem) → Everywhere PlainStray e → ∀ c ∈ calls e, ∀ t, c.tag = some t →
    (∃ y, Found e y ∧ (t = y.ty ∨ t ∈ ownTags y)) ∨ Unprefixed t
  | .field t s, _ => by
    intro c hc t' ht
    rw [calls, List.mem_singleton] at hc
    subst hc
    cases ht
    exact .inl ⟨_, .inl rfl, .inl rfl⟩
  | .node t a slots mis unk, hn => by
    have hplain : ∀ x ∈ mis, prefixOf (Xsd.elementName x.ty) = none := by cases hn; assumption
    have hmis : ∀ x ∈ mis, Everywhere PlainStray x := by cases hn; assumption
    have hkids : ∀ m, ∀ x ∈ slots m, Everywhere PlainStray x := by cases hn; assumption
    have body : ∀ c ∈ ((classAt t).writes.flatMap fun w =>
          match w.valueCalls slots with
          | some cs => cs
          | none => (callsEach (slots w.mem)).flatten), ∀ t', c.tag = some t' →
        (∃ y, Found (.node t a slots mis unk) y ∧ (t' = y.ty ∨ t' ∈ ownTags y)) ∨ Unprefixed t' := by
      intro c hc t' ht
      obtain ⟨w, hw, hc⟩ := List.mem_flatMap.1 hc
      rcases Option.eq_none_or_eq_some (w.valueCalls slots) with hv | ⟨cs, hv⟩
      · rw [hv] at hc
        rcases tag_each w.member (slots w.mem) (fun x hx => hkids _ x hx) 0 c hc t' ht with ⟨p, y, hp, hy⟩ | hu
        · refine .inl ⟨y, .inr ⟨p, ?_⟩, hy⟩
          show (p, y) ∈ saved _
          rw [saved, List.mem_append]
          left
          rw [List.mem_flatMap]
          refine ⟨w, hw, ?_⟩
          rw [if_pos (value_saves hv), member_mem]
          rw [member_mem] at hp
          exact hp
        · exact .inr hu
      · rw [hv] at hc
        exact .inl ⟨_, .inl rfl, .inr (List.mem_filterMap.2 ⟨w, hw, value_tag hv hc ht⟩)⟩
    intro c hc t' ht
    rw [calls] at hc
    split at hc
    · rw [List.cons_append, List.mem_cons, List.mem_append] at hc
      rcases hc with rfl | hc | hc
      · cases ht; exact .inl ⟨_, .inl rfl, .inl rfl⟩
      · exact body c hc t' ht
      · rw [List.mem_singleton.1 hc] at ht; cases ht
    · rename_i hco
      simp only [List.cons_append, List.mem_cons, List.mem_append] at hc
      rcases hc with rfl | ((hc | hc) | hc) | hc
      · cases ht; exact .inl ⟨_, .inl rfl, .inl rfl⟩
      · exact body c hc t' ht
      · rcases tag_stray mis hplain hmis 0 c hc t' ht with ⟨p, y, hp, hy⟩ | hu
        · refine .inl ⟨y, .inr ⟨p, ?_⟩, hy⟩
          show (p, y) ∈ saved _
          rw [saved, List.mem_append, if_neg hco]
          exact .inr hp
        · exact .inr hu
      · exact (unknown_tag hc ht).elim
      · rcases hc with rfl | hc
        · cases ht
        · cases hc

theorem tag_each (m : Mem) : (xs : List Elem) → (∀ x ∈ xs, Everywhere PlainStray x) → ∀ (i : Nat),
    ∀ c ∈ (callsEach xs).flatten, ∀ t, c.tag = some t →
    (∃ p y, (p, y) ∈ savedEach m i xs ∧ (t = y.ty ∨ t ∈ ownTags y)) ∨ Unprefixed t
  | [], _ => by
    intro i c hc
    cases hc
  | x :: xs, hn => by
    intro i c hc t ht
    rw [callsEach, List.flatten_cons, List.mem_append] at hc
    rcases hc with hc | hc
    · rcases tag_calls x (hn x (List.mem_cons_self ..)) c hc t ht with ⟨y, hy, hty⟩ | hu
      · rw [savedEach]
        rcases hy with rfl | ⟨p, hp⟩
        · exact .inl ⟨_, y, List.mem_cons_self .., hty⟩
        · refine .inl ⟨.slot m i :: p, y, ?_, hty⟩
          refine List.mem_cons_of_mem _ (List.mem_append_left _ ?_)
          exact List.mem_map.2 ⟨(p, y), hp, rfl⟩
      · exact .inr hu
    · rcases tag_each m xs (fun y hy => hn y (List.mem_cons_of_mem _ hy)) (i + 1) c hc t ht with ⟨p, y, hp, hty⟩ | hu
      · rw [savedEach]
        exact .inl ⟨p, y, List.mem_cons_of_mem _ (List.mem_append_right _ hp), hty⟩
      · exact .inr hu

theorem tag_stray : (xs : List Elem) → (∀ x ∈ xs, prefixOf (Xsd.elementName x.ty) = none) →
    (∀ x ∈ xs, Everywhere PlainStray x) → ∀ (i : Nat), ∀ c ∈ (callsEach xs).flatten, ∀ t, c.tag = some t →
    (∃ p y, (p, y) ∈ savedStray i xs ∧ (t = y.ty ∨ t ∈ ownTags y)) ∨ Unprefixed t
  | [], _, _ => by
    intro i c hc
    cases hc
  | x :: xs, hp, hn => by
    intro i c hc t ht
    rw [callsEach, List.flatten_cons, List.mem_append] at hc
    rcases hc with hc | hc
    · rcases tag_calls x (hn x (List.mem_cons_self ..)) c hc t ht with ⟨y, hy, hty⟩ | hu
      · rw [savedStray]
        rcases hy with rfl | ⟨p, hp⟩
        · exact .inr (own_plain (hp y (List.mem_cons_self ..)) hty)
        · refine .inl ⟨.mis i :: p, y, ?_, hty⟩
          exact List.mem_append_left _ (List.mem_map.2 ⟨(p, y), hp, rfl⟩)
      · exact .inr hu
    · rcases tag_stray xs (fun y hy => hp y (List.mem_cons_of_mem _ hy)) (fun y hy => hn y (List.mem_cons_of_mem _ hy)) (i + 1) c
        hc t ht with ⟨p, y, hp, hty⟩ | hu
      · rw [savedStray]
        exact .inl ⟨p, y, List.mem_append_right _ hp, hty⟩
      · exact .inr hu

end

end Kml.Dom
