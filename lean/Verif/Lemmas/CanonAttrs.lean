import Verif.Spec.Canonical
import Verif.Lemmas.AttrRound

/-! The attributes of a canonical element are read back as they are. -/

namespace Kml.Dom

open Kml
open Kml.Attributes (Attributes)

theorem reads_names : (classes.all fun p => p.2.reads.all fun r =>
    match r.1 with
    | c :: s => nameStart c && s.all nameChar
    | [] => false) = true := by decide +kernel

theorem schema_parent : (chars! "parent") ∉ (classAt Ty.«Schema»).reads.map (·.1) := by decide +kernel

attribute [local irreducible] kml22Elements Xsd.tagToId classes inc dec uintSize

theorem xmlnsKey_self : xmlnsKey (chars! "xmlns") = chars! "xmlns" := rfl

theorem xmlnsKey_ne {r : Str} (h : r ≠ chars! "xmlns") : xmlnsKey r = chars! "xmlns:" ++ r := if_neg h

theorem xmlnsKey_form (r : Str) : xmlnsKey r = chars! "xmlns" ∨ ∃ s, xmlnsKey r = chars! "xmlns:" ++ s := by
  by_cases h : r = chars! "xmlns"
  · left; rw [h]; rfl
  · right; exact ⟨r, xmlnsKey_ne h⟩

theorem xmlnsKey_not_double (r : Str) : chars! "xmlns:xmlns" ≠ xmlnsKey r := by
  intro hr
  unfold xmlnsKey at hr
  split at hr
  · rename_i hr'
    rw [hr'] at hr
    exact absurd hr (by decide)
  · rename_i hr'
    have e : (chars! "xmlns:xmlns") = chars! "xmlns:" ++ chars! "xmlns" := rfl
    rw [e] at hr
    exact hr' (List.append_cancel_left hr).symm

theorem nodup_map_inj {α β : Type} {f : α → β} : ∀ {l : List α} {a b : α}, (l.map f).Nodup → a ∈ l → b ∈ l →
    f a = f b → a = b
  | [], _, _, _, h, _, _ => by cases h
  | x :: l, a, b, hn, ha, hb, he => by
    simp only [List.map_cons, List.nodup_cons] at hn
    rcases List.mem_cons.1 ha with ha' | ha' <;> rcases List.mem_cons.1 hb with hb' | hb'
    · rw [ha', hb']
    · subst ha'
      exact absurd (List.mem_map.2 ⟨b, hb', he.symm⟩) hn.1
    · subst hb'
      exact absurd (List.mem_map.2 ⟨a, ha', he⟩) hn.1
    · exact nodup_map_inj hn.2 ha' hb' he

section
variable {n : NumLib} {t : Ty} {c : Class} {a : Attrs}

theorem read_key_plain (hc : classOf t = some c) {k : Str} (hk : k ∈ c.reads.map (·.1)) :
    XmlName k ∧ ∀ r, k ≠ xmlnsKey r := by
  obtain ⟨e, he, rfl⟩ := List.mem_map.1 hk
  have h1 := List.all_eq_true.1 (List.all_eq_true.1 reads_names _ (classOf_pair hc)) _ he
  have h2 := List.all_eq_true.1 (List.all_eq_true.1 reads_no_xmlns _ (classOf_pair hc)) _ he
  refine ⟨?_, ?_⟩
  · cases hx : e.1 with
    | nil => rw [hx] at h1; cases h1
    | cons ch s =>
      rw [hx, Bool.and_eq_true] at h1
      exact ⟨ch, s, rfl, h1.1, h1.2⟩
  · intro r hr
    rw [hr, Bool.not_eq_true'] at h2
    rcases xmlnsKey_form r with hx | ⟨s, hx⟩
    · rw [hx] at h2; exact absurd h2 (by decide)
    · rw [hx] at h2
      have : (chars! "xmlns").isPrefixOf (chars! "xmlns:" ++ s) = true := by
        rw [List.isPrefixOf_iff_prefix]
        exact ⟨':' :: s, rfl⟩
      rw [this] at h2
      cases h2

theorem Attrs.Canonical.held (h : a.Canonical n c) : a.Held n c :=
  ⟨h.known_sorted, h.unknown_sorted, h.xmlns_sorted, fun e he => (h.known e he).2,
    fun e he => ⟨(h.unknown e he).2.2.1, (h.unknown e he).2.2.2⟩⟩

theorem unknown_none (h : a.Held n c) {k : Str} (hk : k ∈ c.reads.map (·.1) ∨ ∃ r, k = xmlnsKey r) :
    a.unknown.get k = none := by
  cases hg : a.unknown.get k with
  | none => rfl
  | some v =>
    have hu := h.unknown _ (StdMap.mem_of_get hg)
    rcases hk with hk | ⟨r, rfl⟩
    · exact absurd hk hu.1
    · rcases xmlnsKey_form r with hx | ⟨s, hx⟩
      · exact absurd hx hu.2.1
      · exact absurd hx (hu.2.2 s)

theorem unknown_double (h : a.Held n c) : a.unknown.get (chars! "xmlns:xmlns") = none := by
  cases hg : a.unknown.get (chars! "xmlns:xmlns") with
  | none => rfl
  | some v => exact absurd rfl ((h.unknown _ (StdMap.mem_of_get hg)).2.2 (chars! "xmlns"))

/-- The attributes written for a canonical element. -/
theorem canon_get (hc : classOf t = some c) (h : a.Held n c) :
    (∀ k ∈ c.reads.map (·.1), (serializeAttributes c a).get k = a.known.get k) ∧
    (∀ k, k ∉ c.reads.map (·.1) → (serializeAttributes c a).get k = (serializeBase a).get k) := by
  obtain ⟨g1, g2⟩ := serializeBase_get h.unknown_sorted h.xmlns_sorted
  have hr := List.all_eq_true.1 classes_reads _ (classOf_pair hc)
  simp only [Bool.and_eq_true, decide_eq_true_eq, List.all_eq_true] at hr
  constructor
  · intro k hk
    have hb : (serializeBase a).get k = none := by
      rw [g2 k (read_key_plain hc hk).2]
      exact unknown_none h (.inl hk)
    have hs : k ∈ c.sets := by
      obtain ⟨e, he, rfl⟩ := List.mem_map.1 hk
      have := hr.2 e he
      simpa using this
    rw [serializeAttributes_get c h.unknown_sorted k, if_pos hs, hb]
    simp
  · intro k hk
    have hkn : a.known.get k = none := by
      cases hg : a.known.get k with
      | none => rfl
      | some v =>
        obtain ⟨kind, hm, _⟩ := h.known _ (StdMap.mem_of_get hg)
        exact absurd (List.mem_map_of_mem (f := (·.1)) hm) hk
    rw [serializeAttributes_get c h.unknown_sorted k, hkn]
    split <;> simp

/-- Writing canonical attributes and reading them again gives the same. -/
theorem attrs_round (hc : classOf t = some c) (h : a.Held n c) :
    parseAttributes n c (serializeAttributes c a) = a := by
  obtain ⟨s1, s2⟩ := canon_get hc h
  obtain ⟨g1, g2⟩ := serializeBase_get h.unknown_sorted h.xmlns_sorted
  have hs := serializeAttributes_sorted c h.unknown_sorted
  have hr := List.all_eq_true.1 classes_reads _ (classOf_pair hc)
  simp only [Bool.and_eq_true, decide_eq_true_eq, List.all_eq_true] at hr
  obtain ⟨c1, c2, c3, c4⟩ := cutKnown_spec n c.reads [] _ StdMap.sorted_nil hs hr.1
  obtain ⟨u1, u2, u3, u4, u5, u6, u7⟩ := addUnknown_spec c2
  have hrest : ∀ k, (∃ r, k = xmlnsKey r) ∨ k = chars! "xmlns:xmlns" →
      (cutKnown n c.reads [] (serializeAttributes c a)).2.get k = (serializeBase a).get k := by
    intro k hk
    have hn : k ∉ c.reads.map (·.1) := by
      intro hx
      rcases hk with ⟨r, hk⟩ | hk
      · exact (read_key_plain hc hx).2 r hk
      · have h2 := List.mem_map.1 hx
        obtain ⟨e, he, hek⟩ := h2
        have h3 := List.all_eq_true.1 (List.all_eq_true.1 reads_no_xmlns _ (classOf_pair hc)) _ he
        rw [hek, hk] at h3
        exact absurd h3 (by decide)
    rw [c4, if_neg hn, s2 k hn]
  have e1 : (cutKnown n c.reads [] (serializeAttributes c a)).1 = a.known := by
    refine StdMap.ext c1 h.known_sorted (fun k => ?_)
    by_cases hk : k ∈ c.reads.map (·.1)
    · obtain ⟨⟨k', kind⟩, he, rfl⟩ := List.mem_map.1 hk
      rw [c3 _ _ he, s1 _ hk]
      simp only
      cases hg : a.known.get k' with
      | none => rfl
      | some v =>
        obtain ⟨kind', hm, hv⟩ := h.known _ (StdMap.mem_of_get hg)
        have : kind' = kind := by
          have hinj := nodup_map_inj hr.1 hm he rfl
          simp only [Prod.mk.injEq, true_and] at hinj
          exact hinj
        subst this
        simp only [Option.bind_some]
        rw [hv]
        rfl
    · rw [cutKnown_other hk]
      cases hg : a.known.get k with
      | none => rfl
      | some v =>
        obtain ⟨kind, hm, _⟩ := h.known _ (StdMap.mem_of_get hg)
        exact absurd (List.mem_map_of_mem (f := (·.1)) hm) hk
  have e2 : (addUnknownAttributes (cutKnown n c.reads [] (serializeAttributes c a)).2).1 = a.unknown := by
    refine StdMap.ext u1 h.unknown_sorted (fun k => ?_)
    rcases xmlnsKey_cases k with ⟨r, hx⟩ | hx | ⟨hx, hy⟩
    · rw [unknown_none h (.inr ⟨r, hx⟩), hx]
      rcases xmlnsKey_form r with hf | ⟨s, hf⟩
      · rw [hf, u4]
      · rw [hf]; exact u5 s
    · rw [hx, unknown_double h]
      exact u5 (chars! "xmlns")
    · rw [u3 k hx hy]
      by_cases hk : k ∈ c.reads.map (·.1)
      · rw [c4, if_pos hk, unknown_none h (.inl hk)]
      · rw [c4, if_neg hk, s2 k hk, g2]
        intro r hr
        rcases xmlnsKey_form r with hf | ⟨s, hf⟩
        · exact hx (hr.trans hf)
        · exact hy s (hr.trans hf)
  have e3 : (addUnknownAttributes (cutKnown n c.reads [] (serializeAttributes c a)).2).2 = a.xmlns := by
    refine StdMap.ext u2 h.xmlns_sorted (fun r => ?_)
    by_cases hrx : r = chars! "xmlns"
    · subst hrx
      rw [u7, hrest _ (.inl ⟨_, xmlnsKey_self.symm⟩), hrest _ (.inr rfl), g2 _ xmlnsKey_not_double, unknown_double h]
      have := g1 (chars! "xmlns")
      rw [xmlnsKey_self] at this
      rw [this, unknown_none h (.inr ⟨_, xmlnsKey_self.symm⟩)]
      simp
    · rw [u6 r hrx, ← xmlnsKey_ne hrx, hrest _ (.inl ⟨r, rfl⟩), g1 r, unknown_none h (.inr ⟨r, rfl⟩)]
      simp
  unfold parseAttributes
  simp only [e1, e2, e3]

/-- Canonical attributes can be written as they are. -/
theorem attrs_plain (hc : classOf t = some c) (h : a.Canonical n c) : PlainAttrs (serializeAttributes c a) := by
  obtain ⟨s1, s2⟩ := canon_get hc h.held
  obtain ⟨g1, g2⟩ := serializeBase_get h.unknown_sorted h.xmlns_sorted
  have hs := serializeAttributes_sorted c h.unknown_sorted
  refine ⟨StdMap.nodup_keys hs, ?_⟩
  rintro ⟨k, v⟩ he
  have hg := StdMap.get_of_mem hs he
  by_cases hk : k ∈ c.reads.map (·.1)
  · rw [s1 k hk] at hg
    exact ⟨(read_key_plain hc hk).1, (h.known _ (StdMap.mem_of_get hg)).1⟩
  · rw [s2 k hk] at hg
    by_cases hx : ∃ r, k = xmlnsKey r
    · obtain ⟨r, rfl⟩ := hx
      rw [g1 r, unknown_none h.held (.inr ⟨r, rfl⟩)] at hg
      simp only [Option.or_none] at hg
      have := h.xmlns _ (StdMap.mem_of_get hg)
      refine ⟨?_, this.1⟩
      by_cases hr : r = chars! "xmlns"
      · rw [hr]
        exact ⟨'x', chars! "mlns", rfl, by decide, by decide⟩
      · rw [xmlnsKey_ne hr]
        exact this.2 hr
    · rw [g2 k (fun r hr => hx ⟨r, hr⟩)] at hg
      have := h.unknown _ (StdMap.mem_of_get hg)
      exact ⟨this.2.1, this.1⟩

theorem attrMap_sorted : ∀ (m acc : Attributes), StdMap.Sorted (acc ++ m) →
    m.foldl (fun (m : Attributes) e => m.set e.1 e.2) acc = acc ++ m
  | [], acc, _ => by simp
  | e :: m, acc, h => by
    rw [List.foldl_cons]
    have h1 : acc.set e.1 e.2 = acc ++ [e] := by
      have hs : StdMap.Sorted (acc ++ [e]) := by
        unfold StdMap.Sorted at h ⊢
        rw [show acc ++ e :: m = (acc ++ [e]) ++ m by simp] at h
        exact (List.pairwise_append.1 h).1
      have ha : StdMap.Sorted acc := (List.pairwise_append.1 hs).1
      refine StdMap.ext (StdMap.sorted_set ha ..) hs (fun k => ?_)
      rw [StdMap.get_set]
      by_cases hk : e.1 = k
      · rw [if_pos hk, ← hk]
        exact (StdMap.get_of_mem hs (by simp)).symm
      · rw [if_neg hk]
        rcases Option.eq_none_or_eq_some (StdMap.get acc k) with hg | ⟨v, hg⟩
        · rw [hg]
          rcases Option.eq_none_or_eq_some (StdMap.get (acc ++ [e]) k) with hg' | ⟨v', hg'⟩
          · exact hg'.symm
          · have := StdMap.mem_of_get hg'
            rcases List.mem_append.1 this with hm | hm
            · rw [StdMap.get_of_mem ha hm] at hg; cases hg
            · simp only [List.mem_singleton] at hm
              exact absurd (by rw [← hm]) hk
        · rw [hg]
          exact (StdMap.get_of_mem hs (List.mem_append_left _ (StdMap.mem_of_get hg))).symm
    rw [h1, attrMap_sorted m _ (by simpa using h)]
    simp

/-- The attributes of a start tag written for a canonical element are read back. -/
theorem attrs_read (hc : classOf t = some c) (h : a.Canonical n c) :
    (if serializeAttributes c a = [] then Attrs.empty
      else parseAttributes n c (attrMap (serializeAttributes c a))) = a := by
  have hm : attrMap (serializeAttributes c a) = serializeAttributes c a :=
    attrMap_sorted _ [] (serializeAttributes_sorted c h.unknown_sorted)
  split
  · rename_i h0
    have h1 := attrs_round hc h.held
    rw [h0] at h1
    rw [← h1]
    have hr := List.all_eq_true.1 classes_reads _ (classOf_pair hc)
    simp only [Bool.and_eq_true, decide_eq_true_eq, List.all_eq_true] at hr
    obtain ⟨c1, c2, c3, c4⟩ := cutKnown_spec n c.reads [] [] StdMap.sorted_nil StdMap.sorted_nil hr.1
    have z1 : (cutKnown n c.reads [] []).1 = [] := StdMap.ext c1 StdMap.sorted_nil (fun k => by
      by_cases hk : k ∈ c.reads.map (·.1)
      · obtain ⟨⟨k', kind⟩, he, rfl⟩ := List.mem_map.1 hk
        rw [c3 _ _ he]; rfl
      · rw [cutKnown_other hk])
    have z2 : (cutKnown n c.reads [] []).2 = [] := StdMap.ext c2 StdMap.sorted_nil (fun k => by
      rw [c4]; split <;> rfl)
    unfold parseAttributes
    simp only [z1, z2]
    rfl
  · rw [hm]
    exact attrs_round hc h.held

/-- The start tag is not that of an old-style schema. -/
theorem attrs_not_old (hc : classOf t = some c) (h : a.Canonical n c)
    (hp : t = Ty.«Schema» → a.unknown.get (chars! "parent") = none) (hname : Xsd.elementName t = chars! "Schema" → t = Ty.«Schema») :
    NotOldSchema (Xsd.elementName t) (serializeAttributes c a) := by
  intro h1 h2 _
  have ht := hname h1
  subst ht
  obtain ⟨s1, s2⟩ := canon_get hc h.held
  obtain ⟨g1, g2⟩ := serializeBase_get h.unknown_sorted h.xmlns_sorted
  obtain ⟨⟨k, v⟩, he, hk⟩ := List.mem_map.1 h2
  simp only at hk
  have hg := StdMap.get_of_mem (serializeAttributes_sorted c h.unknown_sorted) he
  have hcc := classAt_eq hc
  rw [hk, s2 _ (by rw [← hcc]; exact schema_parent), g2, hp rfl] at hg
  · cases hg
  · intro r hr
    rcases xmlnsKey_form r with hf | ⟨s, hf⟩
    · rw [hf] at hr; exact absurd hr (by decide)
    · rw [hf] at hr
      have := congrArg List.head? hr
      simp at this

end

end Kml.Dom
