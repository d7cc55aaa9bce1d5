import Verif.Lemmas.Held
import Verif.Lemmas.File
import Verif.Props.Xsd
import Verif.Spec.Faithful

/-! What the parser makes of a document that comes through is canonical. -/

set_option linter.unusedVariables false

namespace Kml.Dom

open Kml
open Kml.Attributes (Attributes)

/-- A character that needs no care in a text or a value. -/
def easyChar (c : Char) : Bool :=
  legalChar c && c ≠ '<' && c ≠ ']' && c ≠ '"' && c ≠ '&' && c ≠ '\t' && c ≠ '\n'

theorem locality_rules : ((classAt Ty.«XalLocality»).rules.all fun r =>
    r.2.mem ≠ M.«localityname» || r.1 == .ty Ty.«xalLocalityName») = true := by decide +kernel

theorem enum_easy : ∀ r ∈ kml22Enums, ∀ v ∈ r.2, v.all easyChar = true := by decide +kernel

theorem faithful_rows :
    kml22Elements[Ty.«Schema»]? = some (chars! "Schema", .complex) ∧
    kml22Elements[Ty.«XalLocality»]? = some (chars! "xal:Locality", .complex) ∧
    kml22Elements[Ty.«xalLocalityName»]? = some (chars! "xal:LocalityName", .simple) ∧
    kml22Elements[Ty.«IconStyleIcon»]? = some (chars! "IconStyleIcon", .complex) ∧
    kml22Elements[Ty.«Snippet»]? = some (chars! "Snippet", .complex) ∧
    kml22Elements[Ty.«linkSnippet»]? = some (chars! "linkSnippet", .complex) ∧
    kml22Elements[Ty.«SimpleData»]? = some (chars! "SimpleData", .complex) := by decide +kernel

theorem hex_easy : ∀ k < 16, easyChar ("0123456789abcdef".toList.getD k '?') = true := by decide

attribute [local irreducible] kml22Elements Xsd.tagToId classes inc dec uintSize

/-! ### Values -/

theorem easy_clean {s : Str} (h : ∀ c ∈ s, easyChar c = true) : Clean s := by
  refine ⟨fun c hc => ?_, fun hx => ?_, fun hx => ?_⟩
  · have := h c hc
    simp only [easyChar, Bool.and_eq_true] at this
    exact this.1.1.1.1.1.1
  · have := h '<' (hx.subset (by simp))
    revert this
    decide
  · have := h ']' (hx.subset (by simp))
    revert this
    decide

theorem easy_plain {s : Str} (h : ∀ c ∈ s, easyChar c = true) : PlainAttr s := by
  intro c hc
  have := h c hc
  simp only [easyChar, Bool.and_eq_true, decide_eq_true_eq] at this
  obtain ⟨⟨⟨⟨⟨⟨h1, h2⟩, h3⟩, h4⟩, h5⟩, h6⟩, h7⟩ := this
  exact ⟨h1, h4, h2, h5, h6, h7⟩

theorem digit_easy {c : Char} (hd : isDigit c = true) : easyChar c = true := by
  simp only [isDigit, Bool.and_eq_true, decide_eq_true_eq] at hd
  simp only [easyChar, Bool.and_eq_true, decide_eq_true_eq]
  refine ⟨⟨⟨⟨⟨⟨?_, ?_⟩, ?_⟩, ?_⟩, ?_⟩, ?_⟩, ?_⟩
  · simp only [legalChar, Bool.or_eq_true, Bool.and_eq_true, decide_eq_true_eq]
    right
    refine ⟨⟨by omega, ?_⟩, ?_⟩
    · simp only [ne_eq]; omega
    · simp only [ne_eq]; omega
  all_goals rintro rfl; revert hd; decide

theorem num_easy {s : Str} (h : IsNumText s) : ∀ c ∈ s, easyChar c = true := by
  intro c hc
  rcases h.2.1 c hc with hd | rfl | rfl | rfl | rfl
  · exact digit_easy hd
  all_goals decide

theorem enum_value_easy {t : Ty} {s : Str} (h : (Xsd.enumId t s).isSome = true) : ∀ c ∈ s, easyChar c = true := by
  by_cases hx : ∀ r ∈ kml22Enums, r.1 = t → s ∉ r.2
  · rw [Xsd.C21_enum_unknown t s hx] at h
    cases h
  · simp only [not_forall] at hx
    obtain ⟨r, hr, _, hs⟩ := hx
    have := enum_easy r hr s (Classical.not_not.1 hs)
    exact List.all_eq_true.1 this

theorem joinBlank_easy : ∀ {ps : List Str}, (∀ p ∈ ps, ∀ c ∈ p, easyChar c = true) → ∀ c ∈ joinBlank ps, easyChar c = true
  | [], _, c, hc => by cases hc
  | [p], h, c, hc => h p (by simp) c hc
  | p :: q :: ps, h, c, hc => by
    simp only [joinBlank, List.mem_append, List.mem_cons] at hc
    rcases hc with hc | rfl | hc
    · exact h p (by simp) c hc
    · decide
    · exact joinBlank_easy (fun x hx => h x (List.mem_cons_of_mem _ hx)) c hc

theorem color_easy {s v : Str} (h : readColor s = .ok v) : ∀ c ∈ v, easyChar c = true := by
  unfold readColor at h
  cases hc : Color32.setFromString 0 s with
  | ok k =>
    rw [hc] at h
    simp only [Outcome.ok_bind, Outcome.ok.injEq] at h
    subst h
    rw [Color32.C01_text_is_hex]
    intro c hc
    simp only [Color32.specText, List.mem_cons, List.not_mem_nil, or_false] at hc
    rcases hc with rfl | rfl | rfl | rfl | rfl | rfl | rfl | rfl <;> exact hex_easy _ (Nat.mod_lt _ (by decide))
  | throws => rw [hc] at h; cases h
  | ub => rw [hc] at h; cases h

theorem triple_easy {n : NumLib} {s v : Str} (h : readTriple n s = .ok v) : ∀ c ∈ v, easyChar c = true := by
  unfold readTriple at h
  simp only at h
  split at h
  · cases h
  · simp only [Outcome.ok.injEq] at h
    subst h
    refine joinBlank_easy fun p hp => ?_
    rcases List.mem_append.1 (List.mem_of_mem_take hp) with hp | hp
    · obtain ⟨q, _, rfl⟩ := List.mem_map.1 hp
      exact num_easy (n.num_text q)
    · simp only [List.mem_cons, List.not_mem_nil, or_false, or_self] at hp
      subst hp
      decide

/-- The value of a member that is set from a clean text is clean. -/
theorem readValue_clean {n : NumLib} {k : Kind} {t : Ty} {old : Option Str} {text v : Str} (hk : k.plain = true)
    (hold : ∀ o, old = some o → Clean o) (ht : Clean text) (h : readValue n k t old text = .ok (some v)) : Clean v := by
  cases k with
  | str => simp only [readValue, Outcome.ok.injEq, Option.some.injEq] at h; subst h; exact ht
  | bool =>
    simp only [readValue, Outcome.ok.injEq, Option.some.injEq] at h
    rw [← h]
    refine easy_clean ?_
    cases StringUtil.boolFromString text <;> decide
  | enum =>
    simp only [readValue, Outcome.ok.injEq] at h
    split at h
    · cases h; exact ht
    · cases h
  | color =>
    simp only [readValue] at h
    cases hc : readColor text with
    | ok c =>
      rw [hc] at h
      simp only [Outcome.ok_bind, Outcome.ok.injEq, Option.some.injEq] at h
      subst h
      exact easy_clean (color_easy hc)
    | throws => rw [hc] at h; cases h
    | ub => rw [hc] at h; cases h
  | cdata =>
    simp only [readValue, Outcome.ok.injEq, Option.some.injEq] at h
    subst h
    unfold insideCdata
    rw [if_neg]
    · exact ht
    · intro hx
      exact ht.2.1 (List.isPrefixOf_iff_prefix.1 hx).isInfix
  | states =>
    simp only [readValue, Outcome.ok.injEq, Option.some.injEq] at h
    subst h
    refine easy_clean (joinBlank_easy fun p hp => ?_)
    exact enum_value_easy (List.mem_filter.1 hp).2
  | vec3 =>
    simp only [readValue] at h
    cases hc : readTriple n text with
    | ok c =>
      rw [hc] at h
      simp only [Outcome.ok_bind, Outcome.ok.injEq, Option.some.injEq] at h
      subst h
      exact easy_clean (triple_easy hc)
    | throws => rw [hc] at h; cases h
    | ub => rw [hc] at h; cases h
  | dbl d =>
    simp only [readValue, Outcome.ok.injEq, Option.some.injEq] at h
    subst h
    unfold readDouble
    split
    · cases old with
      | none =>
        show Clean d
        rw [← n.num_small d (of_decide_eq_true hk)]
        exact easy_clean (num_easy (n.num_text _))
      | some o => exact hold o rfl
    · exact easy_clean (num_easy (n.num_text _))
  | int d =>
    simp only [readValue, Outcome.ok.injEq, Option.some.injEq] at h
    subst h
    unfold readInt
    split
    · exact easy_clean (by decide)
    · split
      · cases old with
        | none =>
          show Clean d
          rw [← n.int_small d (of_decide_eq_true hk)]
          exact easy_clean (num_easy (n.int_text _))
        | some o => exact hold o rfl
      · exact easy_clean (num_easy (n.int_text _))

theorem readAttr_plain {n : NumLib} {k : AttrKind} {text v : Str} (hk : k.plain = true) (ht : PlainAttr text)
    (h : readAttr n k text = some v) : PlainAttr v := by
  cases k with
  | str => simp only [readAttr, Option.some.injEq] at h; subst h; exact ht
  | units =>
    simp only [readAttr] at h
    split at h
    · cases h; exact ht
    · cases h
  | dbl d =>
    simp only [readAttr, Option.some.injEq] at h
    subst h
    unfold readDouble
    split
    · rw [← n.num_small d (of_decide_eq_true hk)]
      exact easy_plain (num_easy (n.num_text _))
    · exact easy_plain (num_easy (n.num_text _))
  | int d =>
    simp only [readAttr, Option.some.injEq] at h
    subst h
    unfold readInt
    split
    · exact easy_plain (by decide)
    · split
      · rw [← n.int_small d (of_decide_eq_true hk)]
        exact easy_plain (num_easy (n.int_text _))
      · exact easy_plain (num_easy (n.int_text _))

theorem clean_quotable {s : Str} (h : Clean s) : Quotable s :=
  ⟨h.1, fun _ => h.2.2, fun hx => absurd hx h.2.1⟩

/-! ### Attributes -/

theorem attrMap_mem {attrs : List (Str × Str)} {k v : Str} (h : (attrMap attrs).get k = some v) : (k, v) ∈ attrs := by
  rw [attrMap_get] at h
  unfold attrValue at h
  obtain ⟨e, he, rfl⟩ := Option.map_eq_some_iff.1 h
  have := List.mem_filter.1 (List.mem_of_getLast? he)
  have hk := of_decide_eq_true this.2
  subst hk
  exact this.1

/-- The attributes of an element as its tag has them. -/
theorem parseAttributes_canonical {n : NumLib} {t : Ty} {c : Class} (hc : classOf t = some c) {attrs : List (Str × Str)}
    (hv : ∀ e ∈ attrs, XmlName e.1 ∧ PlainAttr e.2) : (parseAttributes n c (attrMap attrs)).Canonical n c := by
  have held := parseAttributes_held (n := n) hc (attrMap_is_sorted attrs)
  have hr := List.all_eq_true.1 classes_reads _ (classOf_pair hc)
  simp only [Bool.and_eq_true, decide_eq_true_eq, List.all_eq_true] at hr
  have hd := List.all_eq_true.1 classes_defaults _ (classOf_pair hc)
  simp only [Bool.and_eq_true, List.all_eq_true] at hd
  obtain ⟨c1, c2, c3, c4⟩ := cutKnown_spec n c.reads [] _ StdMap.sorted_nil (attrMap_is_sorted attrs) hr.1
  obtain ⟨u1, u2, u3, u4, u5, u6, u7⟩ := addUnknown_spec c2
  have left : ∀ k v, (cutKnown n c.reads [] (attrMap attrs)).2.get k = some v → (k, v) ∈ attrs := by
    intro k v h
    rw [c4] at h
    split at h
    · cases h
    · exact attrMap_mem h
  refine ⟨held.known_sorted, held.unknown_sorted, held.xmlns_sorted, ?_, ?_, ?_⟩
  · rintro ⟨k, v⟩ he
    refine ⟨?_, held.known _ he⟩
    have hg : (cutKnown n c.reads [] (attrMap attrs)).1.get k = some v := StdMap.get_of_mem c1 he
    obtain ⟨kind, hx, _⟩ := held.known _ he
    rw [c3 _ _ hx] at hg
    simp only at hg ⊢
    cases ht : StdMap.get (attrMap attrs) k with
    | none => rw [ht] at hg; cases hg
    | some text =>
      rw [ht] at hg
      cases hw : readAttr n kind text with
      | none => simp [hw, StdMap.get] at hg
      | some w =>
        simp [hw] at hg
        subst hg
        exact readAttr_plain (hd.2 _ hx) (hv _ (attrMap_mem ht)).2 hw
  · rintro ⟨k, v⟩ he
    obtain ⟨h1, h2, h3⟩ := held.unknown _ he
    have hg : (addUnknownAttributes _).1.get k = some v := StdMap.get_of_mem u1 he
    rw [u3 k h2 h3] at hg
    have := hv _ (left _ _ hg)
    exact ⟨this.2, this.1, h1, h2, h3⟩
  · rintro ⟨k, v⟩ he
    have hg : (addUnknownAttributes _).2.get k = some v := StdMap.get_of_mem u2 he
    by_cases hk : k = chars! "xmlns"
    · subst hk
      rw [u7] at hg
      refine ⟨?_, fun h => absurd rfl h⟩
      rcases Option.or_eq_some_iff.1 hg with hg | ⟨_, hg⟩
      · exact (hv _ (left _ _ hg)).2
      · exact (hv _ (left _ _ hg)).2
    · rw [u6 k hk] at hg
      have := hv _ (left _ _ hg)
      exact ⟨this.2, fun _ => this.1⟩

theorem parseAttributes_unknown {n : NumLib} {t : Ty} {c : Class} (hc : classOf t = some c) {attrs : List (Str × Str)} {k : Str}
    (hk : k ∉ attrs.map (·.1)) : (parseAttributes n c (attrMap attrs)).unknown.get k = none := by
  have held := parseAttributes_held (n := n) hc (attrMap_is_sorted attrs)
  have hr := List.all_eq_true.1 classes_reads _ (classOf_pair hc)
  simp only [Bool.and_eq_true, decide_eq_true_eq, List.all_eq_true] at hr
  obtain ⟨c1, c2, c3, c4⟩ := cutKnown_spec n c.reads [] _ StdMap.sorted_nil (attrMap_is_sorted attrs) hr.1
  obtain ⟨u1, u2, u3, u4, u5, u6, u7⟩ := addUnknown_spec c2
  rcases Option.eq_none_or_eq_some ((parseAttributes n c (attrMap attrs)).unknown.get k) with h | ⟨v, h⟩
  · exact h
  · exfalso
    obtain ⟨h1, h2, h3⟩ := held.unknown _ (StdMap.mem_of_get h)
    change StdMap.get (addUnknownAttributes _).1 k = _ at h
    rw [u3 k h2 h3, c4] at h
    split at h
    · cases h
    · exact hk (List.mem_map.2 ⟨_, attrMap_mem h, rfl⟩)

theorem empty_canonical (n : NumLib) (c : Class) : Attrs.Canonical n c .empty where
  known_sorted := StdMap.sorted_nil
  unknown_sorted := StdMap.sorted_nil
  xmlns_sorted := StdMap.sorted_nil
  known := by intro e he; cases he
  unknown := by intro e he; cases he
  xmlns := by intro e he; cases he

end Kml.Dom
