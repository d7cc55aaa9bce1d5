import Verif.Lemmas.Children
import Verif.Lemmas.Attributes

/-! Reading the attributes of an element and writing them again. -/

namespace Kml.Dom

open Kml
open Kml.Attributes (Attributes)

/-- The name under which a namespace declaration is kept is written as this attribute. -/
def xmlnsKey (r : Str) : Str := if r = chars! "xmlns" then r else chars! "xmlns:" ++ r

theorem xmlnsKey_inj {a b : Str} (h : xmlnsKey a = xmlnsKey b) : a = b := by
  unfold xmlnsKey at h
  by_cases ha : a = chars! "xmlns"
  · by_cases hb : b = chars! "xmlns"
    · rw [ha, hb]
    · rw [if_pos ha, if_neg hb, ha] at h
      have := congrArg List.length h
      simp at this
  · by_cases hb : b = chars! "xmlns"
    · rw [if_neg ha, if_pos hb, hb] at h
      have := congrArg List.length h
      simp at this
    · rw [if_neg ha, if_neg hb] at h
      simpa using h

theorem foldl_inj_get {φ : Str → Str} (hφ : ∀ a b, φ a = φ b → a = b) : ∀ (x : Attributes) (m : Attributes), StdMap.Sorted x →
    (∀ r, (x.foldl (fun (m : Attributes) e => m.set (φ e.1) e.2) m).get (φ r) = (x.get r).or (m.get (φ r))) ∧
    (∀ k, (∀ r, k ≠ φ r) → (x.foldl (fun (m : Attributes) e => m.set (φ e.1) e.2) m).get k = m.get k)
  | [], m, _ => ⟨fun r => by simp [StdMap.get], fun _ _ => rfl⟩
  | (k0, v0) :: x, m, hs => by
    cases hs with
    | cons hlt hs =>
      obtain ⟨h1, h2⟩ := foldl_inj_get hφ x (m.set (φ k0) v0) hs
      constructor
      · intro r
        rw [List.foldl_cons, h1 r, StdMap.get_set, StdMap.get]
        by_cases hr : k0 = r
        · subst hr
          rw [if_pos rfl, if_pos rfl, StdMap.get_none_of_lt hlt]
          rfl
        · rw [if_neg hr, if_neg (fun h => hr (hφ _ _ h))]
      · intro k hk
        rw [List.foldl_cons, h2 k hk, StdMap.get_set, if_neg (fun h => hk k0 h.symm)]

theorem serializeBase_eq (a : Attrs) : serializeBase a =
    a.xmlns.foldl (fun (m : Attributes) e => m.set (xmlnsKey e.1) e.2) (Attributes.mergeAttributes [] a.unknown) := rfl

theorem serializeBase_sorted {a : Attrs} (hu : StdMap.Sorted a.unknown) : StdMap.Sorted (serializeBase a) := by
  rw [serializeBase_eq]
  exact Attributes.foldl_set_sorted (fun e : Str × Str => xmlnsKey e.1) (fun e => e.2) _
    (Attributes.merge_spec a.unknown [] hu StdMap.sorted_nil).1

theorem serializeBase_get {a : Attrs} (hu : StdMap.Sorted a.unknown) (hx : StdMap.Sorted a.xmlns) :
    (∀ r, (serializeBase a).get (xmlnsKey r) = (a.xmlns.get r).or (a.unknown.get (xmlnsKey r))) ∧
    (∀ k, (∀ r, k ≠ xmlnsKey r) → (serializeBase a).get k = a.unknown.get k) := by
  obtain ⟨h1, h2⟩ := foldl_inj_get (φ := xmlnsKey) (fun _ _ => xmlnsKey_inj) a.xmlns
    (Attributes.mergeAttributes [] a.unknown) hx
  have hm := (Attributes.merge_spec a.unknown [] hu StdMap.sorted_nil).2
  have hm' : ∀ k, (Attributes.mergeAttributes [] a.unknown).get k = a.unknown.get k := by
    intro k
    rw [hm k]
    cases a.unknown.get k <;> rfl
  rw [serializeBase_eq]
  exact ⟨fun r => by rw [h1 r, hm'], fun k hk => by rw [h2 k hk, hm']⟩

theorem setKnown_spec (known : StdMap Str) : ∀ (sets : List Str) (m : Attributes), StdMap.Sorted m →
    StdMap.Sorted (sets.foldl (fun (m : Attributes) k =>
      match known.get k with
      | some v => m.set k v
      | none => m) m) ∧
    ∀ k, (sets.foldl (fun (m : Attributes) k =>
      match known.get k with
      | some v => m.set k v
      | none => m) m).get k = if k ∈ sets then (known.get k).or (m.get k) else m.get k
  | [], m, hs => ⟨hs, fun k => by simp⟩
  | k0 :: sets, m, hs => by
    rw [List.foldl_cons]
    rcases Option.eq_none_or_eq_some (known.get k0) with h0 | ⟨v, h0⟩
    · obtain ⟨h1, h2⟩ := setKnown_spec known sets m hs
      rw [h0]
      refine ⟨h1, fun k => ?_⟩
      rw [h2 k]
      by_cases hk : k = k0
      · subst hk
        simp [h0]
      · simp [hk]
    · obtain ⟨h1, h2⟩ := setKnown_spec known sets (m.set k0 v) (StdMap.sorted_set hs _ _)
      rw [h0]
      refine ⟨h1, fun k => ?_⟩
      show _ = _
      rw [h2 k, StdMap.get_set]
      by_cases hk : k = k0
      · subst hk
        simp [h0]
      · simp [hk, Ne.symm hk]

theorem serializeAttributes_sorted (c : Class) {a : Attrs} (hu : StdMap.Sorted a.unknown) :
    StdMap.Sorted (serializeAttributes c a) := (setKnown_spec a.known c.sets _ (serializeBase_sorted hu)).1

theorem serializeAttributes_get (c : Class) {a : Attrs} (hu : StdMap.Sorted a.unknown) (k : Str) :
    (serializeAttributes c a).get k =
      if k ∈ c.sets then (a.known.get k).or ((serializeBase a).get k) else (serializeBase a).get k :=
  (setKnown_spec a.known c.sets _ (serializeBase_sorted hu)).2 k

theorem cutKnown_spec (n : NumLib) : ∀ (reads : List (Str × AttrKind)) (known : StdMap Str) (m : Attributes),
    StdMap.Sorted known → StdMap.Sorted m → (reads.map (·.1)).Nodup →
    StdMap.Sorted (cutKnown n reads known m).1 ∧ StdMap.Sorted (cutKnown n reads known m).2 ∧
    (∀ k kind, (k, kind) ∈ reads →
      (cutKnown n reads known m).1.get k = ((m.get k).bind (readAttr n kind)).or (known.get k)) ∧
    (∀ k, (cutKnown n reads known m).2.get k = if k ∈ reads.map (·.1) then none else m.get k)
  | [], known, m, hk, hm, _ => ⟨hk, hm, by simp, by simp [cutKnown]⟩
  | (k0, kind0) :: reads, known, m, hk, hm, hnd => by
    simp only [List.map_cons, List.nodup_cons] at hnd
    have key : ∀ (known' : StdMap Str) (m' : Attributes), StdMap.Sorted known' → StdMap.Sorted m' →
        (∀ k, m'.get k = if k = k0 then none else m.get k) →
        (∀ k, known'.get k = if k = k0 then ((m.get k).bind (readAttr n kind0)).or (known.get k) else known.get k) →
        cutKnown n ((k0, kind0) :: reads) known m = cutKnown n reads known' m' →
        StdMap.Sorted (cutKnown n ((k0, kind0) :: reads) known m).1 ∧
        StdMap.Sorted (cutKnown n ((k0, kind0) :: reads) known m).2 ∧
        (∀ k kind, (k, kind) ∈ (k0, kind0) :: reads →
          (cutKnown n ((k0, kind0) :: reads) known m).1.get k = ((m.get k).bind (readAttr n kind)).or (known.get k)) ∧
        (∀ k, (cutKnown n ((k0, kind0) :: reads) known m).2.get k =
          if k ∈ k0 :: reads.map (·.1) then none else m.get k) := by
      intro known' m' hk' hm' hgm hgk heq
      obtain ⟨h1, h2, h3, h4⟩ := cutKnown_spec n reads known' m' hk' hm' hnd.2
      rw [heq]
      refine ⟨h1, h2, ?_, ?_⟩
      · intro k kind hmem
        rcases List.mem_cons.1 hmem with hx | hx
        · simp only [Prod.mk.injEq] at hx
          obtain ⟨rfl, rfl⟩ := hx
          rw [cutKnown_other hnd.1, hgk, if_pos rfl]
        · have hne : k ≠ k0 := by
            rintro rfl
            exact hnd.1 (List.mem_map_of_mem hx)
          rw [h3 k kind hx, hgm, hgk, if_neg hne, if_neg hne]
      · intro k
        rw [h4 k, hgm]
        by_cases hne : k = k0
        · simp [hne]
        · simp only [List.mem_cons, hne, false_or, if_false]
    rcases Option.eq_none_or_eq_some (m.get k0) with h0 | ⟨text, h0⟩
    · apply key known m hk hm
      · intro k
        by_cases hne : k = k0
        · rw [if_pos hne, hne, h0]
        · rw [if_neg hne]
      · intro k
        by_cases hne : k = k0
        · rw [if_pos hne, hne, h0]
          rfl
        · rw [if_neg hne]
      · simp only [cutKnown, Attributes.cutValue, h0]
    · have hgm : ∀ k, (m.erase k0).get k = if k = k0 then none else m.get k := by
        intro k
        rw [StdMap.get_erase hm]
        by_cases hne : k = k0
        · rw [if_pos hne, if_pos hne.symm]
        · rw [if_neg hne, if_neg (fun h => hne h.symm)]
      rcases Option.eq_none_or_eq_some (readAttr n kind0 text) with hr | ⟨v, hr⟩
      · apply key known (m.erase k0) hk (StdMap.sorted_erase hm _) hgm
        · intro k
          by_cases hne : k = k0
          · rw [if_pos hne, hne, h0, Option.bind_some, hr]
            rfl
          · rw [if_neg hne]
        · simp only [cutKnown, Attributes.cutValue, h0, hr]
      · apply key (known.set k0 v) (m.erase k0) (StdMap.sorted_set hk _ _) (StdMap.sorted_erase hm _) hgm
        · intro k
          rw [StdMap.get_set]
          by_cases hne : k = k0
          · rw [if_pos hne, if_pos hne.symm, hne, h0, Option.bind_some, hr]
            rfl
          · rw [if_neg hne, if_neg (fun h => hne h.symm)]
        · simp only [cutKnown, Attributes.cutValue, h0, hr]

theorem xmlnsKey_cases (k : Str) : (∃ r, k = xmlnsKey r) ∨ k = chars! "xmlns:xmlns" ∨
    (k ≠ chars! "xmlns" ∧ (∀ r, k ≠ chars! "xmlns" ++ ':' :: r)) := by
  by_cases h1 : k = chars! "xmlns"
  · exact .inl ⟨chars! "xmlns", by rw [h1]; rfl⟩
  · by_cases h2 : ∃ r, k = chars! "xmlns" ++ ':' :: r
    · obtain ⟨r, rfl⟩ := h2
      by_cases hr : r = chars! "xmlns"
      · subst hr
        exact .inr (.inl rfl)
      · exact .inl ⟨r, by unfold xmlnsKey; rw [if_neg hr]; rfl⟩
    · exact .inr (.inr ⟨h1, fun r hr => h2 ⟨r, hr⟩⟩)

/-- What is kept of attributes that a class does not know. -/
theorem addUnknown_spec {m : Attributes} (hs : StdMap.Sorted m) :
    StdMap.Sorted (addUnknownAttributes m).1 ∧ StdMap.Sorted (addUnknownAttributes m).2 ∧
    (∀ k, k ≠ chars! "xmlns" → (∀ r, k ≠ chars! "xmlns" ++ ':' :: r) → (addUnknownAttributes m).1.get k = m.get k) ∧
    (addUnknownAttributes m).1.get (chars! "xmlns") = none ∧
    (∀ r, (addUnknownAttributes m).1.get (chars! "xmlns" ++ ':' :: r) = none) ∧
    (∀ r, r ≠ chars! "xmlns" → (addUnknownAttributes m).2.get r = m.get (chars! "xmlns:" ++ r)) ∧
    (addUnknownAttributes m).2.get (chars! "xmlns") =
      (m.get (chars! "xmlns")).or (m.get (chars! "xmlns:xmlns")) := by
  obtain ⟨h1, h2, h3, h4⟩ := Attributes.split_spec hs (chars! "xmlns")
  obtain ⟨hs1, hs2⟩ := Attributes.split_sorted hs (chars! "xmlns")
  have hx : ∀ r, ((Attributes.splitByPrefix m (chars! "xmlns")).1.getD []).get r = m.get (chars! "xmlns:" ++ r) := by
    intro r
    have := h1 r
    rcases Option.eq_none_or_eq_some (Attributes.splitByPrefix m (chars! "xmlns")).1 with hn | ⟨s, hn⟩
    · rw [hn] at this ⊢
      exact this
    · rw [hn] at this ⊢
      exact this
  have hns : (Attributes.splitByPrefix m (chars! "xmlns")).2.get (chars! "xmlns") = m.get (chars! "xmlns") := by
    apply h3
    intro r h
    have := congrArg List.length h
    simp at this
  unfold addUnknownAttributes
  generalize Attributes.splitByPrefix m (chars! "xmlns") = sp at *
  obtain ⟨o, rest⟩ := sp
  dsimp only at *
  rcases Option.eq_none_or_eq_some (rest.get (chars! "xmlns")) with h0 | ⟨v, h0⟩
  · simp only [Attributes.cutValue, h0]
    refine ⟨hs2, hs1, fun k _ hk => h3 k hk, trivial, h2, fun r _ => hx r, ?_⟩
    rw [hx, ← hns, h0]
    rfl
  · simp only [Attributes.cutValue, h0]
    refine ⟨StdMap.sorted_erase hs2 _, StdMap.sorted_set hs1 _ _, ?_, ?_, ?_, ?_, ?_⟩
    · intro k hk hk'
      rw [StdMap.get_erase hs2, if_neg (fun h => hk h.symm)]
      exact h3 k hk'
    · rw [StdMap.get_erase hs2, if_pos rfl]
    · intro r
      rw [StdMap.get_erase hs2]
      split
      · rfl
      · exact h2 r
    · intro r hr
      rw [StdMap.get_set, if_neg (fun h => hr h.symm)]
      exact hx r
    · rw [StdMap.get_set, if_pos rfl, ← hns, h0]
      rfl

/-- Keeping attributes and writing them again changes nothing, except for `xmlns:xmlns`. -/
theorem base_round {m : Attributes} (hs : StdMap.Sorted m) (k : Str) (hk : k ≠ chars! "xmlns:xmlns")
    (hm : m.get (chars! "xmlns:xmlns") = none) (known : StdMap Str) :
    (serializeBase ⟨known, (addUnknownAttributes m).1, (addUnknownAttributes m).2⟩).get k = m.get k := by
  obtain ⟨h1, h2, h3, h4, h5, h6, h7⟩ := addUnknown_spec hs
  obtain ⟨g1, g2⟩ := serializeBase_get (a := ⟨known, (addUnknownAttributes m).1, (addUnknownAttributes m).2⟩) h1 h2
  rcases xmlnsKey_cases k with ⟨r, rfl⟩ | hx | ⟨hx, hy⟩
  · rw [g1 r]
    unfold xmlnsKey
    dsimp only
    by_cases hr : r = chars! "xmlns"
    · subst hr
      rw [if_pos rfl, h7, h4, hm]
      simp
    · rw [if_neg hr, h6 r hr]
      have := h5 r
      have e : (chars! "xmlns:") ++ r = chars! "xmlns" ++ ':' :: r := rfl
      rw [e, h5 r]
      simp
  · exact absurd hx hk
  · rw [g2 k, h3 k hx hy]
    intro r hr
    unfold xmlnsKey at hr
    split at hr
    · rename_i hr'
      exact hx (hr.trans hr')
    · exact hy r hr

theorem reads_no_xmlns : (classes.all fun p => p.2.reads.all fun r =>
    !(chars! "xmlns").isPrefixOf r.1) = true := by decide +kernel

attribute [local irreducible] kml22Elements Xsd.tagToId classes inc dec uintSize

/-- An attribute a class does not know is written as it was read, and none is invented. -/
theorem unknown_attribute {n : NumLib} {t : Ty} {c : Class} (hc : classOf t = some c) {m : Attributes}
    (hs : StdMap.Sorted m) (hx : m.get (chars! "xmlns:xmlns") = none) {k : Str} (hk : k ∉ c.reads.map (·.1)) :
    (serializeAttributes c (parseAttributes n c m)).get k = m.get k := by
  have h := List.all_eq_true.1 classes_reads _ (classOf_pair hc)
  simp only [Bool.and_eq_true, decide_eq_true_eq, List.all_eq_true] at h
  obtain ⟨c1, c2, c3, c4⟩ := cutKnown_spec n c.reads [] m StdMap.sorted_nil hs h.1
  have hno : ∀ k, k ∉ c.reads.map (·.1) → (cutKnown n c.reads [] m).2.get k = m.get k := by
    intro k hk
    rw [c4 k, if_neg hk]
  have hxx : (cutKnown n c.reads [] m).2.get (chars! "xmlns:xmlns") = none := by
    rw [c4]
    split
    · rfl
    · exact hx
  obtain ⟨h1, h2, _⟩ := addUnknown_spec c2
  have hkn : (parseAttributes n c m).known.get k = none := by
    show (cutKnown n c.reads [] m).1.get k = none
    rw [cutKnown_other hk]
    rfl
  rw [serializeAttributes_get c (a := parseAttributes n c m) h1 k, hkn]
  have hb : (serializeBase (parseAttributes n c m)).get k = m.get k := by
    by_cases hkx : k = chars! "xmlns:xmlns"
    · subst hkx
      obtain ⟨g1, g2⟩ := serializeBase_get (a := parseAttributes n c m) h1 h2
      rw [g2]
      · rw [hx]
        obtain ⟨_, _, _, _, h5, _⟩ := addUnknown_spec c2
        exact h5 (chars! "xmlns")
      · intro r hr
        unfold xmlnsKey at hr
        split at hr
        · rename_i hr'
          rw [hr'] at hr
          exact absurd hr (by decide)
        · rename_i hr'
          have : r = chars! "xmlns" := by
            have e : (chars! "xmlns:xmlns") = chars! "xmlns:" ++ chars! "xmlns" := rfl
            rw [e] at hr
            exact (List.append_cancel_left hr).symm
          exact hr' this
    · rw [← hno k hk]
      exact base_round c2 k hkx hxx _
  rw [hb]
  split <;> simp

end Kml.Dom
