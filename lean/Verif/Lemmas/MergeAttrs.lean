import Verif.Model.Merge
import Verif.Spec.Merge
import Verif.Lemmas.HeldValues
import Verif.Lemmas.CanonAttrs

/-! The attributes of an element after a merge. -/

namespace Kml.Dom

open Kml
open Kml.Attributes (Attributes)

attribute [local irreducible] kml22Elements Xsd.tagToId classes

theorem over_spec {old new : StdMap Str} (hn : StdMap.Sorted new) (ho : StdMap.Sorted old) :
    StdMap.Sorted (over old new) ∧ ∀ k, (over old new).get k = (new.get k).or (old.get k) :=
  Attributes.merge_spec new old hn ho

theorem over_mem {old new : StdMap Str} (hn : StdMap.Sorted new) (ho : StdMap.Sorted old) {e : Str × Str}
    (h : e ∈ over old new) : e ∈ new ∨ e ∈ old := by
  obtain ⟨s1, s2⟩ := over_spec hn ho
  have hg := StdMap.get_of_mem s1 (k := e.1) (v := e.2) h
  rw [s2] at hg
  cases hk : new.get e.1 with
  | none =>
    rw [hk] at hg
    exact .inr (StdMap.mem_of_get hg)
  | some v =>
    rw [hk] at hg
    cases hg
    exact .inl (StdMap.mem_of_get hk)

section
variable {n : NumLib} {t : Ty} {c : Class} {a b : Attrs}

/-- Merged attributes are held. -/
theorem mergedAttrs_held (ha : a.Held n c) (hb : b.Held n c) : (mergedAttrs a b).Held n c := by
  refine ⟨(over_spec ha.known_sorted hb.known_sorted).1, (over_spec ha.unknown_sorted hb.unknown_sorted).1,
    (over_spec ha.xmlns_sorted hb.xmlns_sorted).1, ?_, ?_⟩
  · intro e he
    rcases over_mem ha.known_sorted hb.known_sorted he with h | h
    · exact ha.known e h
    · exact hb.known e h
  · intro e he
    rcases over_mem ha.unknown_sorted hb.unknown_sorted he with h | h
    · exact ha.unknown e h
    · exact hb.unknown e h

/-- The attributes written for merged attributes. -/
theorem mergedAttrs_get (hc : classOf t = some c) (ha : a.Held n c) (hb : b.Held n c) (k : Str) :
    (serializeAttributes c (mergedAttrs a b)).get k =
      ((serializeAttributes c a).get k).or ((serializeAttributes c b).get k) := by
  have hu := mergedAttrs_held ha hb
  obtain ⟨a1, a2⟩ := canon_get hc ha
  obtain ⟨b1, b2⟩ := canon_get hc hb
  obtain ⟨u1, u2⟩ := canon_get hc hu
  by_cases hk : k ∈ c.reads.map (·.1)
  · rw [a1 k hk, b1 k hk, u1 k hk]
    exact (over_spec ha.known_sorted hb.known_sorted).2 k
  · rw [a2 k hk, b2 k hk, u2 k hk]
    obtain ⟨a3, a4⟩ := serializeBase_get ha.unknown_sorted ha.xmlns_sorted
    obtain ⟨b3, b4⟩ := serializeBase_get hb.unknown_sorted hb.xmlns_sorted
    obtain ⟨u3, u4⟩ := serializeBase_get hu.unknown_sorted hu.xmlns_sorted
    by_cases hx : ∃ r, k = xmlnsKey r
    · obtain ⟨r, rfl⟩ := hx
      rw [a3, b3, u3, unknown_none ha (.inr ⟨r, rfl⟩), unknown_none hb (.inr ⟨r, rfl⟩), unknown_none hu (.inr ⟨r, rfl⟩)]
      simp only [Option.or_none]
      exact (over_spec ha.xmlns_sorted hb.xmlns_sorted).2 r
    · have hx : ∀ r, k ≠ xmlnsKey r := fun r h => hx ⟨r, h⟩
      rw [a4 k hx, b4 k hx, u4 k hx]
      exact (over_spec ha.unknown_sorted hb.unknown_sorted).2 k

theorem mergedAttrs_written (hc : classOf t = some c) (ha : a.Held n c) (hb : b.Held n c) :
    serializeAttributes c (mergedAttrs a b) =
      Attributes.mergeAttributes (serializeAttributes c b) (serializeAttributes c a) := by
  have hs := Attributes.merge_spec _ _ (serializeAttributes_sorted c ha.unknown_sorted)
    (serializeAttributes_sorted c hb.unknown_sorted)
  refine StdMap.ext (serializeAttributes_sorted c (mergedAttrs_held ha hb).unknown_sorted) hs.1 fun k => ?_
  rw [mergedAttrs_get hc ha hb, hs.2]

/-- A value that is held is read the same, whatever was there before. -/
theorem reread_held {k : AttrKind} {s : Str} (hk : k.plain = true) (h : readAttr n k s = some s) (old : Option Str) :
    rereadAttr n k old s = some s := by
  cases k with
  | str => rfl
  | units => exact h
  | dbl d =>
    simp only [readAttr, Option.some.injEq] at h
    have h1 : n.num s = s := by
      have := readDouble_num n (d := d) (s := s) (n.num_small d (of_decide_eq_true hk))
      rwa [h] at this
    simp only [rereadAttr, readDouble_again n h1]
  | int d =>
    simp only [readAttr, Option.some.injEq] at h
    have h1 : n.int s = s := by
      have := readInt_int n (d := d) (s := s) (n.int_small d (of_decide_eq_true hk))
      rwa [h] at this
    simp only [rereadAttr, readInt_again n h1]

theorem recut_eq (n : NumLib) (old : StdMap Str) : ∀ (reads : List (Str × AttrKind)) (known : StdMap Str) (m : Attributes),
    StdMap.Sorted m →
    (∀ r ∈ reads, ∀ text, m.get r.1 = some text → rereadAttr n r.2 (old.get r.1) text = readAttr n r.2 text) →
    recutKnown n old reads known m = cutKnown n reads known m
  | [], _, _, _, _ => rfl
  | (k, kind) :: reads, known, m, hm, h => by
    have hr := h (k, kind) (by simp)
    have hrest : ∀ r ∈ reads, ∀ text, StdMap.get (m.erase k) r.1 = some text →
        rereadAttr n r.2 (old.get r.1) text = readAttr n r.2 text := by
      intro r hr text ht
      rw [StdMap.get_erase hm] at ht
      split at ht
      · cases ht
      · exact h r (List.mem_cons_of_mem _ hr) text ht
    rw [recutKnown, cutKnown]
    rcases Option.eq_none_or_eq_some (m.get k) with h0 | ⟨text, h0⟩
    · simp only [Attributes.cutValue, h0]
      exact recut_eq n old reads known m hm fun r hr => h r (List.mem_cons_of_mem _ hr)
    · simp only [Attributes.cutValue, h0]
      rw [hr text h0]
      cases readAttr n kind text with
      | none => exact recut_eq n old reads known _ (StdMap.sorted_erase hm _) hrest
      | some v => exact recut_eq n old reads _ _ (StdMap.sorted_erase hm _) hrest

theorem readd_eq {old : Attrs} {m : Attributes} (hm : StdMap.Sorted m) (ho : StdMap.Sorted old.xmlns)
    (hx : ∀ r, (addUnknownAttributes m).2.get r = none → old.xmlns.get r = none)
    (hu : (addUnknownAttributes m).1 = [] → old.unknown = []) : readdUnknown old m = addUnknownAttributes m := by
  obtain ⟨hs1, hs2⟩ := Attributes.split_sorted hm (chars! "xmlns")
  unfold readdUnknown
  unfold addUnknownAttributes at hx hu ⊢
  generalize Attributes.splitByPrefix m (chars! "xmlns") = sp at *
  obtain ⟨o, rest⟩ := sp
  dsimp only at *
  have unk : ∀ l : Attributes, (l = [] → old.unknown = []) → (if l = [] then old.unknown else l) = l := by
    intro l h
    split
    · rename_i h0; rw [h h0, h0]
    · rfl
  rcases Option.eq_none_or_eq_some (rest.get (chars! "xmlns")) with h0 | ⟨v, h0⟩
  · simp only [Attributes.cutValue, h0] at hx hu ⊢
    rw [unk _ hu]
    congr 1
    cases o with
    | none =>
      refine StdMap.ext ho StdMap.sorted_nil fun r => ?_
      exact hx r rfl
    | some x =>
      have hs := Attributes.merge_spec x old.xmlns hs1 ho
      refine StdMap.ext hs.1 hs1 fun r => ?_
      rw [hs.2]
      show _ = StdMap.get x r
      cases hg : StdMap.get x r with
      | none => rw [hx r hg]; rfl
      | some w => rfl
  · simp only [Attributes.cutValue, h0] at hx hu ⊢
    rw [unk _ hu]
    congr 1
    cases o with
    | none =>
      refine StdMap.ext (StdMap.sorted_set ho ..) (StdMap.sorted_set StdMap.sorted_nil ..) fun r => ?_
      have := hx r
      simp only [Option.getD_none] at this ⊢
      rw [StdMap.get_set, StdMap.get_set]
      rw [StdMap.get_set] at this
      split
      · rfl
      · rename_i hr
        rw [if_neg hr] at this
        rw [this rfl]
        rfl
    | some x =>
      have hs := Attributes.merge_spec x old.xmlns hs1 ho
      refine StdMap.ext (StdMap.sorted_set hs.1 ..) (StdMap.sorted_set hs1 ..) fun r => ?_
      have := hx r
      simp only [Option.getD_some] at this ⊢
      rw [StdMap.get_set, StdMap.get_set]
      rw [StdMap.get_set] at this
      split
      · rfl
      · rename_i hr
        rw [if_neg hr] at this
        rw [hs.2]
        cases hg : StdMap.get x r with
        | none => rw [this hg]; rfl
        | some w => rfl

/-- Reading the merged attributes into the target gives just those. -/
theorem reparse_merged (hc : classOf t = some c) (ha : a.Held n c) (hb : b.Held n c) :
    reparseAttributes n c b (Attributes.mergeAttributes (serializeAttributes c b) (serializeAttributes c a)) =
      mergedAttrs a b := by
  have hu := mergedAttrs_held ha hb
  rw [← mergedAttrs_written hc ha hb]
  have hround := attrs_round hc hu
  have hs := serializeAttributes_sorted c hu.unknown_sorted
  have hd := List.all_eq_true.1 classes_defaults _ (classOf_pair hc)
  simp only [Bool.and_eq_true, List.all_eq_true] at hd
  have hr := List.all_eq_true.1 classes_reads _ (classOf_pair hc)
  simp only [Bool.and_eq_true, decide_eq_true_eq, List.all_eq_true] at hr
  have e1 : recutKnown n b.known c.reads [] (serializeAttributes c (mergedAttrs a b)) =
      cutKnown n c.reads [] (serializeAttributes c (mergedAttrs a b)) := by
    refine recut_eq n _ _ _ _ hs fun r hx text ht => ?_
    have hk : r.1 ∈ c.reads.map (·.1) := List.mem_map_of_mem hx
    rw [(canon_get hc hu).1 _ hk] at ht
    obtain ⟨kind, h1, h2⟩ := hu.known _ (StdMap.mem_of_get ht)
    have : kind = r.2 := by
      have := nodup_map_inj hr.1 h1 hx rfl
      rw [← this]
    subst this
    rw [reread_held (hd.2 _ hx) h2, h2]
  obtain ⟨_, c2, _, _⟩ := cutKnown_spec n c.reads [] _ StdMap.sorted_nil hs hr.1
  unfold parseAttributes at hround
  simp only at hround
  have k1 := congrArg Attrs.known hround
  have k2 := congrArg Attrs.unknown hround
  have k3 := congrArg Attrs.xmlns hround
  simp only at k1 k2 k3
  have e2 : readdUnknown b (cutKnown n c.reads [] (serializeAttributes c (mergedAttrs a b))).2 =
      addUnknownAttributes (cutKnown n c.reads [] (serializeAttributes c (mergedAttrs a b))).2 := by
    refine readd_eq c2 hb.xmlns_sorted ?_ ?_
    · intro r h
      rw [k3] at h
      change (over b.xmlns a.xmlns).get r = none at h
      rw [(over_spec ha.xmlns_sorted hb.xmlns_sorted).2] at h
      cases hg : a.xmlns.get r with
      | none => rw [hg] at h; exact h
      | some v => rw [hg] at h; cases h
    · intro h
      rw [k2] at h
      refine StdMap.ext hb.unknown_sorted StdMap.sorted_nil fun r => ?_
      have h := congrArg (fun m : StdMap Str => m.get r) h
      change (over b.unknown a.unknown).get r = none at h
      rw [(over_spec ha.unknown_sorted hb.unknown_sorted).2] at h
      cases hg : a.unknown.get r with
      | none => rw [hg] at h; exact h
      | some v => rw [hg] at h; cases h
  unfold reparseAttributes
  simp only
  rw [e1, e2]
  exact hround

theorem over_same {m : StdMap Str} (h : StdMap.Sorted m) : over m [] = m := rfl

theorem mergedAttrs_empty (b : Attrs) : mergedAttrs .empty b = b := rfl

end

end Kml.Dom
