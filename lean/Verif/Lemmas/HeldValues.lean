import Verif.Lemmas.CanonAttrs
import Verif.Props.Color32

/-! A value that was read is read again as it is. -/

namespace Kml.Dom

open Kml
open Kml.Attributes (Attributes)

/-- The defaults of the numbers are written as they are. -/
def Kind.plain : Kind → Bool
  | .dbl d => d ∈ [chars! "0", chars! "1", chars! "-1", chars! "4", chars! "180", chars! "-180"]
  | .int d => d ∈ [chars! "0", chars! "2", chars! "256"]
  | _ => true

/-- The defaults of the numbers are written as they are. -/
def AttrKind.plain : AttrKind → Bool
  | .dbl d => d ∈ [chars! "0", chars! "1", chars! "-1", chars! "4", chars! "180", chars! "-180"]
  | .int d => d ∈ [chars! "0", chars! "2", chars! "256"]
  | _ => true

/-- The values of a branch. -/
def Act.plain : Act → Bool
  | .field _ k | .fields _ k => k.plain
  | _ => true

theorem classes_defaults : (classes.all fun p => (p.2.rules.all fun r => r.2.plain) &&
    (p.2.reads.all fun r => r.2.plain)) = true := by decide +kernel

attribute [local irreducible] kml22Elements Xsd.tagToId classes inc dec uintSize

theorem num_not_blank {s : Str} (h : IsNumText s) : blank s = false := by
  obtain ⟨⟨c, r, hs, hc⟩, _, _⟩ := h
  have hd : isSpace c = false := by
    simp only [isDigit, Bool.and_eq_true, decide_eq_true_eq] at hc
    cases hx : isSpace c with
    | false => rfl
    | true =>
      simp only [isSpace, Bool.or_eq_true, decide_eq_true_eq] at hx
      rcases hx with ((((rfl | rfl) | rfl) | rfl) | rfl) | rfl <;> revert hc <;> decide
  unfold blank
  rcases hs with rfl | rfl
  · simp [hd]
  · simp [hd, show isSpace '-' = false from by decide]

theorem readDouble_again (n : NumLib) {d s : Str} (h : n.num s = s) : readDouble n d s = s := by
  unfold readDouble
  rw [num_not_blank (h ▸ n.num_text s)]
  simp [h]

theorem readInt_again (n : NumLib) {d s : Str} (h : n.int s = s) : readInt n d s = s := by
  have ht : IsNumText s := h ▸ n.int_text s
  unfold readInt
  rw [num_not_blank ht, if_neg]
  · simp [h]
  · rintro rfl
    obtain ⟨⟨c, r, hs, _⟩, _⟩ := ht
    rcases hs with hs | hs <;> cases hs

theorem readDouble_num (n : NumLib) {d s : Str} (h : n.num d = d) : n.num (readDouble n d s) = readDouble n d s := by
  unfold readDouble
  split
  · exact h
  · exact n.num_num s

theorem readInt_int (n : NumLib) {d s : Str} (h : n.int d = d) : n.int (readInt n d s) = readInt n d s := by
  unfold readInt
  split
  · exact n.int_small _ (by simp)
  · split
    · exact h
    · exact n.int_int s

theorem bool_again (s : Str) : StringUtil.boolToString (StringUtil.boolFromString
    (StringUtil.boolToString (StringUtil.boolFromString s))) =
      StringUtil.boolToString (StringUtil.boolFromString s) := by
  cases StringUtil.boolFromString s <;> rfl

theorem readColor_again {s v : Str} (h : readColor s = .ok v) : readColor v = .ok v := by
  unfold readColor at h
  cases hc : Color32.setFromString 0 s with
  | ok c =>
    rw [hc] at h
    simp only [Outcome.ok_bind, Outcome.ok.injEq] at h
    subst h
    have hl : ∀ x ∈ Color32.toStringAbgr c, toLower x = x := by
      intro x hx
      rw [Color32.C01_text_is_hex] at hx
      have hd : ∀ k : Nat, k < 16 → toLower ("0123456789abcdef".toList.getD k '?') =
          "0123456789abcdef".toList.getD k '?' := by decide
      have hm : ∀ k j : Nat, k / j % 16 < 16 := fun k j => Nat.mod_lt _ (by decide)
      simp only [Color32.specText, List.mem_cons, List.not_mem_nil, or_false] at hx
      rcases hx with rfl | rfl | rfl | rfl | rfl | rfl | rfl | rfl <;> exact hd _ (hm _ _)
    have hm : (Color32.toStringAbgr c).map toLower = Color32.toStringAbgr c := by
      conv => rhs; rw [← List.map_id (Color32.toStringAbgr c)]
      exact List.map_congr_left hl
    have := Color32.C01_round_trip 0 c [] (Color32.toStringAbgr c) [] false (by simp) hm
    simp only [Bool.false_eq_true, if_false, List.nil_append, List.append_nil] at this
    unfold readColor
    rw [this]
    rfl
  | throws => rw [hc] at h; cases h
  | ub => rw [hc] at h; cases h

theorem splitBlank_no_blank : ∀ (s : Str), ∀ p ∈ splitBlank s, ∀ c ∈ p, c ≠ ' '
  | [], p, hp => by simp only [splitBlank, List.mem_singleton] at hp; subst hp; simp
  | c :: s, p, hp => by
    have ih := splitBlank_no_blank s
    unfold splitBlank at hp
    split at hp
    · rcases List.mem_cons.1 hp with rfl | hp
      · simp
      · exact ih p hp
    · rename_i hc
      split at hp
      · rename_i hs
        rw [List.mem_singleton] at hp
        subst hp
        simpa using hc
      · rename_i q qs hs
        rw [hs] at ih
        rcases List.mem_cons.1 hp with rfl | hp
        · intro x hx
          rcases List.mem_cons.1 hx with rfl | hx
          · exact hc
          · exact ih q (by simp) x hx
        · exact ih p (List.mem_cons_of_mem _ hp)

theorem splitBlank_piece : ∀ {p : Str}, (∀ c ∈ p, c ≠ ' ') → splitBlank p = [p]
  | [], _ => rfl
  | c :: p, h => by
    rw [splitBlank, if_neg (h c (by simp)), splitBlank_piece fun x hx => h x (List.mem_cons_of_mem _ hx)]

theorem splitBlank_append : ∀ {p s : Str}, (∀ c ∈ p, c ≠ ' ') → splitBlank (p ++ ' ' :: s) = p :: splitBlank s
  | [], s, _ => by simp [splitBlank]
  | c :: p, s, h => by
    rw [List.cons_append, splitBlank, if_neg (h c (by simp)),
      splitBlank_append fun x hx => h x (List.mem_cons_of_mem _ hx)]

theorem splitBlank_join : ∀ {ps : List Str}, (∀ p ∈ ps, ∀ c ∈ p, c ≠ ' ') → ps ≠ [] →
    splitBlank (joinBlank ps) = ps
  | [], _, h => absurd rfl h
  | [p], h, _ => splitBlank_piece (h p (by simp))
  | p :: q :: ps, h, _ => by
    rw [joinBlank, splitBlank_append (h p (by simp)),
      splitBlank_join (fun x hx => h x (List.mem_cons_of_mem _ hx)) (by simp)]
    simp

theorem readStates_again (s : Str) : readStates (readStates s) = readStates s := by
  unfold readStates
  by_cases h : ((splitBlank s).filter fun s => (Xsd.enumId Ty.«state» s).isSome) = []
  · rw [h]
    simp only [joinBlank, splitBlank, List.filter_cons, List.filter_nil]
    split <;> rfl
  · rw [splitBlank_join _ h, List.filter_filter]
    · simp
    · intro p hp
      exact splitBlank_no_blank s p (List.mem_filter.1 hp).1

theorem numText_no_blank {s : Str} (h : IsNumText s) : ∀ c ∈ s, c ≠ ' ' := by
  rintro c hc rfl
  rcases h.2.1 _ hc with h | h | h | h | h <;> revert h <;> decide

theorem readTriple_again {n : NumLib} {s v : Str} (h : readTriple n s = .ok v) : readTriple n v = .ok v := by
  simp only [readTriple] at h
  split at h
  · cases h
  · simp only [Outcome.ok.injEq] at h
    have hl : (((((splitBlank s).take 4).take 3).map n.num ++ [['0'], ['0'], ['0']]).take 3).length = 3 := by
      simp only [List.length_take, List.length_append, List.length_map, List.length_cons, List.length_nil]
      omega
    have hn : ∀ x ∈ (((((splitBlank s).take 4).take 3).map n.num ++ [['0'], ['0'], ['0']]).take 3), n.num x = x := by
      intro x hx
      rcases List.mem_append.1 (List.mem_of_mem_take hx) with hx | hx
      · obtain ⟨y, _, rfl⟩ := List.mem_map.1 hx
        exact n.num_num y
      · simp only [List.mem_cons, List.not_mem_nil, or_false, or_self] at hx
        subst hx
        exact n.num_small _ (by simp)
    generalize ((((splitBlank s).take 4).take 3).map n.num ++ [['0'], ['0'], ['0']]).take 3 = l at h hl hn
    subst h
    have hb : splitBlank (joinBlank l) = l := by
      refine splitBlank_join (fun p hp => numText_no_blank ((hn p hp) ▸ n.num_text p)) ?_
      rintro rfl
      cases hl
    simp only [readTriple]
    rw [hb, List.take_of_length_le (by omega : l.length ≤ 4), List.take_of_length_le (by omega : l.length ≤ 3), if_neg]
    · congr 2
      have hm : l.map n.num = l := by
        conv => rhs; rw [← List.map_id l]
        exact List.map_congr_left hn
      rw [hm, List.take_append_of_le_length (by omega), List.take_of_length_le (by omega)]
    · rw [List.any_eq_true]
      rintro ⟨x, hx, hb⟩
      have := num_not_blank ((hn x hx) ▸ n.num_text x : IsNumText x)
      rw [this] at hb
      cases hb

/-- A value that was read is read again as it is, unless it is one that can begin with a CDATA mark. -/
theorem readValue_again {n : NumLib} {k : Kind} {t : Ty} {old : Option Str} {text v : Str} (hk : k.plain = true)
    (hcd : k ≠ .cdata) (hold : ∀ o, old = some o → ∃ t', readValue n k t' none o = .ok (some o))
    (h : readValue n k t old text = .ok (some v)) : readValue n k t none v = .ok (some v) := by
  cases k with
  | str => rfl
  | bool =>
    simp only [readValue, Outcome.ok.injEq, Option.some.injEq] at h ⊢
    rw [← h]
    exact bool_again text
  | enum =>
    simp only [readValue, Outcome.ok.injEq] at h
    split at h
    · rename_i hs
      cases h
      simp only [readValue, hs, if_true]
    · cases h
  | color =>
    simp only [readValue] at h ⊢
    cases hc : readColor text with
    | ok c =>
      rw [hc] at h
      simp only [Outcome.ok_bind, Outcome.ok.injEq, Option.some.injEq] at h
      subst h
      rw [readColor_again hc]
      rfl
    | throws => rw [hc] at h; cases h
    | ub => rw [hc] at h; cases h
  | cdata => exact absurd rfl hcd
  | states =>
    simp only [readValue, Outcome.ok.injEq, Option.some.injEq] at h ⊢
    rw [← h]
    exact readStates_again text
  | vec3 =>
    simp only [readValue] at h ⊢
    cases hc : readTriple n text with
    | ok c =>
      rw [hc] at h
      simp only [Outcome.ok_bind, Outcome.ok.injEq, Option.some.injEq] at h
      subst h
      rw [readTriple_again hc]
      rfl
    | throws => rw [hc] at h; cases h
    | ub => rw [hc] at h; cases h
  | dbl d =>
    have hd : n.num d = d := n.num_small d (of_decide_eq_true hk)
    simp only [readValue, Outcome.ok.injEq, Option.some.injEq, Option.getD_none] at h hold ⊢
    have ho : n.num (old.getD d) = old.getD d := by
      cases old with
      | none => exact hd
      | some o =>
        obtain ⟨_, this⟩ := hold o rfl
        rw [Option.getD_some, ← this]
        exact readDouble_num n hd
    rw [← h]
    exact readDouble_again n (readDouble_num n ho)
  | int d =>
    have hd : n.int d = d := n.int_small d (of_decide_eq_true hk)
    simp only [readValue, Outcome.ok.injEq, Option.some.injEq, Option.getD_none] at h hold ⊢
    have ho : n.int (old.getD d) = old.getD d := by
      cases old with
      | none => exact hd
      | some o =>
        obtain ⟨_, this⟩ := hold o rfl
        rw [Option.getD_some, ← this]
        exact readInt_int n hd
    rw [← h]
    exact readInt_again n (readInt_int n ho)

/-- An attribute that was read is read again as it is. -/
theorem readAttr_again {n : NumLib} {k : AttrKind} {text v : Str} (hk : k.plain = true)
    (h : readAttr n k text = some v) : readAttr n k v = some v := by
  cases k with
  | str => rfl
  | units =>
    simp only [readAttr] at h
    split at h
    · rename_i hs
      cases h
      simp only [readAttr, hs, if_true]
    · cases h
  | dbl d =>
    simp only [readAttr, Option.some.injEq] at h ⊢
    rw [← h]
    exact readDouble_again n (readDouble_num n (n.num_small d (of_decide_eq_true hk)))
  | int d =>
    simp only [readAttr, Option.some.injEq] at h ⊢
    rw [← h]
    exact readInt_again n (readInt_int n (n.int_small d (of_decide_eq_true hk)))

/-- The attributes an element has after it was made. -/
theorem parseAttributes_held {n : NumLib} {t : Ty} {c : Class} (hc : classOf t = some c) {m : Attributes}
    (hm : StdMap.Sorted m) : (parseAttributes n c m).Held n c := by
  have hr := List.all_eq_true.1 classes_reads _ (classOf_pair hc)
  simp only [Bool.and_eq_true, decide_eq_true_eq, List.all_eq_true] at hr
  have hd := List.all_eq_true.1 classes_defaults _ (classOf_pair hc)
  simp only [Bool.and_eq_true, List.all_eq_true] at hd
  obtain ⟨c1, c2, c3, c4⟩ := cutKnown_spec n c.reads [] _ StdMap.sorted_nil hm hr.1
  obtain ⟨u1, u2, u3, u4, u5, u6, u7⟩ := addUnknown_spec c2
  refine ⟨c1, u1, u2, ?_, ?_⟩
  · rintro ⟨k, v⟩ he
    have hg := StdMap.get_of_mem c1 he
    by_cases hk : k ∈ c.reads.map (·.1)
    · obtain ⟨⟨k', kind⟩, hx, rfl⟩ := List.mem_map.1 hk
      refine ⟨kind, hx, ?_⟩
      rw [c3 _ _ hx] at hg
      simp only at hg ⊢
      cases ht : StdMap.get m k' with
      | none => rw [ht] at hg; cases hg
      | some text =>
        rw [ht] at hg
        cases hv : readAttr n kind text with
        | none => simp [hv, StdMap.get] at hg
        | some w =>
          simp [hv] at hg
          subst hg
          exact readAttr_again (hd.2 _ hx) hv
    · have h0 : (cutKnown n c.reads [] m).1.get k = none := by rw [cutKnown_other hk]; rfl
      exact absurd (hg.symm.trans h0) (by simp)
  · rintro ⟨k, v⟩ he
    have hg := StdMap.get_of_mem u1 he
    have hx : k ≠ chars! "xmlns" := by
      rintro rfl
      exact absurd (hg.symm.trans u4) (by simp)
    have hp : ∀ r, k ≠ chars! "xmlns:" ++ r := by
      rintro r rfl
      exact absurd (hg.symm.trans (u5 r)) (by simp)
    refine ⟨?_, hx, hp⟩
    intro hk
    change StdMap.get (addUnknownAttributes _).1 k = _ at hg
    rw [u3 k hx hp, c4, if_pos hk] at hg
    cases hg

theorem empty_held (n : NumLib) (c : Class) : Attrs.empty.Held n c :=
  ⟨StdMap.sorted_nil, StdMap.sorted_nil, StdMap.sorted_nil, (by intro e he; cases he), (by intro e he; cases he)⟩

end Kml.Dom
