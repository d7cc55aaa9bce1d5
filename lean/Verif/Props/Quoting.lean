import Verif.Props.Serializer

/-! # C25: exactly which texts survive writing and reading -/

namespace Kml.Dom

open Kml
open Kml.StringUtil

/-! ### What is delivered is legal -/

theorem step_legal {st st' : Lex} {c : Char} {e : List Ev} (hc : legalChar c = true) (h : st.step c = some (st', e)) :
    ∀ x, Ev.chars [x] ∈ e → legalChar x = true := by
  intro x hx
  have hent : ∀ n y, entity n = some y → legalChar y = true := by
    intro n y hy
    unfold entity at hy
    repeat' split at hy
    all_goals first | (cases hy; decide) | cases hy
  cases st <;> simp only [Lex.step] at h <;> repeat' split at h
  all_goals first
    | (cases h; done)
    | (simp only [Option.some.injEq, Prod.mk.injEq] at h
       obtain ⟨_, rfl⟩ := h
       simp [charEvents] at hx
       try rcases hx with hx | hx
       all_goals first | exact hc | decide | (subst hx; exact hc) | (obtain ⟨_, rfl⟩ := hx; decide))
    | (simp only [Option.map_eq_some_iff, Prod.mk.injEq] at h
       obtain ⟨y, hy, _, rfl⟩ := h
       simp [charEvents] at hx
       try (subst hx; exact hent _ _ hy))

theorem reads_legal : ∀ {t : Str} {st st' : Lex} {e : List Ev}, Reads st t st' e →
    ∀ x, Ev.chars [x] ∈ e → legalChar x = true
  | [], st, st', e, h, x, hx => by cases h; simp at hx
  | c :: t, st, st', e, h, x, hx => by
    obtain ⟨hc, st1, e1, e2, h1, h2, h3⟩ := reads_inv h
    have h3 : e = e1 ++ e2 := h3
    rw [h3, List.mem_append] at hx
    rcases hx with hx | hx
    · exact step_legal hc h1 x hx
    · exact reads_legal h2 x hx

theorem readXml_legal {t s : Str} (h : readXml t = some (charEvents s)) : ∀ c ∈ s, legalChar c = true := by
  intro c hc
  unfold readXml at h
  split at h
  · next k evs hr =>
    cases h
    exact reads_legal (st := .content 0) hr c (List.mem_map.2 ⟨c, hc, rfl⟩)
  · cases h

theorem reads_split : ∀ {a b : Str} {st st' : Lex} {e : List Ev}, Reads st (a ++ b) st' e →
    ∃ m e1 e2, Reads st a m e1 ∧ Reads m b st' e2 ∧ e = e1 ++ e2
  | [], b, st, st', e, h => ⟨st, [], e, rfl, h, rfl⟩
  | c :: a, b, st, st', e, h => by
    obtain ⟨hc, st1, e1, e2, h1, h2, h3⟩ := reads_inv h
    obtain ⟨m, f1, f2, g1, g2, g3⟩ := reads_split (a := a) h2
    exact ⟨m, e1 ++ f1, f2, reads_cons hc h1 g1, g2, by
      have h3 : e = e1 ++ e2 := h3
      rw [h3, g3, List.append_assoc]⟩

/-! ### After `]]>` in a CDATA section -/

/-- In a tag. -/
def Lex.inTag : Lex → Bool
  | .content _ | .ref _ | .lt | .bang _ | .cdata _ => false
  | _ => true

/-- The events of text. -/
def OnlyChars (e : List Ev) : Prop := ∀ x ∈ e, ∃ t, x = Ev.chars t

theorem onlyChars_charEvents (s : Str) : OnlyChars (charEvents s) := by
  intro x hx
  obtain ⟨c, _, rfl⟩ := List.mem_map.1 hx
  exact ⟨_, rfl⟩

theorem OnlyChars.right {a b : List Ev} (h : OnlyChars (a ++ b)) : OnlyChars b := fun x hx => h x (List.mem_append_right _ hx)

theorem OnlyChars.left {a b : List Ev} (h : OnlyChars (a ++ b)) : OnlyChars a := fun x hx => h x (List.mem_append_left _ hx)

theorem step_tag {st st' : Lex} {c : Char} {e : List Ev} (ht : st.inTag = true) (h : st.step c = some (st', e))
    (he : OnlyChars e) : st'.inTag = true := by
  cases st <;> simp only [Lex.inTag] at ht <;> try (exact absurd ht (by decide))
  all_goals simp only [Lex.step] at h
  all_goals repeat' split at h
  all_goals first
    | (cases h; done)
    | (simp only [Option.some.injEq, Prod.mk.injEq] at h
       obtain ⟨rfl, rfl⟩ := h
       first
         | rfl
         | (obtain ⟨t, ht⟩ := he _ (List.mem_singleton.2 rfl); cases ht))
    | (simp only [Option.map_eq_some_iff, Prod.mk.injEq] at h
       obtain ⟨y, hy, rfl, rfl⟩ := h
       rfl)

theorem tag_stays : ∀ {t : Str} {st st' : Lex} {e : List Ev}, st.inTag = true → Reads st t st' e → OnlyChars e →
    st'.inTag = true
  | [], st, st', e, ht, h, _ => by cases h; exact ht
  | c :: t, st, st', e, ht, h, he => by
    obtain ⟨hc, st1, e1, e2, h1, h2, h3⟩ := reads_inv h
    have h3 : e = e1 ++ e2 := h3
    rw [h3] at he
    exact tag_stays (step_tag ht h1 he.left) h2 he.right

/-- What was read last, for the places where it matters. -/
def Lex.After (p : Str) : Lex → Prop
  | .lt => ['<'] <:+ p
  | .bang acc => '<' :: '!' :: acc <:+ p
  | .cdata _ => False
  | _ => True

theorem suffix_snoc {a p : Str} (h : a <:+ p) (c : Char) : a ++ [c] <:+ p ++ [c] := by
  obtain ⟨x, rfl⟩ := h
  exact ⟨x, by simp⟩

theorem step_after {st st' : Lex} {c : Char} {e : List Ev} {p : Str} (ha : st.After p)
    (hn : ¬ (chars! "<![CDATA[") <:+: p ++ [c]) (h : st.step c = some (st', e)) (htag : st.inTag = false) :
    st'.After (p ++ [c]) := by
  cases st <;> simp only [Lex.inTag] at htag <;> try (exact absurd htag (by decide))
  all_goals simp only [Lex.step] at h
  · repeat' split at h
    all_goals first
      | (cases h; done)
      | (simp only [Option.some.injEq, Prod.mk.injEq] at h
         obtain ⟨rfl, rfl⟩ := h
         first
           | trivial
           | (rename_i hlt; subst hlt; exact ⟨p, rfl⟩))
  · split at h
    · simp only [Option.map_eq_some_iff, Prod.mk.injEq] at h
      obtain ⟨y, hy, rfl, rfl⟩ := h
      trivial
    · simp only [Option.some.injEq, Prod.mk.injEq] at h
      obtain ⟨rfl, rfl⟩ := h
      trivial
  · repeat' split at h
    · cases h; trivial
    · next hc => cases h; subst hc; exact suffix_snoc ha '!'
    · cases h; trivial
    · cases h
  · split at h
    · next hc =>
      exfalso
      apply hn
      have := suffix_snoc ha c
      rw [List.cons_append, List.cons_append, hc] at this
      exact this.isInfix
    · split at h
      · cases h
        exact suffix_snoc ha c
      · cases h
  · exact absurd ha (by simp [Lex.After])

theorem end_mark : ∀ {t p : Str} {st : Lex} {k : Nat} {e : List Ev}, st.After p → ¬ (chars! "<![CDATA[") <:+: p ++ t →
    Reads st (t ++ chars! "]]>") (.content k) e → OnlyChars e → False
  | t, p, st, k, e, ha, hn, h, he => by
    by_cases htag : st.inTag = true
    · exact absurd (tag_stays htag h he) (by simp [Lex.inTag])
    have htag : st.inTag = false := by simpa using htag
    match t with
    | [] =>
      obtain ⟨_, st1, e1, f1, s1, r1, _⟩ := reads_inv h
      obtain ⟨_, st2, e2, f2, s2, r2, _⟩ := reads_inv r1
      obtain ⟨_, st3, e3, f3, s3, r3, _⟩ := reads_inv r2
      cases st <;> simp only [Lex.inTag] at htag <;> try (exact absurd htag (by decide))
      · rename_i b
        simp [Lex.step] at s1
        obtain ⟨rfl, _⟩ := s1
        simp [Lex.step] at s2
        obtain ⟨rfl, _⟩ := s2
        simp [Lex.step] at s3
      · simp [Lex.step] at s1
        obtain ⟨rfl, _⟩ := s1
        simp [Lex.step] at s2
        obtain ⟨rfl, _⟩ := s2
        simp [Lex.step] at s3
        obtain ⟨rfl, _⟩ := s3
        cases r3
      · have : Lex.step .lt ']' = none := by decide
        rw [this] at s1
        cases s1
      · rename_i acc _
        have key : ∀ u : Str, acc ++ [']'] ++ u ≠ chars! "[CDATA[" := by
          intro u hu
          have : ']' ∈ (chars! "[CDATA[") := by rw [← hu]; simp
          exact absurd this (by decide)
        simp only [Lex.step] at s1
        rw [if_neg (by simpa using key [])] at s1
        split at s1
        · next hp =>
          obtain ⟨u, hu⟩ := List.isPrefixOf_iff_prefix.1 hp
          exact key u hu
        · cases s1
      · exact ha
    | c :: t =>
      obtain ⟨_, st1, e1, e2, h1, h2, h3⟩ := reads_inv h
      have h3 : e = e1 ++ e2 := h3
      rw [h3] at he
      have hn' : ¬ (chars! "<![CDATA[") <:+: (p ++ [c]) ++ t := by rwa [List.append_assoc]
      exact end_mark (t := t) (p := p ++ [c])
        (step_after ha (fun hi => hn' (hi.trans (List.prefix_append _ _).isInfix)) h1 htag) hn' h2 he.right
  termination_by t => t.length

theorem first_infix {x : Str} : ∀ (n : Nat) {s : Str}, s.length ≤ n → x <:+: s →
    ∃ a b, s = a ++ x ++ b ∧ (x ≠ [] → ¬ x <:+: a) := by
  intro n
  induction n with
  | zero =>
    intro s hs h
    have : s = [] := List.length_eq_zero_iff.1 (by omega)
    subst this
    obtain ⟨a, b, hab⟩ := h
    simp at hab
    obtain ⟨rfl, rfl, rfl⟩ := hab
    exact ⟨[], [], rfl, fun h => absurd rfl h⟩
  | succ n ih =>
    rintro s hs ⟨a, b, rfl⟩
    by_cases hx : x = []
    · exact ⟨a, b, rfl, fun h => absurd hx h⟩
    by_cases ha : x <:+: a
    · have hl : 0 < x.length := List.length_pos_iff.2 hx
      simp only [List.length_append] at hs
      obtain ⟨a', b', rfl, h⟩ := ih (s := a) (by omega) ha
      exact ⟨a', b' ++ x ++ b, by simp, h⟩
    · exact ⟨a, b, rfl, fun _ => ha⟩

/-! ### The broken escapes -/

/-- The escapes without that of `&`. -/
def halfChar (c : Char) : Str := if c = '&' then ['&'] else escapeChar c

theorem lastThree_half : ∀ (s : Str), lastThree (s.flatMap (replaceChar '"' (chars! "&quot;"))) = s.flatMap halfChar
  | [] => rfl
  | c :: s => by
    rw [List.flatMap_cons, List.flatMap_cons, lastThree_append, lastThree_half s]
    congr 1
    unfold halfChar
    by_cases h : c = '&'
    · subst h; decide
    rw [if_neg h]
    by_cases hq : c = '"'
    · subst hq; decide
    · rw [replaceChar, if_neg hq, lastThree_char hq h]

theorem reads_det {st m m' : Lex} {a : Str} {e e' : List Ev} (h : Reads st a m e) (h' : Reads st a m' e') : m = m' ∧ e = e' := by
  unfold Reads at *
  rw [h] at h'
  simpa using h'

theorem entity_amp {n : Str} (h : '&' ∈ n) : entity n = none := by
  unfold entity
  repeat' split
  all_goals first | rfl | (rename_i hn; rw [hn] at h; exact absurd h (by decide))

theorem ref_collects : ∀ {u : Str} (n : Str), ';' ∉ u → (∀ c ∈ u, legalChar c = true) → Reads (.ref n) u (.ref (n ++ u)) []
  | [], n, _, _ => by rw [List.append_nil]; rfl
  | c :: u, n, h, hl => by
    have h1 : Lex.step (.ref n) c = some (.ref (n ++ [c]), []) := by
      simp only [Lex.step]
      rw [if_neg (fun e => h (by simp [e]))]
    have h2 := ref_collects (u := u) (n ++ [c]) (fun m => h (by simp [m])) (fun c hc => hl c (by simp [hc]))
    have := reads_cons (hl c (by simp)) h1 h2
    simpa using this

theorem ref_escape {n u r : Str} {st : Lex} {e : List Ev} (hs : ';' ∉ u) (hl : ∀ c ∈ u, legalChar c = true) (ha : '&' ∈ u)
    (h : Reads (.ref n) (u ++ ';' :: r) st e) : False := by
  obtain ⟨m, e1, e2, h1, h2, _⟩ := reads_split h
  obtain ⟨rfl, _⟩ := reads_det h1 (ref_collects n hs hl)
  obtain ⟨_, st1, f1, f2, s1, _, _⟩ := reads_inv h2
  simp only [Lex.step] at s1
  rw [if_pos trivial, entity_amp (by simp [ha])] at s1
  cases s1

/-- A character that is escaped. -/
theorem halfChar_cases (c : Char) : halfChar c = [c] ∧ c ≠ '<' ∧ c ≠ '>' ∨
    ∃ u, halfChar c = u ++ [';'] ∧ ';' ∉ u ∧ (∀ x ∈ u, legalChar x = true) ∧ '&' ∈ u ∧ c ≠ '&' ∧ legalChar c = true := by
  unfold halfChar escapeChar
  by_cases h0 : c = '&'
  · subst h0; left; decide
  rw [if_neg h0]
  by_cases h1 : c = '"'
  · subst h1; right; exact ⟨chars! "&quot", rfl, by decide, by decide, by decide, by decide, by decide⟩
  by_cases h2 : c = '\''
  · subst h2; right; exact ⟨chars! "&apos", rfl, by decide, by decide, by decide, by decide, by decide⟩
  by_cases h3 : c = '<'
  · subst h3; right; exact ⟨chars! "&lt", rfl, by decide, by decide, by decide, by decide, by decide⟩
  by_cases h4 : c = '>'
  · subst h4; right; exact ⟨chars! "&gt", rfl, by decide, by decide, by decide, by decide, by decide⟩
  left
  rw [if_neg h1, if_neg h0, if_neg h2, if_neg h3, if_neg h4]
  exact ⟨rfl, h3, h4⟩

/-- Each character gives at most one event, and a `&` none. -/
theorem half_count : ∀ {t : Str} {st : Lex} {k : Nat} {e : List Ev}, (∃ j, st = .content j) ∨ (∃ n, st = .ref n) →
    Reads st (t.flatMap halfChar) (.content k) e → e.length + t.count '&' ≤ t.length
  | [], st, k, e, _, h => by cases h; simp
  | c :: t, st, k, e, hst, h => by
    rw [List.flatMap_cons] at h
    rcases halfChar_cases c with ⟨hc, hlt, hgt⟩ | ⟨u, hu, h1, h2, h3, h4, h5⟩
    · rw [hc, List.singleton_append] at h
      obtain ⟨_, st1, e1, e2, s1, r1, he⟩ := reads_inv h
      have he : e = e1 ++ e2 := he
      have key : ((∃ j, st1 = .content j) ∨ (∃ n, st1 = .ref n)) ∧ e1.length + [c].count '&' ≤ 1 := by
        rcases hst with ⟨j, rfl⟩ | ⟨n, rfl⟩
        · simp only [Lex.step] at s1
          rw [if_neg hlt] at s1
          by_cases ha : c = '&'
          · rw [if_pos ha] at s1
            cases s1
            exact ⟨Or.inr ⟨_, rfl⟩, by subst ha; decide⟩
          · rw [if_neg ha, if_neg hgt] at s1
            have hz : [c].count '&' = 0 := by simp [ha]
            rw [hz]
            split at s1 <;> cases s1 <;> exact ⟨Or.inl ⟨_, rfl⟩, by simp [charEvents]⟩
        · simp only [Lex.step] at s1
          split at s1
          · next hc =>
            simp only [Option.map_eq_some_iff, Prod.mk.injEq] at s1
            obtain ⟨y, _, rfl, rfl⟩ := s1
            refine ⟨Or.inl ⟨_, rfl⟩, ?_⟩
            rw [hc]
            simp [charEvents]
          · cases s1
            refine ⟨Or.inr ⟨_, rfl⟩, ?_⟩
            have := List.count_le_length (a := '&') (l := [c])
            simpa using this
      have ih := half_count key.1 r1
      have := key.2
      rw [he, List.length_append, List.count_cons, List.length_cons]
      rw [List.count_singleton] at this
      omega
    · rcases hst with ⟨j, rfl⟩ | ⟨n, rfl⟩
      · obtain ⟨m, e1, e2, h6, h7, rfl⟩ := reads_split h
        have hh : halfChar c = escapeChar c := by unfold halfChar; rw [if_neg h4]
        rw [hh] at h6
        obtain ⟨k', h8⟩ := reads_escapeChar (c := c) j h5
        obtain ⟨rfl, rfl⟩ := reads_det h6 h8
        have ih := half_count (Or.inl ⟨_, rfl⟩) h7
        rw [List.length_append, List.count_cons, List.length_cons, if_neg (by simpa using h4)]
        have : (charEvents [c]).length = 1 := rfl
        omega
      · rw [hu, List.append_assoc, List.singleton_append] at h
        exact (ref_escape h1 h2 h3 h).elim

theorem first_of {s : Str} (h : ¬ ('"' ∉ s ∧ '&' ∉ s)) : ∃ a c b, s = a ++ c :: b ∧ (c = '"' ∨ c = '&') ∧ '"' ∉ a ∧ '&' ∉ a := by
  induction s with
  | nil => exact absurd ⟨by simp, by simp⟩ h
  | cons d s ih =>
    by_cases hd : d = '"' ∨ d = '&'
    · exact ⟨[], d, s, rfl, hd, by simp, by simp⟩
    · have hd1 : d ≠ '"' := fun e => hd (Or.inl e)
      have hd2 : d ≠ '&' := fun e => hd (Or.inr e)
      obtain ⟨a, c, b, rfl, h1, h2, h3⟩ := ih (fun hn => h ⟨by simp [hd1.symm, hn.1], by simp [hd2.symm, hn.2]⟩)
      exact ⟨d :: a, c, b, rfl, h1, by simp [hd1.symm, h2], by simp [hd2.symm, h3]⟩

theorem no_return_flatMap {f : Char → Str} (hf : ∀ c, c ≠ '\r' → '\r' ∉ f c) {s : Str} (hs : '\r' ∉ s) : '\r' ∉ s.flatMap f := by
  intro h
  obtain ⟨c, hc, h⟩ := List.mem_flatMap.1 h
  exact hf c (fun e => hs (e ▸ hc)) h

theorem no_return_replace (d : Char) (v : Str) (hv : '\r' ∉ v) : ∀ c, c ≠ '\r' → '\r' ∉ replaceChar d v c := by
  intro c hc
  unfold replaceChar
  split
  · exact hv
  · simpa using hc.symm

theorem lastThree_no_return {s : Str} (h : '\r' ∉ s) : '\r' ∉ lastThree s :=
  no_return_flatMap (no_return_replace _ _ (by decide)) (no_return_flatMap (no_return_replace _ _ (by decide))
    (no_return_flatMap (no_return_replace _ _ (by decide)) h))

/-- **C25, exactly.** These are the only texts that survive: a text is read back as it was if and only if the serializer
quotes it correctly. -/
theorem C25_exact (s : Str) : readXml (maybeQuote s) = some (charEvents s) ↔ Quotable s := by
  refine ⟨fun h => ?_, C25_quoted_partial s⟩
  have hl := readXml_legal h
  have hr : '\r' ∉ s := fun hm => absurd (hl _ hm) (by decide)
  refine ⟨hl, ?_, ?_⟩
  · intro hc hx
    unfold maybeQuote at h
    rw [if_neg (fun hi => hc (findFrom_isSome_iff_infix.1 hi))] at h
    have hm : s.any (fun c => c ∈ chars! "&'<>\"") = true := by
      obtain ⟨a, b, rfl⟩ := hx
      simp
    rw [if_pos hm] at h
    obtain ⟨k, hk⟩ := reads_of_readXml (by simp [hr]) h
    obtain ⟨a, b, rfl, hab⟩ := first_infix s.length (le_refl _) hx
    have hab := hab (by decide)
    have hla : ∀ c ∈ a, legalChar c = true := fun c hc => hl c (by simp [hc])
    have e : (chars! "<![CDATA[") ++ (a ++ (chars! "]]>") ++ b) ++ (chars! "]]>") =
        ((chars! "<![CDATA[") ++ a ++ (chars! "]]>")) ++ (b ++ chars! "]]>") := by simp
    rw [e] at hk
    obtain ⟨m, e1, e2, r1, r2, he⟩ := reads_split hk
    obtain ⟨rfl, rfl⟩ := reads_det r1 (reads_cdata 0 hla hab)
    have ho : OnlyChars (charEvents a ++ e2) := he ▸ onlyChars_charEvents _
    exact end_mark (t := b) (p := []) (st := .content 0) trivial
      (fun hi => hc (hi.trans ⟨a ++ (chars! "]]>"), [], by simp⟩)) r2 ho.right
  · intro hc
    unfold maybeQuote at h
    rw [if_pos (findFrom_isSome_iff_infix.2 hc)] at h
    by_cases hn : '"' ∉ s ∧ '&' ∉ s
    · exact Or.inl hn
    right
    obtain ⟨a, c, b, rfl, hcc, ha1, ha2⟩ := first_of hn
    have hla : ∀ c ∈ a, legalChar c = true := fun c hc => hl c (by simp [hc])
    have hra : '\r' ∉ a := fun hm => hr (by simp [hm])
    have hrb : '\r' ∉ b := fun hm => hr (by simp [hm])
    have hqb : '\r' ∉ b.flatMap (replaceChar '"' (chars! "&quot;")) := no_return_flatMap (no_return_replace _ _ (by decide)) hrb
    rcases hcc with rfl | rfl
    · exfalso
      have e1 : expandOne [] [] ['"'] (chars! "&quot;") (a ++ '"' :: b)
          = some (a ++ '&' :: ((chars! "quot;") ++ b.flatMap (replaceChar '"' (chars! "&quot;")))) := by
        rw [expandOne_char (by decide), List.flatMap_append, List.flatMap_cons, replaceChar_absent ha1]
        rfl
      rw [entityEscape_eq e1 (expandOne_first ha2 (by decide))] at h
      obtain ⟨k, hk⟩ := reads_of_readXml (lastThree_no_return (by simp [hra, hqb])) h
      rw [lastThree_append, lastThree_append, lastThree_plain ha1 ha2, List.append_assoc] at hk
      obtain ⟨m, f1, f2, r1, r2, he⟩ := reads_split hk
      obtain ⟨k1, r3⟩ := reads_escaped (s := a) 0 hla
      obtain ⟨rfl, rfl⟩ := reads_det r1 r3
      obtain ⟨m, g1, g2, r4, r5, rfl⟩ := reads_split r2
      obtain ⟨k2, r6⟩ := reads_escapeChar (c := '&') k1 (by decide)
      obtain ⟨rfl, rfl⟩ := reads_det r4 r6
      rw [charEvents_append] at he
      have := List.append_cancel_left he
      rw [charEvents_cons] at this
      simp [charEvents] at this
    · refine ⟨a, b, rfl, ha1, ha2, ?_⟩
      have e1 : expandOne [] [] ['"'] (chars! "&quot;") (a ++ '&' :: b)
          = some (a ++ '&' :: b.flatMap (replaceChar '"' (chars! "&quot;"))) := by
        rw [expandOne_char (by decide), List.flatMap_append, List.flatMap_cons, replaceChar_absent ha1]
        rfl
      rw [entityEscape_eq e1 (expandOne_first ha2 (by decide))] at h
      obtain ⟨k, hk⟩ := reads_of_readXml (lastThree_no_return (by simp [hra, hqb])) h
      rw [lastThree_append, lastThree_append, lastThree_plain ha1 ha2, List.append_assoc, lastThree_half] at hk
      obtain ⟨m, f1, f2, r1, r2, he⟩ := reads_split hk
      obtain ⟨k1, r3⟩ := reads_escaped (s := a) 0 hla
      obtain ⟨rfl, rfl⟩ := reads_det r1 r3
      obtain ⟨m, g1, g2, r4, r5, rfl⟩ := reads_split r2
      obtain ⟨k2, r6⟩ := reads_escapeChar (c := '&') k1 (by decide)
      obtain ⟨rfl, rfl⟩ := reads_det r4 r6
      rw [charEvents_append] at he
      have he := List.append_cancel_left he
      rw [charEvents_cons] at he
      have he := List.append_cancel_left he
      have := half_count (Or.inl ⟨_, rfl⟩) r5
      rw [← he] at this
      have hlen : (charEvents b).length = b.length := List.length_map _
      have h0 : b.count '&' = 0 := by omega
      exact List.count_eq_zero.1 h0

/-- Two texts on either side. -/
example : Quotable (chars! "a<b & \"c\"") ∧ ¬ Quotable (chars! "<![CDATA[&&") :=
  ⟨(C25_exact _).1 (by decide +kernel), fun h => absurd ((C25_exact _).2 h) (by decide +kernel)⟩

end Kml.Dom
