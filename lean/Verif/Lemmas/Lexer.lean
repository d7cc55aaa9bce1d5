import Verif.Spec.Lexer
import Verif.Lemmas.FindText
import Verif.Lemmas.Find
import Verif.Model.Serializer

/-! Lemmas about the reference reader. -/

namespace Kml.Dom

open Kml

/-! ### Reading in pieces -/

/-- Reading `s` from `st` ends in `st'` and delivers `evs`. -/
def Reads (st : Lex) (s : Str) (st' : Lex) (evs : List Ev) : Prop := Lex.run st s = some (st', evs)

theorem reads_nil (st : Lex) : Reads st [] st [] := rfl

theorem reads_cons {st st' st'' : Lex} {c : Char} {s : Str} {e e' : List Ev} (hc : legalChar c = true)
    (h : st.step c = some (st', e)) (h' : Reads st' s st'' e') : Reads st (c :: s) st'' (e ++ e') := by
  unfold Reads at h' ⊢
  rw [Lex.run, if_pos hc, h]
  simp only [h']

theorem reads_one {st st' : Lex} {c : Char} {e : List Ev} (hc : legalChar c = true)
    (h : st.step c = some (st', e)) : Reads st [c] st' e := by
  have := reads_cons hc h (reads_nil st')
  rwa [List.append_nil] at this

theorem reads_append {st st' st'' : Lex} {a b : Str} {e e' : List Ev} (h : Reads st a st' e)
    (h' : Reads st' b st'' e') : Reads st (a ++ b) st'' (e ++ e') := by
  induction a generalizing st e with
  | nil =>
    cases h
    exact h'
  | cons c a ih =>
    unfold Reads at h
    rw [Lex.run] at h
    split at h
    · rename_i hc
      split at h
      · exact absurd h (by simp)
      · rename_i st1 e1 h1
        split at h
        · exact absurd h (by simp)
        · rename_i st2 e2 h2
          cases h
          rw [List.append_assoc]
          exact reads_cons hc h1 (ih h2)
    · exact absurd h (by simp)

theorem reads_inv {st : Lex} {c : Char} {s : Str} {r : Lex × List Ev} (h : Lex.run st (c :: s) = some r) :
    legalChar c = true ∧ ∃ st' e e', st.step c = some (st', e) ∧ Reads st' s r.1 e' ∧ r.2 = e ++ e' := by
  rw [Lex.run] at h
  split at h
  · rename_i hc
    split at h
    · exact absurd h (by simp)
    · rename_i st1 e1 h1
      split at h
      · exact absurd h (by simp)
      · rename_i st2 e2 h2
        cases h
        exact ⟨hc, st1, e1, e2, h1, h2, rfl⟩
  · exact absurd h (by simp)

theorem charEvents_append (a b : Str) : charEvents (a ++ b) = charEvents a ++ charEvents b := List.map_append ..

theorem charEvents_cons (c : Char) (b : Str) : charEvents (c :: b) = charEvents [c] ++ charEvents b := rfl

theorem charEvents_inj {a b : Str} (h : charEvents a = charEvents b) : a = b := by
  induction a generalizing b with
  | nil =>
    cases b with
    | nil => rfl
    | cons d b => simp [charEvents] at h
  | cons c a ih =>
    cases b with
    | nil => simp [charEvents] at h
    | cons d b =>
      simp only [charEvents, List.map_cons, List.cons.injEq, Ev.chars.injEq, and_true] at h
      rw [h.1, ih h.2]

theorem lineEnds_id : ∀ {s : Str}, '\r' ∉ s → lineEnds s = s
  | [], _ => rfl
  | c :: s, h => by
    have hc : c ≠ '\r' := fun e => h (by simp [e])
    have ih := lineEnds_id (s := s) (fun e => h (by simp [e]))
    unfold lineEnds
    split
    · rename_i heq
      cases heq
    · rename_i heq
      cases heq
      exact absurd rfl hc
    · rename_i heq
      cases heq
      exact absurd rfl hc
    · rename_i heq
      cases heq
      rw [ih]

theorem reads_no_return : ∀ {s : Str} {st st' : Lex} {e : List Ev}, Reads st s st' e → '\r' ∉ s
  | [], _, _, _, _ => by simp
  | c :: s, st, st', e, h => by
    obtain ⟨hc, _, _, _, _, h', _⟩ := reads_inv h
    have := reads_no_return h'
    intro hm
    rcases List.mem_cons.1 hm with rfl | hm
    · exact absurd hc (by decide)
    · exact this hm

theorem readXml_of_reads {s : Str} {k : Nat} {e : List Ev} (h : Reads (.content 0) s (.content k) e) :
    readXml s = some e := by
  unfold readXml
  rw [lineEnds_id (reads_no_return h), h]

theorem reads_of_readXml {s : Str} {e : List Ev} (hr : '\r' ∉ s) (h : readXml s = some e) :
    ∃ k, Reads (.content 0) s (.content k) e := by
  unfold readXml at h
  rw [lineEnds_id hr] at h
  split at h
  · rename_i k evs h'
    cases h
    exact ⟨k, h'⟩
  · exact absurd h (by simp)

/-! ### Character data -/

/-- Text without markup is read as it is. -/
theorem reads_plain : ∀ {s : Str} (k : Nat), (∀ c ∈ s, legalChar c = true ∧ c ≠ '<' ∧ c ≠ '&' ∧ c ≠ '>') →
    ∃ k', Reads (.content k) s (.content k') (charEvents s)
  | [], k, _ => ⟨k, rfl⟩
  | c :: s, k, h => by
    obtain ⟨h1, h2, h3, h4⟩ := h c (by simp)
    have hs : ∃ k', (Lex.content k).step c = some (.content k', charEvents [c]) := by
      simp only [Lex.step, if_neg h2, if_neg h3, if_neg h4]
      by_cases hb : c = ']'
      · exact ⟨_, by rw [if_pos hb]⟩
      · exact ⟨_, by rw [if_neg hb]⟩
    obtain ⟨k1, hk1⟩ := hs
    obtain ⟨k2, hk2⟩ := reads_plain (s := s) k1 (fun d hd => h d (by simp [hd]))
    exact ⟨k2, reads_cons h1 hk1 hk2⟩

/-- White space is read as it is and ends in a plain place, unless there is none. -/
theorem reads_space {s : Str} (k : Nat) (h : ∀ c ∈ s, xmlSpace c = true) :
    ∃ k', Reads (.content k) s (.content k') (charEvents s) := by
  apply reads_plain
  intro c hc
  have := h c hc
  simp only [xmlSpace, Bool.or_eq_true, decide_eq_true_eq] at this
  rcases this with (rfl | rfl) | rfl <;> decide

theorem infix_cons_of {a b : Str} {c : Char} (h : a <:+: b) : a <:+: c :: b := h.trans ((List.suffix_cons c b).isInfix)

/-- A CDATA section without `]]>` is read as it is. -/
theorem reads_cdata_body : ∀ {s : Str} {k : Nat}, k ≤ 2 → (∀ c ∈ s, legalChar c = true) →
    ¬ (chars! "]]>") <:+: (List.replicate k ']' ++ s) →
    Reads (.cdata k) (s ++ chars! "]]>") (.content 0) (charEvents (List.replicate k ']' ++ s))
  | [], k, hk, _, _ => by
    match k, hk with
    | 0, _ => rfl
    | 1, _ => rfl
    | 2, _ => rfl
  | c :: s, k, hk, hl, hn => by
    have hl' : ∀ d ∈ s, legalChar d = true := fun d hd => hl d (by simp [hd])
    have hc := hl c (by simp)
    by_cases h1 : c = ']'
    · subst h1
      by_cases h2 : k = 2
      · subst h2
        have := reads_cdata_body (s := s) (k := 2) (by omega) hl' (fun h => hn (infix_cons_of h))
        exact reads_cons (st' := .cdata 2) (e := charEvents [']']) hc rfl this
      · have e : List.replicate k ']' ++ ']' :: s = List.replicate (k + 1) ']' ++ s := by
          rw [List.replicate_succ', List.append_assoc]
          rfl
        rw [e] at hn ⊢
        have := reads_cdata_body (s := s) (k := k + 1) (by omega) hl' hn
        exact reads_cons (st' := .cdata (k + 1)) (e := []) hc (by simp [Lex.step, h2]) this
    · have h2 : ¬ (c = '>' ∧ k = 2) := by
        rintro ⟨rfl, rfl⟩
        exact hn ⟨[], s, rfl⟩
      have hn' : ¬ (chars! "]]>") <:+: (List.replicate 0 ']' ++ s) := by
        intro h
        apply hn
        apply h.trans
        exact ⟨List.replicate k ']' ++ [c], [], by simp⟩
      have := reads_cdata_body (s := s) (k := 0) (by omega) hl' hn'
      have e : List.replicate k ']' ++ c :: s = (List.replicate k ']' ++ [c]) ++ s := by simp
      rw [e, charEvents_append]
      exact reads_cons (st' := .cdata 0) hc (by simp only [Lex.step, if_neg h1, if_neg h2]) this

theorem reads_cdata {s : Str} (k : Nat) (hl : ∀ c ∈ s, legalChar c = true) (hn : ¬ (chars! "]]>") <:+: s) :
    Reads (.content k) (chars! "<![CDATA[" ++ s ++ chars! "]]>") (.content 0) (charEvents s) := by
  have h1 : Reads (.content k) (chars! "<![CDATA[") (.cdata 0) [] := by rfl
  have h2 := reads_cdata_body (s := s) (k := 0) (by omega) hl hn
  rw [List.append_assoc]
  exact reads_append h1 h2

/-- How a character is written so that it is read back. -/
def escapeChar (c : Char) : Str :=
  if c = '"' then chars! "&quot;"
  else if c = '&' then chars! "&amp;"
  else if c = '\'' then chars! "&apos;"
  else if c = '<' then chars! "&lt;"
  else if c = '>' then chars! "&gt;"
  else [c]

theorem reads_escapeChar {c : Char} (k : Nat) (hc : legalChar c = true) :
    ∃ k', Reads (.content k) (escapeChar c) (.content k') (charEvents [c]) := by
  unfold escapeChar
  by_cases h1 : c = '"'
  · subst h1
    exact ⟨0, rfl⟩
  rw [if_neg h1]
  by_cases h2 : c = '&'
  · subst h2
    exact ⟨0, rfl⟩
  rw [if_neg h2]
  by_cases h3 : c = '\''
  · subst h3
    exact ⟨0, rfl⟩
  rw [if_neg h3]
  by_cases h4 : c = '<'
  · subst h4
    exact ⟨0, rfl⟩
  rw [if_neg h4]
  by_cases h5 : c = '>'
  · subst h5
    exact ⟨0, rfl⟩
  rw [if_neg h5]
  exact reads_plain k (by simp [hc, h2, h4, h5])

theorem reads_escaped : ∀ {s : Str} (k : Nat), (∀ c ∈ s, legalChar c = true) →
    ∃ k', Reads (.content k) (s.flatMap escapeChar) (.content k') (charEvents s)
  | [], k, _ => ⟨k, rfl⟩
  | c :: s, k, h => by
    obtain ⟨k1, h1⟩ := reads_escapeChar k (h c (by simp))
    obtain ⟨k2, h2⟩ := reads_escaped (s := s) k1 (fun d hd => h d (by simp [hd]))
    exact ⟨k2, reads_append h1 h2⟩

/-! ### Tags -/

theorem nameChar_of_start {c : Char} (h : nameStart c = true) : nameChar c = true := by
  simp only [nameStart, nameChar, Char.isAlphanum, Bool.or_eq_true] at h ⊢
  rcases h with (h | h) | h <;> simp [h]

theorem nameChar_facts {c : Char} (h : nameChar c = true) :
    legalChar c = true ∧ c ≠ '>' ∧ c ≠ '/' ∧ xmlSpace c = false ∧ c ≠ '=' ∧ c ≠ '"' := by
  have hn : 32 < c.toNat ∧ c.toNat < 127 := by
    simp only [nameChar, Char.isAlphanum, Char.isAlpha, Char.isUpper, Char.isLower, Char.isDigit,
      Bool.or_eq_true, Bool.and_eq_true, decide_eq_true_eq, UInt32.le_iff_toNat_le] at h
    have e : c.toNat = c.val.toNat := rfl
    rcases h with ((((h | h) | h) | h) | h) | h
    · rcases h with h | h <;> (simp at h; omega)
    · simp at h; omega
    · subst h; decide
    · subst h; decide
    · subst h; decide
    · subst h; decide
  refine ⟨?_, ?_, ?_, ?_, ?_, ?_⟩
  · simp only [legalChar, Bool.or_eq_true, Bool.and_eq_true, decide_eq_true_eq]
    right
    refine ⟨⟨by omega, ?_⟩, ?_⟩
    · simp; omega
    · simp; omega
  · rintro rfl
    exact absurd h (by decide)
  · rintro rfl
    exact absurd h (by decide)
  · cases hx : xmlSpace c with
    | false => rfl
    | true =>
      simp only [xmlSpace, Bool.or_eq_true, decide_eq_true_eq] at hx
      rcases hx with (rfl | rfl) | rfl <;> exact absurd h (by decide)
  · rintro rfl
    exact absurd h (by decide)
  · rintro rfl
    exact absurd h (by decide)

theorem nameStart_facts {c : Char} (h : nameStart c = true) : c ≠ '!' := by
  rintro rfl
  exact absurd h (by decide)

theorem reads_openName : ∀ {r : Str} (n : Str), r.all nameChar = true → Reads (.openName n) r (.openName (n ++ r)) []
  | [], n, _ => by rw [List.append_nil]; rfl
  | c :: r, n, h => by
    rw [List.all_cons, Bool.and_eq_true] at h
    obtain ⟨h1, h2, h3, h4, _⟩ := nameChar_facts h.1
    have ih := reads_openName (r := r) (n ++ [c]) h.2
    rw [List.append_assoc] at ih
    exact reads_cons (e := []) h1 (by simp [Lex.step, h2, h3, h4, h.1]) ih

theorem reads_attrName : ∀ {r : Str} (n : Str) (a : List (Str × Str)) (k : Str), r.all nameChar = true →
    Reads (.attrName n a k) r (.attrName n a (k ++ r)) []
  | [], n, a, k, _ => by rw [List.append_nil]; rfl
  | c :: r, n, a, k, h => by
    rw [List.all_cons, Bool.and_eq_true] at h
    obtain ⟨h1, _, _, _, h5, _⟩ := nameChar_facts h.1
    have ih := reads_attrName (r := r) n a (k ++ [c]) h.2
    rw [List.append_assoc] at ih
    exact reads_cons (e := []) h1 (by simp [Lex.step, h5, h.1]) ih

theorem reads_closeName : ∀ {r : Str} (n : Str), r.all nameChar = true → Reads (.closeName n) r (.closeName (n ++ r)) []
  | [], n, _ => by rw [List.append_nil]; rfl
  | c :: r, n, h => by
    rw [List.all_cons, Bool.and_eq_true] at h
    obtain ⟨h1, h2, _⟩ := nameChar_facts h.1
    have ih := reads_closeName (r := r) (n ++ [c]) h.2
    rw [List.append_assoc] at ih
    exact reads_cons (e := []) h1 (by simp [Lex.step, h2, h.1]) ih

theorem reads_attrVal : ∀ {v : Str} (n : Str) (a : List (Str × Str)) (k w : Str), PlainAttr v →
    Reads (.attrVal n a k w) v (.attrVal n a k (w ++ v)) []
  | [], n, a, k, w, _ => by rw [List.append_nil]; rfl
  | c :: v, n, a, k, w, h => by
    obtain ⟨h1, h2, h3, h4, h5, h6⟩ := h c (by simp)
    have ih := reads_attrVal (v := v) n a k (w ++ [c]) (fun d hd => h d (by simp [hd]))
    rw [List.append_assoc] at ih
    refine reads_cons (e := []) h1 ?_ ih
    simp only [Lex.step, if_neg h2, if_neg h3, if_neg h4]
    by_cases hs : c = ' '
    · subst hs
      rfl
    · rw [if_neg]
      simp [xmlSpace, hs, h5, h6]

/-- A place in a tag after its name and these attributes. -/
def Lex.atTag (n : Str) (a : List (Str × Str)) (st : Lex) : Prop :=
  (st = .openName n ∧ a = []) ∨ st = .afterVal n a

theorem reads_attrs : ∀ {b : List (Str × Str)} (n : Str) (a : List (Str × Str)) (st : Lex), Lex.atTag n a st →
    PlainAttrs (a ++ b) → ∃ st', Lex.atTag n (a ++ b) st' ∧ Reads st (attrsText b) st' []
  | [], n, a, st, h, _ => ⟨st, by rwa [List.append_nil], rfl⟩
  | (k, v) :: b, n, a, st, h, hp => by
    obtain ⟨⟨c, r, hk, hc, hr⟩, hv⟩ := hp.2 (k, v) (by simp)
    dsimp only at hk hv
    have hstep : st.step ' ' = some (.gap n a, []) := by
      rcases h with ⟨rfl, rfl⟩ | rfl <;> rfl
    have hcn := nameChar_of_start hc
    obtain ⟨f1, f2, f3, f4, f5, f6⟩ := nameChar_facts hcn
    have h1 : Reads st [' '] (.gap n a) [] := reads_one (by decide) hstep
    have h2 : Reads (.gap n a) k (.attrName n a k) [] := by
      rw [hk]
      have := reads_attrName (r := r) n a [c] hr
      exact reads_cons (e := []) f1 (by simp [Lex.step, f2, f3, f4, hc]) this
    have hnot : k ∉ a.map (·.1) := by
      intro hm
      have := hp.1
      rw [List.map_append, List.map_cons] at this
      exact absurd rfl ((List.nodup_append.1 this).2.2 k hm k (by simp))
    have h3 : Reads (.attrName n a k) ['='] (.attrEq n a k) [] :=
      reads_one (by decide) (by simp only [Lex.step, if_pos, if_neg hnot])
    have h4 : Reads (.attrEq n a k) ['"'] (.attrVal n a k []) [] := reads_one (by decide) rfl
    have h5 := reads_attrVal n a k [] hv
    have h6 : Reads (.attrVal n a k v) ['"'] (.afterVal n (a ++ [(k, v)])) [] := reads_one (by decide) rfl
    have hp' : PlainAttrs ((a ++ [(k, v)]) ++ b) := by
      rw [List.append_assoc]
      exact hp
    obtain ⟨st', g1, g2⟩ := reads_attrs (b := b) n (a ++ [(k, v)]) _ (.inr rfl) hp'
    rw [List.append_assoc] at g1
    refine ⟨st', g1, ?_⟩
    have all := reads_append h1 (reads_append h2 (reads_append h3 (reads_append h4 (reads_append h5
      (reads_append h6 g2)))))
    have e : attrsText ((k, v) :: b) = [' '] ++ (k ++ (['='] ++ (['"'] ++ (v ++ (['"'] ++ attrsText b))))) := by
      simp [attrsText]
    rw [e]
    exact all

theorem reads_tagStart {n : Str} {a : List (Str × Str)} (k : Nat) (hn : XmlName n) (ha : PlainAttrs a) :
    ∃ st, Lex.atTag n a st ∧ Reads (.content k) ('<' :: n ++ attrsText a) st [] := by
  obtain ⟨c, r, rfl, hc, hr⟩ := hn
  have hcn := nameChar_of_start hc
  obtain ⟨f1, f2, f3, f4, f5, f6⟩ := nameChar_facts hcn
  have h1 : Reads (.content k) ['<'] .lt [] := reads_one (by decide) rfl
  have h2 : Reads .lt (c :: r) (.openName (c :: r)) [] := by
    have := reads_openName (r := r) [c] hr
    exact reads_cons (e := []) f1 (by simp [Lex.step, f3, nameStart_facts hc, hc]) this
  obtain ⟨st, g1, g2⟩ := reads_attrs (b := a) (c :: r) [] (.openName (c :: r)) (.inl ⟨rfl, rfl⟩) ha
  refine ⟨st, g1, ?_⟩
  have := reads_append h1 (reads_append h2 g2)
  simpa using this

/-- A start tag. -/
theorem reads_start {n : Str} {a : List (Str × Str)} (k : Nat) (hn : XmlName n) (ha : PlainAttrs a) :
    Reads (.content k) ('<' :: n ++ attrsText a ++ ['>']) (.content 0) [.start n a] := by
  obtain ⟨st, h1, h2⟩ := reads_tagStart k hn ha
  have h3 : Reads st ['>'] (.content 0) [.start n a] := by
    refine reads_one (by decide) ?_
    rcases h1 with ⟨rfl, rfl⟩ | rfl <;> rfl
  exact reads_append h2 h3

/-- An empty-element tag. -/
theorem reads_empty {n : Str} {a : List (Str × Str)} (k : Nat) (hn : XmlName n) (ha : PlainAttrs a) :
    Reads (.content k) ('<' :: n ++ attrsText a ++ chars! "/>") (.content 0) [.empty n a] := by
  obtain ⟨st, h1, h2⟩ := reads_tagStart k hn ha
  have h3 : Reads st (chars! "/>") (.content 0) [.empty n a] := by
    rcases h1 with ⟨rfl, rfl⟩ | rfl <;> rfl
  exact reads_append h2 h3

/-- An end tag. -/
theorem reads_stop {n : Str} (k : Nat) (hn : XmlName n) :
    Reads (.content k) (chars! "</" ++ n ++ ['>']) (.content 0) [.stop n] := by
  have hr : n.all nameChar = true := by
    obtain ⟨c, r, rfl, hc, hr⟩ := hn
    rw [List.all_cons, hr, nameChar_of_start hc]
    rfl
  have h1 : Reads (.content k) (chars! "</") (.closeName []) [] := by rfl
  have h2 := reads_closeName (r := n) [] hr
  have h3 : Reads (.closeName n) ['>'] (.content 0) [.stop n] := reads_one (by decide) rfl
  exact reads_append (reads_append h1 h2) h3

end Kml.Dom
