import Verif.Lemmas.StringUtil
import Verif.Lemmas.Expand
/-! Properties C04–C09 and C16. -/
namespace Kml.StringUtil
open Kml

/-! ### C04: template expansion -/

/-- Expansion terminates for every text, map and pair of delimiters. -/
theorem C04_terminates (s : Str) (m : List (Str × Str)) (start end_ : Str) :
    ∃ r, createExpandedStrings s m start end_ = some r :=
  Option.isSome_iff_exists.1 (foldlM_isSome (fun out (kv : Str × Str) => expandOne start end_ kv.1 kv.2 out)
    (fun b a => expandOne_isSome start end_ a.1 a.2 b) m s)

/-- A text without any of the placeholders is not changed. -/
theorem C04_untouched (s : Str) (m : List (Str × Str)) (start end_ : Str)
    (h : ∀ kv ∈ m, ¬ (start ++ kv.1 ++ end_) <:+: s) :
    createExpandedStrings s m start end_ = some s :=
  createExpandedStrings_absent start end_ s m h

example : createExpandedStrings "a $[b] c".toList [("k".toList, "v".toList)] "$[".toList "]".toList
    = some "a $[b] c".toList := by decide

/-- Every placeholder is replaced by its value and nothing else changes, for templates whose literal
text, names and values do not contain the first delimiter character, if no value contains its own name
and each placeholder is followed by enough text.  Missing from the full property: values containing
their name and short values followed closely by another placeholder, for which it is false. -/
theorem C04_replaces_all_partial (c0 e0 : Char) (st en : Str) (hst : c0 ∉ st) (hen : c0 ∉ e0 :: en)
    (m : List (Str × Str)) (ps : List Piece)
    (hm : ∀ kv ∈ m, e0 ∉ kv.1 ∧ c0 ∉ kv.2 ∧ ¬ kv.1 <:+: kv.2 ∧ Roomy (c0 :: st) (e0 :: en) kv.1 kv.2 ps)
    (hc : ∀ p ∈ ps, Clean c0 e0 p) :
    createExpandedStrings (flat (c0 :: st) (e0 :: en) ps) m (c0 :: st) (e0 :: en)
      = some (expected (c0 :: st) (e0 :: en) m ps) :=
  createExpandedStrings_flat hst hen m ps hm hc

/-- The hypotheses are met by a template with two different placeholders, one occurring twice. -/
example : createExpandedStrings "$[name] is now $[b] or $[name]".toList
    [("b".toList, "longer".toList), ("name".toList, "X".toList)] "$[".toList "]".toList
    = some "X is now longer or X".toList :=
  C04_replaces_all_partial '$' ']' ['['] [] (by decide) (by decide) _
    [.hole "name".toList, .lit " is now ".toList, .hole "b".toList, .lit " or ".toList, .hole "name".toList]
    (by
      intro kv hkv
      simp only [List.mem_cons, List.not_mem_nil, or_false] at hkv
      rcases hkv with rfl | rfl
      · exact ⟨by decide, by decide, by decide, by simp [Roomy, leadLen]⟩
      · exact ⟨by decide, by decide, by decide, by simp [Roomy, leadLen]⟩)
    (by
      intro p hp
      simp only [List.mem_cons, List.not_mem_nil, or_false] at hp
      rcases hp with rfl | rfl | rfl | rfl | rfl <;> simp [Clean])

/-- The full property fails: after a short value the search resumes too far to the right. -/
theorem C04_violated :
    createExpandedStrings "$[a]$[a]".toList [("a".toList, "x".toList)] "$[".toList "]".toList
      = some "x$[a]".toList := by decide

/-- It also fails when a value contains its name: only the first occurrence is replaced. -/
theorem C04_self_value_violated :
    createExpandedStrings "$[a] $[a]".toList [("a".toList, "a!".toList)] "$[".toList "]".toList
      = some "a! $[a]".toList := by decide

/-! ### C05: splitting on a separator -/

/-- Splitting on one character always succeeds, loses nothing, and cuts at every separator. -/
theorem C05_split_join (s : Str) (c : Char) :
    ∃ ps, splitStringUsing s [c] = some (.ok ps) ∧ ps ≠ [] ∧ joinWith [c] ps = s ∧ ∀ p ∈ ps, c ∉ p :=
  splitLoop_single c (s.length + 1) s (by omega)

/-- The other direction: pieces without the separator come back exactly. -/
theorem C05_join_split (c : Char) (ps : List Str) (hne : ps ≠ []) (h : ∀ p ∈ ps, c ∉ p) :
    splitStringUsing (joinWith [c] ps) [c] = some (.ok ps) := by
  obtain ⟨qs, e1, e2, e3, e4⟩ := C05_split_join (joinWith [c] ps) c
  rw [e1, joinWith_inj e2 hne e4 h e3]

example : splitStringUsing "a,b,,c,".toList [','] = some (.ok ["a".toList, "b".toList, [], "c".toList, []]) := by
  decide

/-- Outside the property: with an empty separator every call throws `std::out_of_range`. -/
theorem C05_empty_separator_throws (s : Str) : splitStringUsing s [] = some .throws :=
  splitLoop_nil (s.length + 1) s (by omega)

/-- Outside the property: with a longer separator its tail stays in the pieces. -/
theorem C05_long_separator_violated :
    splitStringUsing "a, b".toList ", ".toList = some (.ok ["a".toList, " b".toList]) := by decide

/-! ### C06: CSV records -/

/-- Splitting a record of quoted fields gives the fields back (fields without NUL, which ends a C string). -/
theorem C06_quoted_round_trip (fields : List Str) (hne : fields ≠ []) (hnul : ∀ f ∈ fields, '\x00' ∉ f) :
    splitQuotedUsing (joinWith [','] (fields.map quoteField)) ',' = fields :=
  splitCols_quoted fields _ hne hnul (Nat.le_refl _)

example : splitQuotedUsing "\"a,\"\"b\",\"\",\" c \"".toList ','
    = ["a,\"b".toList, [], " c ".toList] :=
  C06_quoted_round_trip ["a,\"b".toList, [], " c ".toList] (by simp) (by simp)

/-- Fields that need no quotes come back from a plain record, for every delimiter but the quote. -/
theorem C06_plain_round_trip (d : Char) (hd : d ≠ '"') (fields : List Str) (hne : fields ≠ [])
    (hone : fields ≠ [[]]) (h : ∀ f ∈ fields, Plain d f) :
    splitQuotedUsing (joinWith [d] fields) d = fields :=
  splitCols_plain hd fields _ hne h hone (Nat.le_refl _)

example : splitQuotedUsing "name|1.5||x y".toList '|' = ["name".toList, "1.5".toList, [], "x y".toList] :=
  C06_plain_round_trip '|' (by decide) ["name".toList, "1.5".toList, [], "x y".toList] (by simp) (by simp)
    (by intro f hf
        simp only [List.mem_cons, List.not_mem_nil, or_false] at hf
        rcases hf with rfl | rfl | rfl | rfl <;> refine ⟨by decide, by decide, ?_, ?_⟩ <;>
          simp <;> decide)

/-- Without the restriction it fails: a NUL ends the field and the record. -/
theorem C06_nul_violated :
    splitQuotedUsing (joinWith [','] (["a\x00b".toList, "c".toList].map quoteField)) ',' = ["a".toList] := by
  decide

/-! ### C07: CSV lines -/

/-- Iterating over CSV data ends, and delivers exactly the lines of the data in order. -/
theorem C07_lines (data : Str) : ∃ fuel, allLines fuel (.init data) = some (linesOf data) := by
  obtain ⟨_, rfl, h⟩ := allLines_from data (data.length + 1) 0 (by omega) (by omega)
  exact ⟨_, h⟩

/-- More rounds never change the answer, so the answer above is the only one. -/
theorem C07_lines_unique (c : CsvSplitter) : ∀ (f g : Nat) (a b : List Str),
    allLines f c = some a → allLines g c = some b → a = b := by
  intro f
  induction f generalizing c with
  | zero => intro g a b h; simp [allLines] at h
  | succ f ih =>
    intro g a b ha hb
    cases g with
    | zero => simp [allLines] at hb
    | succ g =>
      rw [allLines] at ha hb
      cases h : splitCurrentLine c with
      | none => rw [h] at ha hb; simp at ha hb; rw [ha, hb]
      | some r =>
        obtain ⟨line, c'⟩ := r
        rw [h] at ha hb
        simp only [Option.map_eq_some_iff] at ha hb
        obtain ⟨x, hx, rfl⟩ := ha
        obtain ⟨y, hy, rfl⟩ := hb
        rw [ih c' g x y hx hy]

example : linesOf "a,b\r\n\nc\rd".toList = ["a,b".toList, "c".toList, "d".toList] := by decide
example : linesOf "a\n".toList = ["a".toList] := by decide

/-! ### C08: string predicates -/

theorem C08_ends_with (s e : Str) : stringEndsWith s e = true ↔ s ≠ [] ∧ e ≠ [] ∧ e <:+ s := by
  rw [stringEndsWith]
  by_cases hs : s = []
  · simp [hs]
  by_cases he : e = []
  · simp [he]
  simp only [hs, he, decide_false, Bool.or_self, Bool.false_eq_true, if_false, ne_eq, not_false_eq_true, true_and]
  split
  · rename_i hl
    simp only [decide_eq_true_eq]
    constructor
    · rintro rfl; exact List.suffix_refl _
    · intro h; exact (h.eq_of_length hl.symm).symm
  · rename_i hl
    simp only [Bool.and_eq_true, decide_eq_true_eq]
    constructor
    · rintro ⟨_, h⟩; rw [← h]; exact List.drop_suffix _ _
    · intro h
      have := h.length_le
      exact ⟨by omega, (List.suffix_iff_eq_drop.1 h).symm⟩

example : stringEndsWith "doc.kml".toList ".kml".toList = true := by decide

/-- For texts without NUL, StringCaseEqual is equality up to ASCII case. -/
theorem C08_case_equal (a b : Str) (ha : '\x00' ∉ a) (hb : '\x00' ∉ b) :
    stringCaseEqual a b = true ↔ a.map toLower = b.map toLower := by
  simp only [stringCaseEqual, Bool.and_eq_true, decide_eq_true_eq]
  constructor
  · rintro ⟨h1, h2⟩; exact (strncaseEq_iff h1 ha hb).1 h2
  · intro h
    have hl : a.length = b.length := by simpa using congrArg List.length h
    exact ⟨hl, (strncaseEq_iff hl ha hb).2 h⟩

example : stringCaseEqual "Style".toList "sTYLE".toList = true := by decide

/-- StringCaseEqual is an equivalence relation on all strings. -/
theorem C08_case_equivalence : Equivalence (fun a b => stringCaseEqual a b = true) where
  refl a := by simp [stringCaseEqual, strncaseEq_refl]
  symm {a b} h := by
    simp only [stringCaseEqual, Bool.and_eq_true, decide_eq_true_eq] at h ⊢
    exact ⟨h.1.symm, strncaseEq_symm h.1 h.2⟩
  trans {a b c} h g := by
    simp only [stringCaseEqual, Bool.and_eq_true, decide_eq_true_eq] at h g ⊢
    exact ⟨h.1.trans g.1, strncaseEq_trans h.1 g.1 h.2 g.2⟩

/-- With a NUL inside it is not equality up to case: bytes after the NUL are not compared. -/
theorem C08_case_equal_nul_violated : stringCaseEqual "a\x00b".toList "a\x00c".toList = true := by decide

theorem C08_decimal (s : Str) : isDecimalDoubleString s = true ↔
    ∃ m p d rest, s = m ++ p ++ d :: rest ∧ (m = [] ∨ m = ['-']) ∧ (p = [] ∨ p = ['.']) ∧ isDigit d = true := by
  have hd1 : isDigit '-' = false := by decide
  have hd2 : isDigit '.' = false := by decide
  constructor
  · intro h
    cases s with
    | nil => simp [isDecimalDoubleString] at h
    | cons c r =>
      simp only [isDecimalDoubleString] at h
      by_cases hc : c = '-'
      · subst hc
        simp only [if_true] at h
        cases r with
        | nil => simp at h
        | cons c1 r1 =>
          simp only at h
          by_cases hc1 : c1 = '.'
          · subst hc1
            simp only [if_true] at h
            cases r1 with
            | nil => simp at h
            | cons c2 r2 => exact ⟨['-'], ['.'], c2, r2, rfl, Or.inr rfl, Or.inr rfl, h⟩
          · simp only [if_neg hc1] at h
            exact ⟨['-'], [], c1, r1, rfl, Or.inr rfl, Or.inl rfl, h⟩
      · simp only [if_neg hc] at h
        by_cases hc1 : c = '.'
        · subst hc1
          simp only [if_true] at h
          cases r with
          | nil => simp at h
          | cons c2 r2 => exact ⟨[], ['.'], c2, r2, rfl, Or.inl rfl, Or.inr rfl, h⟩
        · simp only [if_neg hc1] at h
          exact ⟨[], [], c, r, rfl, Or.inl rfl, Or.inl rfl, h⟩
  · rintro ⟨m, p, d, rest, rfl, hm, hp, hd⟩
    have h1 : d ≠ '-' := by rintro rfl; rw [hd1] at hd; cases hd
    have h2 : d ≠ '.' := by rintro rfl; rw [hd2] at hd; cases hd
    rcases hm with rfl | rfl <;> rcases hp with rfl | rfl <;> simp [isDecimalDoubleString, h1, h2, hd]

example : isDecimalDoubleString "-.5x".toList = true ∧ isDecimalDoubleString "+5".toList = false := by decide

/-! ### C09: conversions -/

theorem C09_bool_round_trip (b : Bool) : boolFromString (boolToString b) = b := by cases b <;> decide

/-- A text is read as true exactly when it is white space followed by something starting with "true" or "1". -/
theorem C09_bool_true_iff (s : Str) : boolFromString s = true ↔
    ∃ ws r, s = ws ++ r ∧ (∀ c ∈ ws, isSpace c = true) ∧ ("true".toList <+: r ∨ "1".toList <+: r) := by
  have hskip : ∀ s : Str, ∃ ws, s = ws ++ skipLeadingWhitespace s ∧ (∀ c ∈ ws, isSpace c = true) := by
    intro s
    induction s with
    | nil => exact ⟨[], rfl, by simp⟩
    | cons c s ih =>
      rw [skipLeadingWhitespace]
      split
      · rename_i hc
        obtain ⟨ws, h1, h2⟩ := ih
        refine ⟨c :: ws, by rw [List.cons_append, ← h1], ?_⟩
        intro x hx
        simp only [List.mem_cons] at hx
        rcases hx with rfl | hx
        · exact hc
        · exact h2 x hx
      · exact ⟨[], rfl, by simp⟩
  have htake : ∀ (p r : Str), r.take p.length = p ↔ p <+: r := by
    intro p r
    rw [List.prefix_iff_eq_take]
    exact eq_comm
  have hval : ∀ s : Str, boolFromString s = true ↔
      ("true".toList <+: skipLeadingWhitespace s ∨ "1".toList <+: skipLeadingWhitespace s) := by
    intro s
    rw [← htake, ← htake]
    simp only [boolFromString, Bool.or_eq_true, decide_eq_true_eq]
    rfl
  rw [hval]
  constructor
  · intro h
    obtain ⟨ws, h1, h2⟩ := hskip s
    exact ⟨ws, _, h1, h2, h⟩
  · rintro ⟨ws, r, rfl, hws, h⟩
    have e : skipLeadingWhitespace (ws ++ r) = r := by
      induction ws with
      | nil =>
        cases r with
        | nil => rfl
        | cons c r =>
          rw [List.nil_append, skipLeadingWhitespace, if_neg]
          rcases h with h | h
          · have : c = 't' := by
              rw [show "true".toList = ['t','r','u','e'] by rfl, List.cons_prefix_cons] at h
              exact h.1.symm
            subst this; decide
          · have : c = '1' := by
              rw [show "1".toList = ['1'] by rfl, List.cons_prefix_cons] at h
              exact h.1.symm
            subst this; decide
      | cons c ws ih =>
        rw [List.cons_append, skipLeadingWhitespace, if_pos (hws c (by simp)),
          ih (fun x hx => hws x (by simp [hx]))]
    rw [e]; exact h

example : boolFromString " \n true".toList = true ∧ boolFromString "True".toList = false := by decide

/-! ### C16: paths -/

/-- Joining a directory and a file name and splitting gives them back. -/
theorem C16_join_split (dir file : Str) (hd : dir ≠ []) (hlast : dir.getLast? ≠ some '/') (hf : file ≠ [])
    (hsep : ∀ c ∈ file, c ≠ '/' ∧ c ≠ '\\') : splitFilePath (joinPaths dir file) = (dir, file) := by
  rw [joinPaths, if_neg hd, if_neg hf, if_pos hlast, splitFilePath]
  have e : dir ++ ['/'] ++ file = dir ++ '/' :: file := by simp
  rw [e, findLastSep_last (Or.inl rfl) hsep]
  have hpos := List.length_pos_iff.2 hd
  cases dir with
  | nil => exact absurd rfl hd
  | cons c d => simp

example : splitFilePath (joinPaths "a/b".toList "c.kml".toList) = ("a/b".toList, "c.kml".toList) := by decide

/-- A directory with a trailing separator loses exactly that separator (the root directory keeps it). -/
theorem C16_join_split_slash (dir file : Str) (hf : file ≠ []) (hsep : ∀ c ∈ file, c ≠ '/' ∧ c ≠ '\\') :
    splitFilePath (joinPaths (dir ++ ['/']) file) = (if dir = [] then ['/'] else dir, file) := by
  rw [joinPaths, if_neg (by simp), if_neg hf, if_neg (by simp), splitFilePath]
  have e : dir ++ ['/'] ++ file = dir ++ '/' :: file := by simp
  rw [e, findLastSep_last (Or.inl rfl) hsep]
  cases dir with
  | nil => simp
  | cons c d => simp

/-- Joining with an empty part gives the other part. -/
theorem C16_join_empty (p : Str) : joinPaths [] p = p ∧ joinPaths p [] = p := by
  constructor
  · simp [joinPaths]
  · rw [joinPaths]; split <;> simp_all

/-- A path without separator is a file in the current directory. -/
theorem C16_no_separator (p : Str) (h : ∀ c ∈ p, c ≠ '/' ∧ c ≠ '\\') : splitFilePath p = (".".toList, p) := by
  rw [splitFilePath, findLastSep_none.2 h]; rfl

end Kml.StringUtil
