import Verif.Model.StringUtil
import Verif.Lemmas.Find
import Verif.Lemmas.Color32
import Verif.Spec.StringUtil
/-! Facts about splitting, predicates and paths (used by `Verif/Props/StringUtil.lean`). -/
namespace Kml.StringUtil
open Kml

/-! #### SplitStringUsing -/

theorem splitLoop_single (c : Char) : ∀ (fuel : Nat) (s : Str), s.length < fuel →
    ∃ ps, splitLoop [c] fuel s = some (.ok ps) ∧ ps ≠ [] ∧ joinWith [c] ps = s ∧ ∀ p ∈ ps, c ∉ p := by
  intro fuel
  induction fuel with
  | zero => intro s h; omega
  | succ fuel ih =>
    intro s hs
    rw [splitLoop, find_zero]
    cases hf : findFrom [c] s with
    | none =>
      refine ⟨[s], rfl, by simp, by simp [joinWith], ?_⟩
      simpa using findFrom_single_none.1 hf
    | some p =>
      obtain ⟨h1, h2, h3⟩ := findFrom_some hf
      have hlt : p < s.length := by
        have := h1.length_le
        simp at this; omega
      obtain ⟨ps, e1, e2, e3, e4⟩ := ih (s.drop (p + 1)) (by simp; omega)
      have hd : s = s.take p ++ c :: s.drop (p + 1) := by
        have h4 := List.drop_eq_getElem_cons hlt
        rw [h4, List.cons_prefix_cons] at h1
        conv => lhs; rw [← List.take_append_drop p s, h4]
        rw [← h1.1]
      refine ⟨s.take p :: ps, ?_, by simp, ?_, ?_⟩
      · simp only
        rw [if_pos (by omega), e1]; rfl
      · obtain ⟨q, qs, rfl⟩ := List.exists_cons_of_ne_nil e2
        rw [joinWith, e3]
        conv => rhs; rw [hd]
        simp
      · intro q hq
        simp only [List.mem_cons] at hq
        rcases hq with rfl | hq
        · intro hc
          obtain ⟨j, hj, hjc⟩ := List.getElem_of_mem hc
          simp only [List.length_take] at hj
          apply h3 j (by omega)
          rw [List.drop_eq_getElem_cons (by omega), List.cons_prefix_cons]
          rw [List.getElem_take] at hjc
          exact ⟨hjc.symm, by simp⟩
        · exact e4 q hq

theorem splitLoop_nil : ∀ (fuel : Nat) (s : Str), s.length < fuel → splitLoop [] fuel s = some .throws := by
  intro fuel
  induction fuel with
  | zero => intro s h; omega
  | succ fuel ih =>
    intro s hs
    have hf : findFrom [] s = some 0 := by
      rw [findFrom_eq_some_iff]; simp
    rw [splitLoop, find_zero, hf]
    simp only
    split
    · rw [ih _ (by simp; omega)]; rfl
    · rfl

/-- Pieces without the separator are determined by their join. -/
theorem joinWith_inj {c : Char} : ∀ {ps qs : List Str}, ps ≠ [] → qs ≠ [] → (∀ p ∈ ps, c ∉ p) →
    (∀ q ∈ qs, c ∉ q) → joinWith [c] ps = joinWith [c] qs → ps = qs := by
  have key : ∀ {x y r t : Str}, c ∉ x → c ∉ y → x ++ c :: r = y ++ c :: t → x = y ∧ r = t := by
    intro x
    induction x with
    | nil =>
      intro y r t _ hy h
      cases y with
      | nil => simpa using h
      | cons a y => simp at h hy; exact absurd h.1 hy.1
    | cons a x ih =>
      intro y r t hx hy h
      cases y with
      | nil => simp at h hx; exact absurd h.1.symm hx.1
      | cons b y =>
        simp at h hx hy
        obtain ⟨rfl, h⟩ := h
        obtain ⟨rfl, rfl⟩ := ih hx.2 hy.2 h
        exact ⟨rfl, rfl⟩
  intro ps
  induction ps with
  | nil => intro qs h; exact absurd rfl h
  | cons p ps ih =>
    intro qs _ hqs hp hq h
    obtain ⟨q, qs, rfl⟩ := List.exists_cons_of_ne_nil hqs
    cases ps with
    | nil =>
      cases qs with
      | nil => simp [joinWith] at h; rw [h]
      | cons q2 qs =>
        simp only [joinWith] at h
        exfalso
        exact hp p (by simp) (by rw [h]; simp)
    | cons p2 ps =>
      cases qs with
      | nil =>
        simp only [joinWith] at h
        exfalso
        exact hq q (by simp) (by rw [← h]; simp)
      | cons q2 qs =>
        simp only [joinWith] at h
        simp only [List.append_assoc, List.singleton_append] at h
        obtain ⟨rfl, h2⟩ := key (hp p (by simp)) (hq q (by simp)) h
        rw [ih (by simp) (by simp) (fun x hx => hp x (by simp [hx])) (fun x hx => hq x (by simp [hx])) h2]

/-! #### Quoted splitting -/

theorem quotedValue_double (f r : Str) (hf : '\x00' ∉ f) (hr : ∀ t, r ≠ '"' :: t) :
    quotedValue (doubleQuotes f ++ '"' :: r) = (f, r) := by
  induction f with
  | nil =>
    simp only [doubleQuotes, List.nil_append]
    cases r with
    | nil => rfl
    | cons c t =>
      have : c ≠ '"' := fun h => hr t (by rw [h])
      rw [quotedValue]
      intro s hs
      simp at hs
      exact this hs.1
  | cons c f ih =>
    simp only [List.mem_cons, not_or] at hf
    by_cases hc : c = '"'
    · subst hc
      simp [doubleQuotes, quotedValue, ih hf.2]
    · have e : doubleQuotes (c :: f) = c :: doubleQuotes f := by
        rw [doubleQuotes]; simpa using hc
      rw [e, List.cons_append, quotedValue, ih hf.2]
      · simp [Ne.symm hf.1]
      · intro s hs; exact absurd hs hc
      · intro h; exact absurd h hc

theorem upToNul_of_not_mem {f : Str} (h : '\x00' ∉ f) : upToNul f = f := by
  unfold upToNul
  induction f with
  | nil => rfl
  | cons c f ih =>
    simp only [List.mem_cons, not_or] at h
    rw [List.takeWhile_cons_of_pos (by simpa using Ne.symm h.1), ih h.2]

theorem splitCols_quoted : ∀ (fields : List Str) (fuel : Nat), fields ≠ [] → (∀ f ∈ fields, '\x00' ∉ f) →
    (joinWith [','] (fields.map quoteField)).length ≤ fuel →
    splitCols ',' fuel (joinWith [','] (fields.map quoteField)) = fields
  | [], _, h, _, _ => absurd rfl h
  | [f], fuel, _, hf, hl => by
    simp only [List.map_cons, List.map_nil, joinWith, quoteField] at hl ⊢
    obtain ⟨fuel, rfl⟩ : ∃ n, fuel = n + 1 := ⟨fuel - 1, by simp at hl; omega⟩
    have hs : skipCol ',' ('"' :: (doubleQuotes f ++ ['"'])) = '"' :: (doubleQuotes f ++ ['"']) := by
      rw [skipCol, if_neg (by decide)]
    have hq := quotedValue_double f [] (hf f (by simp)) (by simp)
    rw [splitCols, column]
    simp only [hs, List.head?_cons, and_self, if_true, List.tail_cons, quotedColumn, hq, strchr, upToNul_of_not_mem (hf f (by simp))]
  | f :: g :: fs, fuel, _, hf, hl => by
    simp only [List.map_cons, joinWith] at hl ⊢
    obtain ⟨fuel, rfl⟩ : ∃ n, fuel = n + 1 := ⟨fuel - 1, by simp [quoteField] at hl; omega⟩
    have hrec := splitCols_quoted (g :: fs) fuel (by simp) (fun x hx => hf x (by simp [hx])) (by
      simp only [List.map_cons]
      simp [quoteField] at hl ⊢
      omega)
    simp only [List.map_cons] at hrec
    have hne : ∃ a b t, joinWith [','] (quoteField g :: fs.map quoteField) = a :: b :: t := by
      cases fs with
      | nil =>
        simp only [List.map_nil, joinWith, quoteField]
        cases h : doubleQuotes g ++ ['"'] with
        | nil => simp at h
        | cons b t => exact ⟨_, _, _, rfl⟩
      | cons h fs =>
        simp only [List.map_cons, joinWith, quoteField]
        cases h : doubleQuotes g ++ ['"'] with
        | nil => simp at h
        | cons b t => exact ⟨_, _, _, rfl⟩
    obtain ⟨a, b, t, hj⟩ := hne
    generalize joinWith [','] (quoteField g :: fs.map quoteField) = R at hrec hj ⊢
    have e : quoteField f ++ [','] ++ R = '"' :: (doubleQuotes f ++ '"' :: (',' :: R)) := by
      simp [quoteField]
    rw [e]
    have hs : skipCol ',' ('"' :: (doubleQuotes f ++ '"' :: (',' :: R)))
        = '"' :: (doubleQuotes f ++ '"' :: (',' :: R)) := by
      rw [skipCol, if_neg (by decide)]
    have hq := quotedValue_double f (',' :: R) (hf f (by simp)) (by simp)
    rw [splitCols, column]
    simp only [hs, List.head?_cons, and_self, if_true, List.tail_cons, quotedColumn, hq, strchr, upToNul_of_not_mem (hf f (by simp))]
    subst hj
    simp only [hrec]

theorem strchr_first {d : Char} {f r : Str} (h1 : d ∉ f) (h2 : '\x00' ∉ f) :
    strchr d (f ++ d :: r) = some (f, d :: r) := by
  induction f with
  | nil => simp [strchr]
  | cons c f ih =>
    simp only [List.mem_cons, not_or] at h1 h2
    simp [strchr, Ne.symm h1.1, Ne.symm h2.1, ih h1.2 h2.2]

theorem strchr_none {d : Char} {f : Str} (h1 : d ∉ f) : strchr d f = none := by
  induction f with
  | nil => simp [strchr]
  | cons c f ih =>
    simp only [List.mem_cons, not_or] at h1
    simp [strchr, Ne.symm h1.1, ih h1.2]

theorem trimRight_id {d : Char} {f : Str} (h : ∀ c, f.getLast? = some c → isSpace c = false) :
    trimRight d f = f := by
  unfold trimRight
  cases hr : f.reverse with
  | nil => simp at hr; simp [hr]
  | cons c t =>
    have : f.getLast? = some c := by
      rw [← List.head?_reverse, hr]; rfl
    rw [List.dropWhile_cons_of_neg (by simp [h c this]), ← hr, List.reverse_reverse]

theorem skipCol_id {d : Char} {f : Str} (h : ∀ c, f.head? = some c → isSpace c = false ∨ c = d) :
    skipCol d f = f := by
  cases f with
  | nil => rfl
  | cons c t =>
    rw [skipCol, if_neg]
    rcases h c rfl with h | h
    · simp [h]
    · simp [h]

theorem column_plain_last {d : Char} {f : Str} (h : Plain d f) : column d f = (f, []) := by
  obtain ⟨h1, h2, h3, h4⟩ := h
  rw [column, skipCol_id (fun c hc => Or.inl (h3 c hc).1)]
  rw [if_neg (fun h => (h3 '"' h.1).2 rfl), plainColumn, strchr_none h1]
  simp [trimRight_id h4, upToNul_of_not_mem h2]

theorem column_plain {d : Char} {f r : Str} (hd : d ≠ '"') (h : Plain d f) :
    column d (f ++ d :: r) = (f, d :: r) := by
  obtain ⟨h1, h2, h3, h4⟩ := h
  have hs : skipCol d (f ++ d :: r) = f ++ d :: r := by
    apply skipCol_id
    intro c hc
    cases f with
    | nil => simp at hc; exact Or.inr hc.symm
    | cons a f => simp at hc; exact Or.inl (h3 c (by simp [hc])).1
  rw [column, hs]
  have hn : (f ++ d :: r).head? ≠ some '"' := by
    cases f with
    | nil => simp [hd]
    | cons a f => simpa using (h3 a rfl).2
  rw [if_neg (fun h => hn h.1), plainColumn, strchr_first h1 h2]
  simp [trimRight_id h4, upToNul_of_not_mem h2]

theorem splitCols_plain {d : Char} (hd : d ≠ '"') : ∀ (fields : List Str) (fuel : Nat), fields ≠ [] →
    (∀ f ∈ fields, Plain d f) → fields ≠ [[]] →
    (joinWith [d] fields).length ≤ fuel → splitCols d fuel (joinWith [d] fields) = fields
  | [], _, h, _, _, _ => absurd rfl h
  | [f], fuel, _, hf, hne, hl => by
    simp only [joinWith] at hl ⊢
    have hp := hf f (by simp)
    have : f ≠ [] := by rintro rfl; exact hne rfl
    obtain ⟨c, t, rfl⟩ := List.exists_cons_of_ne_nil this
    obtain ⟨fuel, rfl⟩ : ∃ n, fuel = n + 1 := ⟨fuel - 1, by simp at hl; omega⟩
    rw [splitCols, column_plain_last hp]
  | f :: g :: fs, fuel, _, hf, _, hl => by
    simp only [joinWith] at hl ⊢
    obtain ⟨fuel, rfl⟩ : ∃ n, fuel = n + 1 := ⟨fuel - 1, by simp at hl; omega⟩
    have hc := column_plain (r := joinWith [d] (g :: fs)) hd (hf f (by simp))
    have e : f ++ [d] ++ joinWith [d] (g :: fs) = f ++ d :: joinWith [d] (g :: fs) := by simp
    rw [e]
    have hsplit : ∀ l, l ≠ [] → splitCols d (fuel + 1) l = (match (column d l).2 with
      | [] => [(column d l).1]
      | _ :: [] => [(column d l).1, []]
      | _ :: rest => (column d l).1 :: splitCols d fuel rest) := by
      intro l hl
      obtain ⟨c, t, rfl⟩ := List.exists_cons_of_ne_nil hl
      simp only [splitCols]
      rfl
    rw [hsplit _ (by simp), hc]
    by_cases hg : g :: fs = [[]]
    · simp at hg
      obtain ⟨rfl, rfl⟩ := hg
      simp [joinWith]
    · have hrec := splitCols_plain hd (g :: fs) fuel (by simp) (fun x hx => hf x (by simp [hx])) hg (by
        simp at hl; omega)
      have hjne : joinWith [d] (g :: fs) ≠ [] := by
        cases fs with
        | nil =>
          simp only [joinWith]
          rintro rfl; exact hg rfl
        | cons h fs => simp [joinWith]
      obtain ⟨a, t, hj⟩ := List.exists_cons_of_ne_nil hjne
      rw [hj] at hrec ⊢
      simp [hrec]

/-! #### Lines -/

theorem segments_ne_nil (p : Char → Bool) (s : Str) : segments p s ≠ [] := by
  cases s with
  | nil => simp [segments]
  | cons c s =>
    rw [segments]
    split
    · simp
    · split <;> simp

theorem segments_no {p : Char → Bool} {a : Str} (h : ∀ c ∈ a, p c = false) : segments p a = [a] := by
  induction a with
  | nil => rfl
  | cons c a ih =>
    simp only [List.mem_cons, forall_eq_or_imp] at h
    rw [segments, if_neg (by simp [h.1]), ih h.2]

theorem segments_cut {p : Char → Bool} {a r : Str} {c : Char} (h : ∀ c ∈ a, p c = false) (hc : p c = true) :
    segments p (a ++ c :: r) = a :: segments p r := by
  induction a with
  | nil => simp [segments, hc]
  | cons x a ih =>
    simp only [List.mem_cons, forall_eq_or_imp] at h
    rw [List.cons_append, segments, if_neg (by simp [h.1]), ih h.2]

theorem filter_segments_skip {p : Char → Bool} {e r : Str} (h : ∀ c ∈ e, p c = true) :
    (segments p (e ++ r)).filter (· ≠ []) = (segments p r).filter (· ≠ []) := by
  induction e with
  | nil => rfl
  | cons c e ih =>
    simp only [List.mem_cons, forall_eq_or_imp] at h
    rw [List.cons_append, segments, if_pos h.1, List.filter_cons_of_neg (by simp), ih h.2]

theorem findFirstOf_none {p : Char → Bool} {s : Str} {pos : Nat} (hp : pos ≤ s.length)
    (h : findFirstOf p s pos = none) : ∀ c ∈ s.drop pos, p c = false := by
  rw [findFirstOf, if_pos hp] at h
  simpa using h

theorem findFirstOf_some {p : Char → Bool} {s : Str} {pos q : Nat}
    (h : findFirstOf p s pos = some q) :
    ∃ a c r, s.drop pos = a ++ c :: r ∧ (∀ x ∈ a, p x = false) ∧ p c = true ∧ q = pos + a.length ∧
      s.drop q = c :: r ∧ q < s.length := by
  rw [findFirstOf] at h
  split at h
  case isFalse => cases h
  rename_i hp
  simp only [Option.map_eq_some_iff] at h
  obtain ⟨i, hi, rfl⟩ := h
  rw [List.findIdx?_eq_some_iff_getElem] at hi
  obtain ⟨hlt, hpi, hbefore⟩ := hi
  refine ⟨(s.drop pos).take i, (s.drop pos)[i], (s.drop pos).drop (i + 1), ?_, ?_, hpi, ?_, ?_, ?_⟩
  · rw [← List.drop_eq_getElem_cons hlt, List.take_append_drop]
  · intro x hx
    obtain ⟨j, hj, rfl⟩ := List.getElem_of_mem hx
    simp only [List.length_take] at hj
    rw [List.getElem_take]
    simpa using hbefore j (by omega)
  · simp at hlt ⊢; omega
  · rw [← List.drop_eq_getElem_cons hlt, List.drop_drop, Nat.add_comm]
  · simp at hlt; omega

theorem allLines_from (data : Str) : ∀ (fuel cur : Nat), cur ≤ data.length → data.length < cur + fuel →
    ∃ fuelEnough, fuel + 1 = fuelEnough ∧
    allLines fuelEnough ⟨data, some cur⟩ = some
      (match segments isEol (data.drop cur) with | [] => [] | x :: r => x :: r.filter (· ≠ [])) := by
  intro fuel
  induction fuel with
  | zero => intro cur h1 h2; omega
  | succ fuel ih =>
    intro cur h1 h2
    refine ⟨_, rfl, ?_⟩
    rw [allLines, splitCurrentLine]
    simp only
    rw [if_neg (by omega)]
    rw [findNextLine]
    cases hf : findFirstOf isEol data cur with
    | none =>
      have := findFirstOf_none h1 hf
      simp only
      rw [segments_no this]
      rw [allLines, splitCurrentLine]
      simp only [Option.map_some]
      congr 2
      rw [List.take_of_length_le (by simp)]
    | some nl =>
      obtain ⟨a, c, r, hd, ha, hc, rfl, hdq, hlt⟩ := findFirstOf_some hf
      simp only
      rw [hd, segments_cut ha hc]
      simp only
      have htake : List.take (cur + a.length - cur) (a ++ c :: r) = a := by
        rw [show cur + a.length - cur = a.length by omega, List.take_left]
      rw [htake]
      cases hn : findFirstOf (fun c => !isEol c) data (cur + a.length) with
      | none =>
        have hall := findFirstOf_none (by omega) hn
        rw [hdq] at hall
        rw [allLines, splitCurrentLine]
        simp only [Option.map_some]
        congr 2
        have := filter_segments_skip (p := isEol) (e := r) (r := []) (by
          intro x hx
          have := hall x (by simp [hx])
          simpa using this)
        rw [List.append_nil] at this
        rw [this]
        simp [segments]
      | some nx =>
        obtain ⟨e, c2, r2, hd2, he, hc2, rfl, hdq2, hlt2⟩ := findFirstOf_some hn
        rw [hdq] at hd2
        cases e with
        | nil =>
          simp at hd2
          obtain ⟨rfl, rfl⟩ := hd2
          simp [hc] at hc2
        | cons c' e =>
          simp at hd2
          obtain ⟨rfl, rfl⟩ := hd2
          obtain ⟨_, rfl, hrec⟩ := ih (cur + a.length + (c :: e).length) (by omega) (by simp; omega)
          rw [hrec, hdq2]
          simp only [Option.map_some]
          congr 2
          rw [filter_segments_skip (by intro x hx; have := he x (by simp [hx]); simpa using this)]
          -- the first segment of the rest is not empty
          have hne : ∃ x t, segments isEol (c2 :: r2) = (c2 :: x) :: t := by
            rw [segments, if_neg (by simpa using hc2)]
            cases segments isEol r2 with
            | nil => exact ⟨_, _, rfl⟩
            | cons x t => exact ⟨_, _, rfl⟩
          obtain ⟨x, t, hx⟩ := hne
          rw [hx]
          simp

/-! #### Predicates -/

theorem strncaseEq_iff : ∀ {a b : Str}, a.length = b.length → '\x00' ∉ a → '\x00' ∉ b →
    (strncaseEq a b = true ↔ a.map toLower = b.map toLower)
  | [], [], _, _, _ => by simp [strncaseEq]
  | x :: a, y :: b, hl, ha, hb => by
    simp only [List.mem_cons, not_or] at ha hb
    simp only [strncaseEq, Bool.and_eq_true, decide_eq_true_eq, Bool.or_eq_true, List.map_cons,
      List.cons.injEq, Ne.symm ha.1, false_or]
    rw [strncaseEq_iff (by simpa using hl) ha.2 hb.2]

theorem strncaseEq_refl : ∀ (a : Str), strncaseEq a a = true
  | [] => rfl
  | x :: a => by simp [strncaseEq, strncaseEq_refl a]

theorem toLower_nul {c : Char} : toLower c = '\x00' ↔ c = '\x00' := by
  constructor
  · intro h
    have := congrArg Char.toNat h
    rw [toLower_toNat] at this
    have h0 : ('\x00').toNat = 0 := rfl
    rw [h0] at this
    split at this
    · omega
    · apply Char.toNat_inj.1; rw [this]; rfl
  · rintro rfl; decide

theorem strncaseEq_symm : ∀ {a b : Str}, a.length = b.length → strncaseEq a b = true → strncaseEq b a = true
  | [], [], _, _ => rfl
  | x :: a, y :: b, hl, h => by
    simp only [strncaseEq, Bool.and_eq_true, decide_eq_true_eq, Bool.or_eq_true] at h ⊢
    refine ⟨h.1.symm, ?_⟩
    rcases h.2 with h2 | h2
    · left
      have := h.1
      rw [h2] at this
      exact toLower_nul.1 (by rw [← this]; decide)
    · right; exact strncaseEq_symm (by simpa using hl) h2

theorem strncaseEq_trans : ∀ {a b c : Str}, a.length = b.length → b.length = c.length →
    strncaseEq a b = true → strncaseEq b c = true → strncaseEq a c = true
  | [], [], [], _, _, _, _ => rfl
  | x :: a, y :: b, z :: c, h1, h2, ha, hb => by
    simp only [strncaseEq, Bool.and_eq_true, decide_eq_true_eq, Bool.or_eq_true] at ha hb ⊢
    refine ⟨ha.1.trans hb.1, ?_⟩
    rcases ha.2 with h3 | h3
    · exact Or.inl h3
    · rcases hb.2 with h4 | h4
      · left
        have := ha.1
        rw [h4] at this
        exact toLower_nul.1 (by rw [this]; decide)
      · right; exact strncaseEq_trans (by simpa using h1) (by simpa using h2) h3 h4

/-! #### Paths -/

theorem findLastSep_none {s : Str} : findLastSep s = none ↔ ∀ c ∈ s, c ≠ '/' ∧ c ≠ '\\' := by
  induction s with
  | nil => simp [findLastSep]
  | cons c s ih =>
    rw [findLastSep]
    cases h : findLastSep s with
    | some i =>
      simp only [reduceCtorEq, false_iff]
      intro hall
      have := ih.2 (fun x hx => hall x (by simp [hx]))
      rw [h] at this; cases this
    | none =>
      have := ih.1 h
      simp only [List.mem_cons, forall_eq_or_imp]
      by_cases hc : c = '/' ∨ c = '\\'
      · have : ¬ (c ≠ '/' ∧ c ≠ '\\') := by
          rcases hc with h | h <;> simp [h]
        simp only [this, false_and, iff_false]
        simp [hc]
      · simp only [not_or] at hc; simp [hc]; simpa using this

theorem findLastSep_last {a f : Str} {c : Char} (hc : c = '/' ∨ c = '\\')
    (hf : ∀ c ∈ f, c ≠ '/' ∧ c ≠ '\\') : findLastSep (a ++ c :: f) = some a.length := by
  induction a with
  | nil =>
    rw [List.nil_append, findLastSep, findLastSep_none.2 hf]
    simp [hc]
  | cons x a ih => rw [List.cons_append, findLastSep, ih]; rfl

end Kml.StringUtil
