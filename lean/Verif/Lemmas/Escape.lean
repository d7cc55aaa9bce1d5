import Verif.Lemmas.Lexer
import Verif.Lemmas.Expand

/-! Replacing single characters with `CreateExpandedStrings`, as the serializer does. -/

namespace Kml.Dom

open Kml StringUtil

/-- Replace every `c` by `val`. -/
def replaceChar (c : Char) (val : Str) (d : Char) : Str := if d = c then val else [d]

theorem replaceChar_absent {c : Char} {val s : Str} (h : c ∉ s) : s.flatMap (replaceChar c val) = s := by
  induction s with
  | nil => rfl
  | cons d s ih =>
    rw [List.flatMap_cons, ih (fun m => h (by simp [m])), replaceChar, if_neg (fun e => h (by simp [e]))]
    rfl

theorem cut_at {c : Char} : ∀ {s : Str}, c ∈ s → ∃ a b, s = a ++ c :: b ∧ c ∉ a
  | d :: s, h => by
    by_cases e : d = c
    · exact ⟨[], s, by simp [e], by simp⟩
    · have h' : c ∈ s := by
        rcases List.mem_cons.1 h with h | h
        · exact absurd h.symm e
        · exact h
      obtain ⟨a, b, rfl, hn⟩ := cut_at h'
      exact ⟨d :: a, b, rfl, by simp [hn, Ne.symm e]⟩

theorem replaceAt_append (pre a b val : Str) (c : Char) :
    replaceAt (pre ++ (a ++ c :: b)) (a.length + pre.length) 1 val = (pre ++ a ++ val) ++ b := by
  unfold replaceAt
  have e : pre ++ (a ++ c :: b) = (pre ++ a) ++ c :: b := by simp
  have l : a.length + pre.length = (pre ++ a).length := by simp; omega
  have l' : a.length + pre.length + 1 = ((pre ++ a) ++ [c]).length := by simp; omega
  have e' : (pre ++ a) ++ c :: b = ((pre ++ a) ++ [c]) ++ b := by simp
  rw [e, l', e', List.drop_left, ← e', l, List.take_left]

theorem expandLoop_char {c : Char} {v0 : Char} {vs : Str} (hv : c ∉ v0 :: vs) :
    ∀ (fuel : Nat) (pre s : Str), s.length < fuel →
    expandLoop [c] [c] (v0 :: vs) fuel (pre ++ s) ((findFrom [c] s).map (· + pre.length))
      = some (pre ++ s.flatMap (replaceChar c (v0 :: vs)))
  | 0, _, _, h => absurd h (by omega)
  | fuel + 1, pre, s, h => by
    by_cases hc : c ∈ s
    · obtain ⟨a, b, rfl, ha⟩ := cut_at hc
      rw [findFrom_single ha, Option.map_some, expandLoop]
      have hcon : contains (v0 :: vs) [c] = false := by
        unfold contains
        rw [findFrom_single_none.2 hv]
        rfl
      rw [List.length_singleton, replaceAt_append, hcon]
      simp only [Bool.false_eq_true, if_false]
      have e1 : (pre ++ a ++ (v0 :: vs)) ++ b = (pre ++ a ++ [v0]) ++ (vs ++ b) := by simp
      have l1 : a.length + pre.length + 1 = (pre ++ a ++ [v0]).length := by simp; omega
      have hf : find ((pre ++ a ++ (v0 :: vs)) ++ b) [c] (a.length + pre.length + 1)
          = (findFrom [c] b).map (· + (pre ++ a ++ (v0 :: vs)).length) := by
        rw [e1, l1, find_append, findFrom_skip (fun m => hv (by simp [m])), Option.map_map]
        congr 1
        funext x
        simp
        omega
      rw [hf, expandLoop_char hv fuel (pre ++ a ++ (v0 :: vs)) b (by simp at h; omega)]
      rw [List.flatMap_append, List.flatMap_cons, replaceChar_absent ha]
      simp [replaceChar]
    · rw [findFrom_single_none.2 hc, Option.map_none, expandLoop, replaceChar_absent hc]

theorem expandOne_char {c v0 : Char} {vs : Str} (hv : c ∉ v0 :: vs) (s : Str) :
    expandOne [] [] [c] (v0 :: vs) s = some (s.flatMap (replaceChar c (v0 :: vs))) := by
  have := expandLoop_char hv (s.length + 1) [] s (by omega)
  unfold expandOne
  simp only [List.nil_append, List.append_nil, find_zero]
  simpa using this

theorem expandOne_absent {c : Char} {val s : Str} (h : c ∉ s) : expandOne [] [] [c] val s = some s := by
  unfold expandOne
  simp only [List.nil_append, List.append_nil, find_zero, findFrom_single_none.2 h]
  rfl

theorem expandOne_first {c : Char} {val a b : Str} (h : c ∉ a) (hv : c ∈ val) :
    expandOne [] [] [c] val (a ++ c :: b) = some (a ++ val ++ b) := by
  unfold expandOne
  simp only [List.nil_append, List.append_nil, find_zero, findFrom_single h]
  rw [List.length_append, List.length_cons]
  simp only [expandLoop, List.length_singleton]
  have := replaceAt_append [] a b val c
  simp only [List.nil_append, List.length_nil, Nat.add_zero] at this
  rw [this]
  have hcon : contains val [c] = true := by
    unfold contains
    obtain ⟨x, y, rfl, hx⟩ := cut_at hv
    rw [findFrom_single hx]
    rfl
  rw [hcon]
  rfl

/-- The three replacements after `&`. -/
def lastThree (s : Str) : Str :=
  ((s.flatMap (replaceChar '\'' (chars! "&apos;"))).flatMap (replaceChar '<' (chars! "&lt;"))).flatMap
    (replaceChar '>' (chars! "&gt;"))

theorem lastThree_append (a b : Str) : lastThree (a ++ b) = lastThree a ++ lastThree b := by
  simp [lastThree]

theorem lastThree_char {c : Char} (h1 : c ≠ '"') (h2 : c ≠ '&') : lastThree [c] = escapeChar c := by
  unfold escapeChar lastThree
  rw [if_neg h1, if_neg h2]
  by_cases h3 : c = '\''
  · subst h3; decide
  rw [if_neg h3]
  by_cases h4 : c = '<'
  · subst h4; decide
  rw [if_neg h4]
  by_cases h5 : c = '>'
  · subst h5; decide
  rw [if_neg h5]
  simp [replaceChar, h3, h4, h5]

theorem lastThree_plain : ∀ {s : Str}, '"' ∉ s → '&' ∉ s → lastThree s = s.flatMap escapeChar
  | [], _, _ => rfl
  | c :: s, h1, h2 => by
    have ih := lastThree_plain (s := s) (fun m => h1 (by simp [m])) (fun m => h2 (by simp [m]))
    have hc := lastThree_char (c := c) (fun e => h1 (by simp [e])) (fun e => h2 (by simp [e]))
    rw [List.flatMap_cons, ← ih, ← hc, ← lastThree_append]
    rfl

theorem lastThree_quot : ∀ {s : Str}, '&' ∉ s →
    lastThree (s.flatMap (replaceChar '"' (chars! "&quot;"))) = s.flatMap escapeChar
  | [], _ => rfl
  | c :: s, h2 => by
    have ih := lastThree_quot (s := s) (fun m => h2 (by simp [m]))
    rw [List.flatMap_cons, List.flatMap_cons, lastThree_append, ih]
    congr 1
    by_cases hq : c = '"'
    · subst hq; decide
    · rw [replaceChar, if_neg hq, lastThree_char hq (fun e => h2 (by simp [e]))]

theorem expandLast (s : Str) :
    createExpandedStrings s (escapeMap.drop 2) [] [] = some (lastThree s) := by
  have e : escapeMap.drop 2 = [(['\''], '&' :: chars! "apos;"), (['<'], '&' :: chars! "lt;"), (['>'], '&' :: chars! "gt;")] := rfl
  rw [e]
  unfold createExpandedStrings
  simp only [List.foldlM_cons, List.foldlM_nil]
  rw [expandOne_char (by decide)]
  simp only [Option.bind_eq_bind, Option.bind_some]
  rw [expandOne_char (by decide)]
  simp only [Option.bind_some]
  rw [expandOne_char (by decide)]
  rfl

theorem entityEscape_eq {s s1 s2 : Str} (h1 : expandOne [] [] ['"'] (chars! "&quot;") s = some s1)
    (h2 : expandOne [] [] ['&'] (chars! "&amp;") s1 = some s2) : entityEscape s = lastThree s2 := by
  have e : escapeMap = (['"'], chars! "&quot;") :: (['&'], chars! "&amp;") :: escapeMap.drop 2 := rfl
  have h : createExpandedStrings s escapeMap [] [] = some (lastThree s2) := by
    rw [e]
    have := expandLast s2
    unfold createExpandedStrings at this ⊢
    simp only [List.foldlM_cons, h1, h2, Option.bind_eq_bind, Option.bind_some]
    exact this
  unfold entityEscape
  rw [h]
  rfl

/-- Without `&` and `"`. -/
theorem entityEscape_plain {s : Str} (h1 : '"' ∉ s) (h2 : '&' ∉ s) : entityEscape s = s.flatMap escapeChar := by
  rw [entityEscape_eq (expandOne_absent h1) (expandOne_absent h2), lastThree_plain h1 h2]

/-- With one `&`, before all `"`. -/
theorem entityEscape_amp {a b : Str} (h1 : '"' ∉ a) (h2 : '&' ∉ a) (h3 : '&' ∉ b) :
    entityEscape (a ++ '&' :: b) = (a ++ '&' :: b).flatMap escapeChar := by
  have e1 : expandOne [] [] ['"'] (chars! "&quot;") (a ++ '&' :: b)
      = some (a ++ '&' :: b.flatMap (replaceChar '"' (chars! "&quot;"))) := by
    rw [expandOne_char (by decide), List.flatMap_append, List.flatMap_cons, replaceChar_absent h1]
    rfl
  rw [entityEscape_eq e1 (expandOne_first h2 (by decide)), lastThree_append, lastThree_append,
    lastThree_plain h1 h2, lastThree_quot h3, List.flatMap_append, List.flatMap_cons, List.append_assoc]
  rfl

end Kml.Dom
