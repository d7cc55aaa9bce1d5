import Verif.Model.Locale
import Verif.Lemmas.Regionator
import Verif.Props.Ieee

/-!
# C111, C112: locales
-/

namespace Kml.Locale
open Kml.Ieee

/-! ## C111: numbers and the locale of the program -/

theorem collected_classic (s : Str) : collected classic s = s := by
  induction s with
  | nil => rfl
  | cons c r ih =>
    unfold collected
    rw [ih]
    by_cases h : c = '.'
    · rw [if_pos (by rw [h]; rfl), h]
    · rw [if_neg (by exact h), if_neg (by simp [classic]), if_neg h]

theorem localized_classic (t : Str) : localized classic t = t := by
  unfold localized
  have h1 : grouped classic (t.takeWhile isDigit) = t.takeWhile isDigit := rfl
  have h2 : ((t.dropWhile isDigit).map fun c => if c = '.' then classic.point else c) = t.dropWhile isDigit := by
    have : (fun c => if c = '.' then classic.point else c) = id := by
      funext c
      by_cases h : c = '.'
      · rw [if_pos h, h]; rfl
      · rw [if_neg h]; rfl
    rw [this, List.map_id]
  rw [h1, h2, List.takeWhile_append_dropWhile]

theorem localizedSigned_classic (t : Str) : localizedSigned classic t = t := by
  unfold localizedSigned
  split <;> rw [localized_classic]

/-- C111.  Whatever the global locale, a text is read as the number it is in the classic locale. -/
theorem C111_read (global : Loc) (s : Str) :
    fromStringDouble global s = readDouble s ∧ fromStringInt global s = readInt s := by
  constructor
  · show readDouble (collected classic s) = _
    rw [collected_classic]
  · unfold fromStringInt
    split
    · next h => rw [h]; decide
    · show readInt (collected classic s) = _
      rw [collected_classic]

/-- C111.  Whatever the global locale, a number is written as in the classic locale. -/
theorem C111_write (global : Loc) (d : Bool × ℚ) (i : ℤ) :
    toStringDouble global d = writeDouble d ∧ toStringInt global i = writeInt i :=
  ⟨localizedSigned_classic _, localizedSigned_classic _⟩

/-- C111.  So a document written by a program in one locale is read by a program in any other: a decimal number of at
most 15 digits keeps its value on the way. -/
theorem C111_exchange {one other : Loc} {s : Str} {b : Bool} {q : ℚ} (h : Stands s b q) (hf : Fifteen q)
    (hr : q = 0 ∨ 10 ^ (-308 : ℤ) ≤ q ∧ q ≤ 179769313486231 * 10 ^ (294 : ℤ)) :
    Stands (toStringDouble one (fromStringDouble other s)) b q := by
  rw [(C111_write one _ 0).1, (C111_read other s).1]
  exact C109_fifteen_partial h hf hr

theorem groupRev_filter (sep : Char) : ∀ (ds : Str) (g : Nat) (gs : List Nat) (k : Nat), sep ∉ ds →
    (groupRev sep g gs k ds).filter (· != sep) = ds := by
  intro ds
  induction ds with
  | nil => intros; rfl
  | cons c r ih =>
    intro g gs k h
    have hc : c ≠ sep := fun e => h (by simp [e])
    have hr : sep ∉ r := fun e => h (List.mem_cons_of_mem _ e)
    unfold groupRev
    split
    · simp [hc, ih _ _ _ hr]
    · simp [hc, ih _ _ _ hr]

theorem grouped_filter (l : Loc) (ds : Str) (h : l.sep ∉ ds) : (grouped l ds).filter (· != l.sep) = ds := by
  unfold grouped
  split
  · exact List.filter_eq_self.2 fun c hc => by simpa using fun (e : c = l.sep) => h (e ▸ hc)
  · rw [List.filter_reverse, groupRev_filter _ _ _ _ _ (by simpa using h), List.reverse_reverse]

theorem digits_isDigit (n : Nat) : ∀ c ∈ Nat.toDigits 10 n, isDigit c = true := by
  intro c hc
  have h := Nat.isDigit_of_mem_toDigits (b := 10) (by norm_num) (by norm_num) hc
  exact h

/-- C111.  In any one locale the regionator still gives different files different names, if the locale does not separate
digits by a digit. -/
theorem C111_unique (l : Loc) (hs : isDigit l.sep = false) {m n : Nat} (h : fileNameIn l m = fileNameIn l n) : m = n := by
  have h1 : putNat l m = putNat l n := List.append_cancel_right h
  have key : ∀ n, l.sep ∉ Nat.toDigits 10 n := fun n hc => by
    have := digits_isDigit n _ hc
    rw [hs] at this
    exact absurd this (by decide)
  have h2 : Nat.toDigits 10 m = Nat.toDigits 10 n := by
    rw [← grouped_filter l _ (key m), ← grouped_filter l _ (key n)]
    exact congrArg (List.filter (· != l.sep)) h1
  apply Geo.numName_inj
  unfold Geo.numName
  rw [h2]

/-- C111.  The ids of regions are the same in every locale. -/
theorem C111_ids (l : Loc) (qid : Str) (q : Geo.Quadrant) : childQidIn l qid q = Geo.childQid qid q := by
  have key : ∀ c : Char, grouped l [c] = [c] := by
    intro c
    unfold grouped
    split
    · rfl
    · next g gs _ =>
      show (groupRev l.sep g gs 0 [c]).reverse = [c]
      unfold groupRev
      rw [if_neg (by omega)]
      rfl
  cases q <;> exact congrArg (qid ++ ·) (key _)

theorem groupRev_short (sep : Char) : ∀ (ds : Str) (g : Nat) (gs : List Nat) (k : Nat), g = 0 ∨ k + ds.length ≤ g →
    groupRev sep g gs k ds = ds := by
  intro ds
  induction ds with
  | nil => intros; rfl
  | cons c r ih =>
    intro g gs k h
    simp only [List.length_cons] at h
    unfold groupRev
    rw [if_neg (by omega), ih _ _ _ (by omega)]

/-- C111.  The names of the files of a regionator, and the places in error messages, are the same in every locale that
makes groups of at least three digits, as long as the numbers are below 1000.  Missing from the full statement: greater
numbers (`C111_files_violated`, `C111_errors_violated`). -/
theorem C111_small_partial (l : Loc) (hl : ∀ g gs, l.groups = g :: gs → g = 0 ∨ 3 ≤ g) {n : Nat} (hn : n < 1000) :
    fileNameIn l n = Geo.numName n ∧
      ∀ (what : Str) (column : Nat), column < 1000 → reportError l what n column =
        what ++ " on line ".toList ++ Nat.toDigits 10 n ++ " at offset ".toList ++ Nat.toDigits 10 column := by
  have key : ∀ m < 1000, putNat l m = Nat.toDigits 10 m := by
    intro m hm
    unfold putNat grouped
    split
    · rfl
    · next g gs hg =>
      have hlen : (Nat.toDigits 10 m).length ≤ 3 := by
        rw [Nat.length_toDigits_le_iff (by norm_num) (by norm_num)]; exact hm
      rw [groupRev_short _ _ _ _ _ (by rw [List.length_reverse]; rcases hl g gs hg with h | h <;> omega), List.reverse_reverse]
  constructor
  · show putNat l n ++ _ = _
    rw [key n hn]
    rfl
  · intro what column hc
    show what ++ _ ++ putNat l n ++ _ ++ putNat l column = _
    rw [key n hn, key column hc]
    rfl

/-- The numbers of English, as many programs have them. -/
def english : Loc := ⟨'.', ',', [3], ['e', 'n']⟩

/-- The numbers of German. -/
def german : Loc := ⟨',', '.', [3], ['d', 'e']⟩

/-- C111.  The file number 1000 of a regionator has another name in another locale. -/
theorem C111_files_violated : fileNameIn english 1000 = "1,000.kml".toList ∧ fileNameIn classic 1000 = "1000.kml".toList := by
  decide +kernel

/-- C111.  So has the line 12345 in an error message. -/
theorem C111_errors_violated :
    reportError german "mismatched tag".toList 12345 2 = "mismatched tag on line 12.345 at offset 2".toList := by
  decide +kernel

/-- The model does tell locales apart: a stream that keeps the global locale would write and read other texts. -/
example : putDouble german (false, 5 / 2) = "2,5".toList ∧ getDouble german "2.5".toList = (false, 25) ∧
    getDouble german "2,5".toList = (false, 5 / 2) ∧ toStringDouble german (false, 5 / 2) = "2.5".toList ∧
    putInt english (-1234567) = "-1,234,567".toList := by
  decide +kernel

example : Stands "2.5".toList false (5 / 2) := ⟨⟨false, [2], [5], none⟩, ⟨by simp, by simp⟩, rfl, rfl, by
  norm_num [Numeral.magnitude, Numeral.power, wholeValue, fracValue]⟩

/-! ## C112: `LocaleC` -/

/-- The current locale is there, and new objects are new. -/
def World.Fine (w : World) : Prop := w.seen.isSome ∧ ∀ e ∈ w.live, e.1 < w.next

/-- What a program should see when `l` is the locale around it: the same, and the classic one for numbers inside blocks. -/
def Prog.expected (l : Loc) : Prog → List Loc
  | .skip => []
  | .look => [l]
  | .seq p q => p.expected l ++ q.expected l
  | .block _ p => p.expected classic

/-- `newlocale` always succeeds. -/
def Prog.Lucky : Prog → Prop
  | .skip => True
  | .look => True
  | .seq p q => p.Lucky ∧ q.Lucky
  | .block ok p => ok = true ∧ p.Lucky

theorem run_expected (p : Prog) : ∀ (w : World) (l : Loc), w.Fine → p.Lucky → w.seen = some l →
    ∃ k, w.next ≤ k ∧ p.run w = .ok ({ w with next := k }, p.expected l) := by
  induction p with
  | skip => intro w l _ _ _; exact ⟨w.next, le_refl _, rfl⟩
  | look =>
    intro w l _ _ hs
    refine ⟨w.next, le_refl _, ?_⟩
    show (match w.seen with | some l => _ | none => _) = _
    rw [hs]
    rfl
  | seq p q ihp ihq =>
    intro w l hw hl hs
    obtain ⟨k, hk, e1⟩ := ihp w l hw hl.1 hs
    obtain ⟨k', hk', e2⟩ := ihq { w with next := k } l ⟨hw.1, fun e he => lt_of_lt_of_le (hw.2 e he) hk⟩ hl.2 hs
    refine ⟨k', le_trans hk hk', ?_⟩
    show (p.run w).bind _ = _
    rw [e1]
    show (q.run { w with next := k }).bind _ = _
    rw [e2]
    rfl
  | block ok p ih =>
    intro w l hw hl hs
    obtain ⟨rfl, hl⟩ := hl
    have hseen : (construct w true).1.seen = some classic := by
      show List.lookup w.next ((w.next, classic) :: w.live) = _
      simp
    obtain ⟨k, hk, e1⟩ := ih (construct w true).1 classic ⟨by rw [hseen]; rfl, by
      intro e he
      rcases List.mem_cons.1 he with rfl | he
      · exact Nat.lt_succ_self _
      · exact Nat.lt_succ_of_lt (hw.2 e he)⟩ hl hseen
    refine ⟨k, le_trans (Nat.le_succ _) hk, ?_⟩
    show (p.run (construct w true).1).bind _ = _
    rw [e1]
    show (destroy { (construct w true).1 with next := k } w.current).bind _ = _
    have hd : destroy { (construct w true).1 with next := k } w.current = .ok { w with next := k } := by
      show (if (List.lookup w.next ((w.next, classic) :: w.live)).isSome then Outcome.ok _ else _) = _
      rw [if_pos (by simp)]
      congr 1
      show World.mk w.global (List.filter (fun e => e.1 != w.next) ((w.next, classic) :: w.live)) k w.current = _
      congr 1
      rw [List.filter_cons_of_neg (by simp)]
      exact List.filter_eq_self.2 fun e he => by
        have := hw.2 e he
        simp; omega
    rw [hd]
    rfl

/-- C112.  As long as `newlocale` succeeds, a program with `LocaleC` objects in blocks, however nested and one after the
other, sees the classic locale inside the blocks and the locale it had outside; at the end its locale is the one it had,
and exactly the locale objects that were there before are there. -/
theorem C112_restored (p : Prog) (w : World) (hw : w.Fine) (hp : p.Lucky) {l : Loc} (hl : w.seen = some l) :
    ∃ w', p.run w = .ok (w', p.expected l) ∧ w'.current = w.current ∧ w'.live = w.live ∧ w'.seen = some l := by
  obtain ⟨k, _, h⟩ := run_expected p w l hw hp hl
  exact ⟨_, h, rfl, rfl, hl⟩

/-- C112.  When `newlocale` fails, the end of the block frees the locale of the caller: an object that the caller still
uses is gone, and with the global locale this is undefined. -/
theorem C112_failure_violated :
    (Prog.block false .look).run ⟨german, [], 0, .global⟩ = .ub ∧
      (Prog.seq (.block false .skip) .look).run ⟨english, [(0, german)], 1, .object 0⟩ = .ub := ⟨rfl, rfl⟩

/-- C112.  Not only the category of numbers is the classic one inside the block: the others are too. -/
theorem C112_others_violated : ∃ w', (Prog.seq .look (.block true .look)).run ⟨german, [], 0, .global⟩ =
    .ok (w', [german, classic]) ∧ german.others ≠ classic.others := ⟨_, rfl, by decide⟩

/-- A program with two blocks, one in the other, in a thread with its own locale. -/
example : ∃ (w : World) (p : Prog), w.Fine ∧ p.Lucky ∧ w.seen = some german ∧
    p.expected german = [german, classic, classic, german] :=
  ⟨⟨english, [(4, german)], 7, .object 4⟩, .seq .look (.seq (.block true (.seq .look (.block true .look))) .look),
    ⟨rfl, by simp⟩, ⟨trivial, ⟨rfl, trivial, rfl, trivial⟩, trivial⟩, rfl, rfl⟩

/-- C112.  On Windows the classic locale is seen inside a block, for numbers only, but the end of every block is undefined: it frees
a text of the C library. -/
theorem C112_windows_violated (l named : Loc) :
    (∀ n, putNat (constructWin l).1 n = putNat classic n) ∧ (constructWin l).1.others = l.others ∧
    destroyWin (constructWin l).1 named (constructWin l).2 = .ub := ⟨fun _ => rfl, rfl, rfl⟩

end Kml.Locale
