import Verif.Model.Numbers

/-!
# A number library

`NumLib` has an instance: the numbers are the integers of at most 20 digits.  It is used in examples,
to show that the theorems that range over `NumLib` range over something.
-/

namespace Kml

/-- An optional minus sign and at least one digit. -/
def isIntText : Str → Bool
  | '-' :: c :: r => isDigit c && r.all isDigit && r.length ≤ 20
  | c :: r => isDigit c && r.all isDigit && r.length ≤ 20
  | [] => false

/-- The text up to the first line break, if it is an integer, and 0 otherwise. -/
def intText (s : Str) : Str :=
  if isIntText (s.takeWhile (· ≠ '\n')) then s.takeWhile (· ≠ '\n') else ['0']

theorem isIntText_cases {t : Str} (h : isIntText t = true) :
    ∃ c r, (t = c :: r ∨ t = '-' :: c :: r) ∧ isDigit c = true ∧ (∀ x ∈ r, isDigit x = true) ∧
      r.length ≤ 20 := by
  unfold isIntText at h
  split at h
  · next c r =>
    simp only [Bool.and_eq_true, List.all_eq_true, decide_eq_true_eq] at h
    exact ⟨c, r, Or.inr rfl, h.1.1, h.1.2, h.2⟩
  · next c r _ =>
    simp only [Bool.and_eq_true, List.all_eq_true, decide_eq_true_eq] at h
    exact ⟨c, r, Or.inl rfl, h.1.1, h.1.2, h.2⟩
  · cases h

theorem isNumText_of_int {t : Str} (h : isIntText t = true) : IsNumText t := by
  obtain ⟨c, r, ht, hc, hr, hl⟩ := isIntText_cases h
  refine ⟨⟨c, r, ht, hc⟩, ?_, ?_⟩
  · intro x hx
    rcases ht with rfl | rfl
    · rcases List.mem_cons.1 hx with rfl | hx
      · exact Or.inl hc
      · exact Or.inl (hr x hx)
    · rcases List.mem_cons.1 hx with rfl | hx
      · exact Or.inr (Or.inl rfl)
      · rcases List.mem_cons.1 hx with rfl | hx
        · exact Or.inl hc
        · exact Or.inl (hr x hx)
  · rcases ht with rfl | rfl <;> simp <;> omega

theorem isIntText_no_newline {t : Str} (h : isIntText t = true) : ∀ x ∈ t, (x != '\n') = true := by
  intro x hx
  have hd : ∀ y : Char, isDigit y = true → (y != '\n') = true := by
    intro y hy
    simp only [bne_iff_ne]
    rintro rfl
    revert hy; decide
  obtain ⟨c, r, ht, hc, hr, _⟩ := isIntText_cases h
  rcases ht with rfl | rfl
  · rcases List.mem_cons.1 hx with rfl | hx
    · exact hd _ hc
    · exact hd _ (hr x hx)
  · rcases List.mem_cons.1 hx with rfl | hx
    · decide
    · rcases List.mem_cons.1 hx with rfl | hx
      · exact hd _ hc
      · exact hd _ (hr x hx)

theorem intText_isInt (s : Str) : isIntText (intText s) = true := by
  unfold intText
  split
  · assumption
  · decide

theorem takeWhile_all {α} {p : α → Bool} {t r : List α} {c : α} (h : ∀ x ∈ t, p x = true)
    (hc : p c = false) : (t ++ c :: r).takeWhile p = t := by
  induction t with
  | nil => simp [hc]
  | cons x t ih =>
    simp only [List.cons_append]
    rw [List.takeWhile_cons_of_pos (h x (by simp)), ih (fun y hy => h y (by simp [hy]))]

theorem takeWhile_self {α} {p : α → Bool} {t : List α} (h : ∀ x ∈ t, p x = true) :
    t.takeWhile p = t := by
  induction t with
  | nil => rfl
  | cons x t ih =>
    rw [List.takeWhile_cons_of_pos (h x (by simp)), ih (fun y hy => h y (by simp [hy]))]

theorem intText_of_int {t : Str} (h : isIntText t = true) : intText t = t := by
  have hn : t.takeWhile (· ≠ '\n') = t :=
    takeWhile_self (fun x hx => by simpa using isIntText_no_newline h x hx)
  unfold intText
  rw [hn, if_pos h]

/-- The integers. -/
def NumLib.integers : NumLib where
  num := intText
  int := intText
  num_num s := intText_of_int (intText_isInt s)
  int_int s := intText_of_int (intText_isInt s)
  num_text s := isNumText_of_int (intText_isInt s)
  int_text s := isNumText_of_int (intText_isInt s)
  num_stop s r := by
    have h := intText_isInt s
    have hn : (intText s ++ '\n' :: r).takeWhile (· ≠ '\n') = intText s :=
      takeWhile_all (fun x hx => by simpa using isIntText_no_newline h x hx) (by decide)
    rw [intText, hn, if_pos h]
  num_small := by decide
  int_small := by decide

end Kml
