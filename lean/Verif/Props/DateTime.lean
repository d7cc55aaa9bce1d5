import Verif.Model.DateTime
/-! Property C17: date conversion. -/
namespace Kml.DateTime

/-! Specification: the Gregorian calendar, by its rules. -/

/-- A year (AD) is a leap year. -/
def LeapYear (y : Int) : Prop := (4 ∣ y ∧ ¬ 100 ∣ y) ∨ 400 ∣ y

instance (y : Int) : Decidable (LeapYear y) := by unfold LeapYear; infer_instance

/-- The number of days of a month (1 to 12). -/
def daysInMonth (y : Int) (m : Nat) : Int :=
  if m = 2 then (if LeapYear y then 29 else 28)
  else if m = 4 ∨ m = 6 ∨ m = 9 ∨ m = 11 then 30 else 31

/-- A calendar date: year AD, month 1 to 12, day from 1. -/
structure Date where
  y : Int
  m : Nat
  d : Int

def Date.Valid (x : Date) : Prop := 1970 ≤ x.y ∧ 1 ≤ x.m ∧ x.m ≤ 12 ∧ 1 ≤ x.d ∧ x.d ≤ daysInMonth x.y x.m

/-- The day after. -/
def Date.next (x : Date) : Date :=
  if x.d < daysInMonth x.y x.m then ⟨x.y, x.m, x.d + 1⟩
  else if x.m < 12 then ⟨x.y, x.m + 1, 1⟩
  else ⟨x.y + 1, 1, 1⟩

/-- `struct tm` for a date and a time of day. -/
def Date.tm (x : Date) (h mi s : Int) : Tm := ⟨x.y - 1900, x.m - 1, x.d, h, mi, s⟩

theorem isLeap_iff (y : Int) : isLeap (y - 1900) = true ↔ LeapYear y := by
  unfold isLeap LeapYear
  simp only [Int.sub_add_cancel, Bool.and_eq_true, Bool.or_eq_true, decide_eq_true_eq, ne_eq]
  have h4 : y.tmod 4 = 0 ↔ 4 ∣ y := (Int.dvd_iff_tmod_eq_zero).symm
  have h100 : y.tmod 100 = 0 ↔ 100 ∣ y := (Int.dvd_iff_tmod_eq_zero).symm
  have h400 : y.tmod 400 = 0 ↔ 400 ∣ y := (Int.dvd_iff_tmod_eq_zero).symm
  rw [h4, h100, h400]
  constructor
  · rintro ⟨h1, h2 | h2⟩
    · exact Or.inl ⟨h1, h2⟩
    · exact Or.inr h2
  · rintro (⟨h1, h2⟩ | h)
    · exact ⟨h1, Or.inl h2⟩
    · exact ⟨by omega, Or.inr h⟩

theorem yearLoop_succ (n : Nat) (year : Int) :
    yearLoop year (n + 1) = yearLoop year n + (if isLeap (year + n) then 366 else 365) := by
  induction n generalizing year with
  | zero => simp [yearLoop]
  | succ n ih =>
    rw [yearLoop, ih, yearLoop]
    have : year + 1 + (n : Int) = year + ((n + 1 : Nat) : Int) := by omega
    rw [this]
    omega

theorem daysInMonth_eq (y : Int) (m : Nat) (h1 : 1 ≤ m) (h2 : m ≤ 12) :
    monthLoop (isLeap (y - 1900)) m = monthLoop (isLeap (y - 1900)) (m - 1) + daysInMonth y m := by
  have hl := isLeap_iff y
  have hm : m = 1 ∨ m = 2 ∨ m = 3 ∨ m = 4 ∨ m = 5 ∨ m = 6 ∨ m = 7 ∨ m = 8 ∨ m = 9 ∨ m = 10 ∨ m = 11 ∨ m = 12 := by
    omega
  by_cases h : LeapYear y
  · rw [hl.2 h]
    rcases hm with rfl | rfl | rfl | rfl | rfl | rfl | rfl | rfl | rfl | rfl | rfl | rfl <;>
      simp [monthLoop, ndays, daysInMonth, h]
  · have hf : isLeap (y - 1900) = false := by
      cases hb : isLeap (y - 1900) with
      | false => rfl
      | true => exact absurd (hl.1 hb) h
    rw [hf]
    rcases hm with rfl | rfl | rfl | rfl | rfl | rfl | rfl | rfl | rfl | rfl | rfl | rfl <;>
      simp [monthLoop, ndays, daysInMonth, h]

/-- The epoch is 1 January 1970, and seconds are counted within the day. -/
theorem C17_epoch (h mi s : Int) : getTimeT ((⟨1970, 1, 1⟩ : Date).tm h mi s) = 3600 * h + 60 * mi + s := by
  simp only [getTimeT, Date.tm]
  have : (70 : Int) - 70 = 0 := rfl
  simp [yearLoop, monthLoop]
  omega

/-- The day after any date from 1970 on is 86400 seconds later. -/
theorem C17_next_day (x : Date) (hx : x.Valid) (h mi s : Int) :
    getTimeT (x.next.tm h mi s) = getTimeT (x.tm h mi s) + 86400 := by
  obtain ⟨hy, hm1, hm2, hd1, hd2⟩ := hx
  obtain ⟨y, m, d⟩ := x
  simp only at hy hm1 hm2 hd1 hd2
  unfold Date.next
  simp only
  split
  · simp only [getTimeT, Date.tm]; omega
  · have hlast : d = daysInMonth y m := by omega
    have hml := daysInMonth_eq y m hm1 hm2
    split
    · simp only [getTimeT, Date.tm]
      rw [show m + 1 - 1 = m by omega, hml]
      omega
    · have hm12 : m = 12 := by omega
      subst hm12
      simp only [getTimeT, Date.tm]
      have hn : (y + 1 - 1900 - 70).toNat = (y - 1900 - 70).toNat + 1 := by omega
      have hyear : (70 : Int) + ((y - 1900 - 70).toNat : Int) = y - 1900 := by omega
      rw [hn, yearLoop_succ, hyear]
      have hd : d = 31 := by rw [hlast]; rfl
      subst hd
      have h11 : ∀ b, monthLoop b (12 - 1) = if b then 335 else 334 := by decide
      have h0 : ∀ b, monthLoop b (1 - 1) = 0 := by decide
      rw [h11, h0]
      split <;> omega

/-- The hypotheses are met by the last day of February in a leap year that is a century. -/
example : (⟨2000, 2, 28⟩ : Date).Valid ∧ (⟨2000, 2, 28⟩ : Date).next = ⟨2000, 2, 29⟩ ∧
    (⟨2100, 2, 28⟩ : Date).next = ⟨2100, 3, 1⟩ := by
  refine ⟨⟨by decide, by decide, by decide, by decide, by decide⟩, by simp [Date.next, daysInMonth, LeapYear],
    by simp [Date.next, daysInMonth, LeapYear]⟩

/-- The `n`-th day after the epoch. -/
def dayAfter : Nat → Date
  | 0 => ⟨1970, 1, 1⟩
  | n + 1 => (dayAfter n).next

theorem next_valid (x : Date) (hx : x.Valid) : x.next.Valid := by
  obtain ⟨hy, hm1, hm2, hd1, hd2⟩ := hx
  unfold Date.next
  split
  · exact ⟨hy, hm1, hm2, by simp only; omega, by simp only; omega⟩
  · split
    · refine ⟨hy, by simp, by simp only; omega, by simp, ?_⟩
      simp only [daysInMonth]
      split
      · split <;> omega
      · split <;> omega
    · exact ⟨by simp only; omega, by simp, by simp, by simp, by simp [daysInMonth]⟩

/-- So the time of the `n`-th day after the epoch is exactly 86400 n seconds plus the time of day, for every `n`. -/
theorem C17_days (n : Nat) (h mi s : Int) :
    getTimeT ((dayAfter n).tm h mi s) = 86400 * n + 3600 * h + 60 * mi + s := by
  have hv : ∀ n, (dayAfter n).Valid := by
    intro n
    induction n with
    | zero => exact ⟨by decide, by decide, by decide, by decide, by decide⟩
    | succ n ih => exact next_valid _ ih
  induction n with
  | zero => rw [dayAfter, C17_epoch]; omega
  | succ n ih => rw [dayAfter, C17_next_day _ (hv n), ih]; omega

/-- Every valid date is some day after the epoch, so the previous theorem covers all of them. -/
theorem C17_every_date (x : Date) (hx : x.Valid) : ∃ n, dayAfter n = x := by
  have hprev : ∀ k : Nat, ∀ x : Date, x.Valid → (x.y - 1970) * 372 + (x.m - 1) * 31 + (x.d - 1) = k → ∃ n, dayAfter n = x := by
    intro k
    induction k using Nat.strongRecOn with
    | _ k ih =>
      intro x hx hk
      obtain ⟨y, m, d⟩ := x
      obtain ⟨hy, hm1, hm2, hd1, hd2⟩ := hx
      simp only at hy hm1 hm2 hd1 hd2 hk
      have hlen : ∀ y m, 28 ≤ daysInMonth y m ∧ daysInMonth y m ≤ 31 := by
        intro y m
        simp only [daysInMonth]
        split
        · split <;> omega
        · split <;> omega
      have hl := hlen y m
      by_cases h1 : 1 < d
      · obtain ⟨n, hn⟩ := ih (k - 1) (by omega) ⟨y, m, d - 1⟩ ⟨hy, hm1, hm2, by simp only; omega, by simp only; omega⟩
          (by simp only; omega)
        refine ⟨n + 1, ?_⟩
        rw [dayAfter, hn, Date.next, if_pos (by simp only; omega)]
        simp
      · have hd : d = 1 := by omega
        subst hd
        by_cases h2 : 1 < m
        · have hl' := hlen y (m - 1)
          obtain ⟨n, hn⟩ := ih ((y - 1970) * 372 + ((m - 1 : Nat) - 1) * 31 + (daysInMonth y (m - 1) - 1)).toNat (by omega)
            ⟨y, m - 1, daysInMonth y (m - 1)⟩ ⟨hy, by simp only; omega, by simp only; omega, by simp only; omega, by simp⟩
            (by simp only; omega)
          refine ⟨n + 1, ?_⟩
          rw [dayAfter, hn, Date.next, if_neg (by simp only; omega), if_pos (by simp only; omega)]
          simp only [Date.mk.injEq, true_and, and_true]
          omega
        · have hm : m = 1 := by omega
          subst hm
          by_cases h3 : 1970 < y
          · obtain ⟨n, hn⟩ := ih ((y - 1 - 1970) * 372 + 11 * 31 + 30).toNat (by omega)
              ⟨y - 1, 12, 31⟩ ⟨by simp only; omega, by simp, by simp, by simp, by simp [daysInMonth]⟩
              (by simp only; omega)
            refine ⟨n + 1, ?_⟩
            rw [dayAfter, hn, Date.next, if_neg (by simp [daysInMonth]), if_neg (by simp)]
            simp
          · exact ⟨0, by simp only [dayAfter, Date.mk.injEq, and_true]; omega⟩
  have hl : 0 ≤ (x.y - 1970) * 372 + (x.m - 1) * 31 + (x.d - 1) := by
    obtain ⟨hy, hm1, hm2, hd1, hd2⟩ := hx
    omega
  exact hprev _ x hx (Int.toNat_of_nonneg hl).symm

/-- Before 1970 the count is wrong: the years are not subtracted. -/
theorem C17_before_1970_violated : getTimeT ((⟨1969, 12, 31⟩ : Date).tm 0 0 0) = 31449600 := by decide

end Kml.DateTime
