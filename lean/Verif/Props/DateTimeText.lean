import Verif.Model.DateTimeText
import Verif.Spec.DateTimeText
import Verif.Props.DateTime
/-! Property C95: the text of dates and times. -/
namespace Kml.DateTime
open Kml

/-- The date and time a `struct tm` stands for. -/
def Stamp.tm (t : Stamp) : Tm := ⟨(t.y : Int) - 1900, t.mo - 1, t.d, t.h, t.mi, t.s⟩

theorem digitVal_numeral : ∀ k < 10, digitVal (numerals.getD k '?') = some k := by decide
theorem numeral_blank : ∀ k < 10, (numerals.getD k '?' = ' ') = False := by decide
theorem digitChar_numeral : ∀ k < 10, digitChar k = numerals.getD k '?' := by decide

theorem digitVal_lt {c : Char} {d : Nat} (h : digitVal c = some d) : d < 10 := by
  unfold digitVal at h
  split at h
  · rename_i hc
    cases h
    have h2 : c.toNat ≤ '9'.toNat := hc.2
    have e : '9'.toNat = 57 := rfl
    have e0 : '0'.toNat = 48 := rfl
    omega
  · cases h

theorem getNumber_dd {lo to n : Nat} {s : Str} (hn : n < 100) (h1 : lo ≤ n) (h2 : n ≤ to) :
    getNumber lo to 2 (dd n ++ s) = some (n, s) := by
  have a := digitVal_numeral (n / 10) (by omega)
  have b := digitVal_numeral (n % 10) (by omega)
  have c := numeral_blank (n / 10) (by omega)
  have e : n / 10 * 10 + n % 10 = n := by omega
  have f : n / 10 * 10 ≤ to := by omega
  simp only [getNumber, dd, List.cons_append, List.nil_append, List.dropWhile_cons, c, decide_false, Bool.false_eq_true, if_false,
    a, Option.bind_some, digitsLoop, b, if_pos f, e]
  rw [if_pos ⟨h1, h2⟩]

theorem getNumber_dddd {n : Nat} {s : Str} (hn : n ≤ 9999) : getNumber 0 9999 4 (dddd n ++ s) = some (n, s) := by
  have a := digitVal_numeral (n / 100 / 10) (by omega)
  have b := digitVal_numeral (n / 100 % 10) (by omega)
  have a' := digitVal_numeral (n % 100 / 10) (by omega)
  have b' := digitVal_numeral (n % 100 % 10) (by omega)
  have c := numeral_blank (n / 100 / 10) (by omega)
  have f1 : n / 100 / 10 * 10 ≤ 9999 := by omega
  have f2 : (n / 100 / 10 * 10 + n / 100 % 10) * 10 ≤ 9999 := by omega
  have f3 : ((n / 100 / 10 * 10 + n / 100 % 10) * 10 + n % 100 / 10) * 10 ≤ 9999 := by omega
  have e : ((n / 100 / 10 * 10 + n / 100 % 10) * 10 + n % 100 / 10) * 10 + n % 100 % 10 = n := by omega
  simp only [getNumber, dddd, dd, List.cons_append, List.nil_append, List.dropWhile_cons, c, decide_false, Bool.false_eq_true, if_false,
    a, Option.bind_some, digitsLoop, b, a', b', if_pos f1, if_pos f2, if_pos f3, e]
  rw [if_pos ⟨Nat.zero_le _, hn⟩]

/-- **C95, reading.** A text of the form `2008-10-03T09:25:42Z` with numbers in their ranges is read as it stands. -/
theorem C95_read_partial (t : Stamp) (h : t.InRange) : create t.text = some t.tm := by
  obtain ⟨hy, hm1, hm2, hd1, hd2, hh, hmi, hs⟩ := h
  unfold create parseXsdDateTime Stamp.text
  simp only [List.append_assoc]
  rw [getNumber_dddd hy]
  simp only [Option.bind_some, List.cons_append, List.nil_append, matchChar, if_true]
  rw [getNumber_dd (by omega) hm1 hm2]
  simp only [Option.bind_some, if_true]
  rw [getNumber_dd (by omega) hd1 hd2]
  simp only [Option.bind_some, if_true]
  rw [getNumber_dd (by omega) (Nat.zero_le _) hh]
  simp only [Option.bind_some, if_true]
  rw [getNumber_dd (by omega) (Nat.zero_le _) hmi]
  simp only [Option.bind_some, if_true]
  rw [getNumber_dd (by omega) (Nat.zero_le _) hs]
  simp only [Option.bind_some, if_true, Option.map_some]
  rfl

theorem getNumber_range {lo to n : Nat} {s : Str} {r : Nat × Str} (h : getNumber lo to n s = some r) : lo ≤ r.1 ∧ r.1 ≤ to := by
  unfold getNumber at h
  split at h
  · cases h
  · rename_i c s' _
    rcases hd : digitVal c with _ | d
    · rw [hd] at h; cases h
    · rw [hd, Option.bind_some] at h
      split at h
      · rename_i hr
        cases h
        exact hr
      · cases h

/-- **C95, ranges.** Whatever is read is a date and time in range. -/
theorem C95_ranges (s : Str) (tm : Tm) (h : create s = some tm) : ∃ t : Stamp, t.InRange ∧ tm = t.tm := by
  unfold create parseXsdDateTime at h
  rcases e1 : getNumber 0 9999 4 s with _ | y <;> rw [e1] at h
  · cases h
  rw [Option.bind_some] at h
  rcases e2 : matchChar '-' y.2 with _ | s2 <;> rw [e2] at h
  · cases h
  rw [Option.bind_some] at h
  rcases e3 : getNumber 1 12 2 s2 with _ | m <;> rw [e3] at h
  · cases h
  rw [Option.bind_some] at h
  rcases e4 : matchChar '-' m.2 with _ | s3 <;> rw [e4] at h
  · cases h
  rw [Option.bind_some] at h
  rcases e5 : getNumber 1 31 2 s3 with _ | d <;> rw [e5] at h
  · cases h
  rw [Option.bind_some] at h
  rcases e6 : matchChar 'T' d.2 with _ | s4 <;> rw [e6] at h
  · cases h
  rw [Option.bind_some] at h
  rcases e7 : getNumber 0 23 2 s4 with _ | hh <;> rw [e7] at h
  · cases h
  rw [Option.bind_some] at h
  rcases e8 : matchChar ':' hh.2 with _ | s5 <;> rw [e8] at h
  · cases h
  rw [Option.bind_some] at h
  rcases e9 : getNumber 0 59 2 s5 with _ | mi <;> rw [e9] at h
  · cases h
  rw [Option.bind_some] at h
  rcases e10 : matchChar ':' mi.2 with _ | s6 <;> rw [e10] at h
  · cases h
  rw [Option.bind_some] at h
  rcases e11 : getNumber 0 61 2 s6 with _ | sec <;> rw [e11] at h
  · cases h
  rw [Option.bind_some] at h
  rcases e12 : matchChar 'Z' sec.2 with _ | s7 <;> rw [e12] at h
  · cases h
  cases h
  exact ⟨⟨y.1, m.1, d.1, hh.1, mi.1, sec.1⟩, ⟨(getNumber_range e1).2, (getNumber_range e3).1, (getNumber_range e3).2,
    (getNumber_range e5).1, (getNumber_range e5).2, (getNumber_range e7).2, (getNumber_range e9).2, (getNumber_range e11).2⟩, rfl⟩

theorem two_dd {n : Nat} (h : n < 100) : two n = dd n := by
  unfold two dd
  rw [digitChar_numeral _ (by omega), digitChar_numeral _ (by omega), Nat.mod_eq_of_lt (a := n / 10) (by omega)]

theorem year_dddd {n : Nat} (h1 : 1000 ≤ n) (h2 : n ≤ 9999) : year n = dddd n := by
  unfold year dddd dd
  rw [if_neg (by omega), if_neg (by omega), if_neg (by omega), if_pos (by omega),
    digitChar_numeral _ (by omega), digitChar_numeral _ (by omega), digitChar_numeral _ (by omega), digitChar_numeral _ (by omega)]
  have e1 : n / 1000 = n / 100 / 10 := by omega
  have e3 : n / 10 % 10 = n % 100 / 10 := by omega
  have e4 : n % 10 = n % 100 % 10 := by omega
  rw [e1, e3, ← e4]
  rfl

theorem year_length {n : Nat} (h : n ≤ 9999) : (year n).length ≤ 4 := by
  unfold year
  repeat' split
  all_goals first | simp | (exfalso; omega)

theorem time_ok (t : Stamp) (h : t.InRange) : getXsdTime t.tm = .ok (dd t.h ++ chars! ":" ++ dd t.mi ++ chars! ":" ++ dd t.s) := by
  obtain ⟨hy, hm1, hm2, hd1, hd2, hh, hmi, hs⟩ := h
  unfold getXsdTime Stamp.tm
  simp only [Int.toNat_natCast]
  rw [two_dd (by omega), two_dd (by omega), two_dd (by omega)]
  rfl

theorem date_ok (t : Stamp) (h : t.InRange) : getXsdDate t.tm = .ok (year t.y ++ chars! "-" ++ dd t.mo ++ chars! "-" ++ dd t.d) := by
  obtain ⟨hy, hm1, hm2, hd1, hd2, hh, hmi, hs⟩ := h
  unfold getXsdDate Stamp.tm
  have e : ((t.y : Int) - 1900 + 1900).toNat = t.y := by omega
  have e' : t.mo - 1 + 1 = t.mo := by omega
  simp only [Int.toNat_natCast, e, e']
  rw [two_dd (by omega), two_dd (by omega)]
  have := year_length hy
  unfold doStrftime
  rw [if_pos]
  simp only [List.length_append, dd, List.length_cons, List.length_nil]
  omega

/-- **C95, no text is too long.** The text of whatever was read fits the buffers. -/
theorem C95_safe (s : Str) (tm : Tm) (h : create s = some tm) :
    (getXsdTime tm).Safe ∧ (getXsdDate tm).Safe ∧ (getXsdDateTime tm).Safe := by
  obtain ⟨t, ht, rfl⟩ := C95_ranges s tm h
  refine ⟨⟨_, time_ok t ht⟩, ⟨_, date_ok t ht⟩, ?_⟩
  unfold getXsdDateTime
  rw [date_ok t ht, time_ok t ht]
  exact ⟨_, rfl⟩

/-- **C95, writing.** The date, the time and the text of both, for years from 1000 on. -/
theorem C95_write_partial (t : Stamp) (h : t.InRange) (hy : 1000 ≤ t.y) :
    getXsdDateTime t.tm = .ok t.text ∧ getXsdDate t.tm = .ok (dddd t.y ++ chars! "-" ++ dd t.mo ++ chars! "-" ++ dd t.d) ∧
      getXsdTime t.tm = .ok (dd t.h ++ chars! ":" ++ dd t.mi ++ chars! ":" ++ dd t.s) := by
  have e := date_ok t h
  rw [year_dddd hy h.1] at e
  refine ⟨?_, e, time_ok t h⟩
  unfold getXsdDateTime
  rw [e, time_ok t h]
  show Outcome.ok _ = Outcome.ok _
  unfold Stamp.text
  simp only [List.append_assoc]

/-- **C95, round trip.** What was read from any text, written and read again, is the same; and a text in the form is written as it
was. -/
theorem C95_round_partial (s : Str) (tm : Tm) (h : create s = some tm) (hy : 1000 ≤ tm.year + 1900) :
    ∃ text, getXsdDateTime tm = .ok text ∧ create text = some tm ∧ ∀ t : Stamp, t.InRange → s = t.text → text = s := by
  obtain ⟨t, ht, rfl⟩ := C95_ranges s tm h
  have hy' : 1000 ≤ t.y := by unfold Stamp.tm at hy; simp only at hy; omega
  refine ⟨_, (C95_write_partial t ht hy').1, C95_read_partial t ht, fun t' ht' e => ?_⟩
  subst e
  rw [C95_read_partial t' ht'] at h
  have e' : t'.tm = t.tm := Option.some.inj h
  obtain ⟨-, a1, -⟩ := ht
  obtain ⟨-, b1, -⟩ := ht'
  cases t with | mk y mo d hh mi s =>
  cases t' with | mk y' mo' d' hh' mi' s' =>
  unfold Stamp.tm at e'
  simp only [Tm.mk.injEq] at e'
  simp only at a1 b1
  obtain ⟨q1, q2, q3, q4, q5, q6⟩ := e'
  have r1 : y' = y := by omega
  have r2 : mo' = mo := by omega
  have r3 : d' = d := by omega
  have r4 : hh' = hh := by omega
  have r5 : mi' = mi := by omega
  have r6 : s' = s := by omega
  subst r1 r2 r3 r4 r5 r6
  rfl

/-! ### The order of times -/

/-- A date of the calendar from 1970 on, and a second of that day. -/
def Stamp.Proper (t : Stamp) : Prop :=
  t.InRange ∧ 1970 ≤ t.y ∧ (t.d : Int) ≤ daysInMonth t.y t.mo ∧ t.s ≤ 59

/-- The date. -/
def Stamp.date (t : Stamp) : Date := ⟨t.y, t.mo, t.d⟩

theorem Stamp.Proper.valid {t : Stamp} (h : t.Proper) : t.date.Valid := by
  obtain ⟨⟨h1, h2, h3, h4, h5, h6⟩, h7, h8, h9⟩ := h
  refine ⟨?_, h2, h3, ?_, h8⟩
  · show (1970 : Int) ≤ (t.y : Int)
    omega
  · show (1 : Int) ≤ (t.d : Int)
    omega

/-- **C95, the time.** `ToTimeT` counts 86400 seconds for each day since the first of January 1970. -/
theorem C95_time_partial (t : Stamp) (h : t.Proper) : ∃ n : Nat, dayAfter n = t.date ∧
    toTimeT t.text = 86400 * n + 3600 * t.h + 60 * t.mi + t.s := by
  obtain ⟨n, hn⟩ := C17_every_date _ h.valid
  refine ⟨n, hn, ?_⟩
  unfold toTimeT
  rw [C95_read_partial t h.1]
  have := C17_days n t.h t.mi t.s
  rw [hn] at this
  exact this

/-- A number that orders dates as their texts are ordered. -/
def Date.rank (x : Date) : Int := x.y * 372 + x.m * 31 + x.d

theorem days_le (y : Int) (m : Nat) : 28 ≤ daysInMonth y m ∧ daysInMonth y m ≤ 31 := by
  unfold daysInMonth
  repeat' split
  all_goals omega

theorem rank_next (x : Date) (hx : x.Valid) : x.rank < x.next.rank := by
  obtain ⟨hy, hm1, hm2, hd1, hd2⟩ := hx
  have := days_le x.y x.m
  unfold Date.next Date.rank
  repeat' split
  all_goals simp only
  all_goals omega

theorem dayAfter_valid (n : Nat) : (dayAfter n).Valid := by
  induction n with
  | zero => exact ⟨by decide, by decide, by decide, by decide, by decide⟩
  | succ n ih => exact next_valid _ ih

theorem rank_mono {m n : Nat} (h : m < n) : (dayAfter m).rank < (dayAfter n).rank := by
  induction n with
  | zero => omega
  | succ n ih =>
    have := rank_next _ (dayAfter_valid n)
    rcases Nat.lt_succ_iff_lt_or_eq.1 h with h | rfl
    · exact Int.lt_trans (ih h) this
    · exact this

theorem lt_append {a a' b b' : Str} (h : a.length = a'.length) : a ++ b < a' ++ b' ↔ a < a' ∨ (a = a' ∧ b < b') := by
  induction a generalizing a' with
  | nil =>
    cases a' with
    | nil => simp
    | cons c a' => simp at h
  | cons c a ih =>
    cases a' with
    | nil => simp at h
    | cons c' a' =>
      have h' : a.length = a'.length := by simpa using h
      rw [List.cons_append, List.cons_append, List.cons_lt_cons_iff, List.cons_lt_cons_iff, ih h']
      constructor
      · rintro (k | ⟨rfl, k | ⟨rfl, k⟩⟩)
        · exact .inl (.inl k)
        · exact .inl (.inr ⟨rfl, k⟩)
        · exact .inr ⟨rfl, k⟩
      · rintro ((k | ⟨rfl, k⟩) | ⟨k, k2⟩)
        · exact .inl k
        · exact .inr ⟨rfl, .inl k⟩
        · cases k
          exact .inr ⟨rfl, .inr ⟨rfl, k2⟩⟩

theorem numeral_lt : ∀ j < 10, ∀ k < 10, (numerals.getD j '?' < numerals.getD k '?' ↔ j < k) ∧
    (numerals.getD j '?' = numerals.getD k '?' ↔ j = k) := by decide

theorem dd_lt {m n : Nat} (hm : m < 100) (hn : n < 100) : (dd m < dd n ↔ m < n) ∧ (dd m = dd n ↔ m = n) := by
  have a := numeral_lt (m / 10) (by omega) (n / 10) (by omega)
  have b := numeral_lt (m % 10) (by omega) (n % 10) (by omega)
  unfold dd
  simp only [List.cons_lt_cons_iff, List.cons.injEq, and_true, a.1, a.2, b.1, b.2, List.lt_irrefl, and_false, or_false]
  constructor <;> omega

theorem dd_append {m n : Nat} {a b : Str} (hm : m < 100) (hn : n < 100) : dd m ++ a < dd n ++ b ↔ m < n ∨ (m = n ∧ a < b) := by
  have h := dd_lt hm hn
  have e : (dd m).length = (dd n).length := rfl
  rw [lt_append e, h.1, h.2]

theorem dddd_append {m n : Nat} {a b : Str} (hm : m ≤ 9999) (hn : n ≤ 9999) :
    dddd m ++ a < dddd n ++ b ↔ m < n ∨ (m = n ∧ a < b) := by
  unfold dddd
  rw [List.append_assoc, List.append_assoc, dd_append (by omega) (by omega), dd_append (by omega) (by omega)]
  constructor
  · rintro (h | ⟨h, h' | ⟨h', k⟩⟩)
    · exact .inl (by omega)
    · exact .inl (by omega)
    · exact .inr ⟨by omega, k⟩
  · rintro (h | ⟨rfl, k⟩)
    · by_cases e : m / 100 = n / 100
      · exact .inr ⟨e, .inl (by omega)⟩
      · exact .inl (by omega)
    · exact .inr ⟨rfl, .inr ⟨rfl, k⟩⟩

theorem same_char {c : Char} {a b : Str} : c :: a < c :: b ↔ a < b := by
  rw [List.cons_lt_cons_iff]
  exact ⟨fun h => h.elim (fun h => absurd h (Std.lt_irrefl)) (·.2), fun h => .inr ⟨rfl, h⟩⟩

/-- **C95, order.** Of two times from 1970 on the one with the lesser text is the earlier one. -/
theorem C95_order_partial (t u : Stamp) (ht : t.Proper) (hu : u.Proper) :
    t.text < u.text ↔ toTimeT t.text < toTimeT u.text := by
  obtain ⟨n, hn, en⟩ := C95_time_partial t ht
  obtain ⟨m, hm, em⟩ := C95_time_partial u hu
  obtain ⟨⟨hy, hm1, hm2, hd1, hd2, hh, hmi, -⟩, -, -, hs⟩ := ht
  obtain ⟨⟨hy', hm1', hm2', hd1', hd2', hh', hmi', -⟩, -, -, hs'⟩ := hu
  rw [en, em]
  unfold Stamp.text
  simp only [List.append_assoc, List.cons_append, List.nil_append]
  rw [dddd_append hy hy', same_char, dd_append (by omega) (by omega), same_char, dd_append (by omega) (by omega), same_char,
    dd_append (by omega) (by omega), same_char, dd_append (by omega) (by omega), same_char, dd_append (by omega) (by omega)]
  have hz : (['Z'] < ['Z']) = False := by decide
  rw [hz, and_false, or_false]
  have r1 : (dayAfter n).rank = (t.y : Int) * 372 + t.mo * 31 + t.d := by rw [hn]; rfl
  have r2 : (dayAfter m).rank = (u.y : Int) * 372 + u.mo * 31 + u.d := by rw [hm]; rfl
  rcases Nat.lt_trichotomy n m with h | h | h
  · have := rank_mono h
    rw [r1, r2] at this
    constructor <;> intro <;> omega
  · subst h
    have e : t.date = u.date := hn.symm.trans hm
    unfold Stamp.date at e
    simp only [Date.mk.injEq] at e
    obtain ⟨e1, e2, e3⟩ := e
    constructor <;> intro <;> omega
  · have := rank_mono h
    rw [r1, r2] at this
    constructor <;> intro <;> omega

theorem digit_same : ∀ k < 10, Nat.digitChar k = digitChar k := by decide

theorem year_digits (n : Nat) (h : n < 10000) : year n = Nat.toDigits 10 n := by
  have step : ∀ m, 10 ≤ m → Nat.toDigits 10 m = Nat.toDigits 10 (m / 10) ++ [digitChar (m % 10)] := fun m hm => by
    rw [Nat.toDigits_of_base_le (by omega) hm, digit_same _ (by omega)]
  have last : ∀ m, m < 10 → Nat.toDigits 10 m = [digitChar m] := fun m hm => by
    rw [Nat.toDigits_of_lt_base hm, digit_same _ hm]
  unfold year
  split
  · next h1 => rw [last n h1]
  split
  · next h1 h2 => rw [step n (by omega), last _ (by omega)]; rfl
  split
  · next h1 h2 h3 =>
    rw [step n (by omega), step (n / 10) (by omega), last _ (by omega), Nat.div_div_eq_div_mul]; rfl
  · next h1 h2 h3 =>
    rw [step n (by omega), step (n / 10) (by omega), step (n / 10 / 10) (by omega), last _ (by omega),
      show n / 10 / 10 / 10 = n / 1000 by omega, show n / 10 / 10 = n / 100 by omega]
    rfl

theorem digitVal_char : ∀ k < 10, digitVal (digitChar k) = some k := by decide

theorem char_blank : ∀ k < 10, (digitChar k = ' ') = False := by decide

theorem getNumber_year {n : Nat} {s : Str} (hn : n ≤ 9999) : getNumber 0 9999 4 (year n ++ '-' :: s) = some (n, '-' :: s) := by
  have hz : digitVal '-' = none := by decide
  unfold year
  split
  · next h =>
    simp only [getNumber, List.cons_append, List.nil_append, List.dropWhile_cons, char_blank n h, decide_false, Bool.false_eq_true,
      if_false, digitVal_char n h, Option.bind_some, digitsLoop, hz]
    rw [if_pos ⟨Nat.zero_le _, hn⟩]
  split
  · next h0 h =>
    have f1 : n / 10 * 10 ≤ 9999 := by omega
    have e : n / 10 * 10 + n % 10 = n := by omega
    simp only [getNumber, List.cons_append, List.nil_append, List.dropWhile_cons, char_blank (n / 10) (by omega), decide_false,
      Bool.false_eq_true, if_false, digitVal_char (n / 10) (by omega), digitVal_char (n % 10) (by omega), Option.bind_some,
      digitsLoop, hz, if_pos f1, e]
    rw [if_pos ⟨Nat.zero_le _, hn⟩]
  split
  · next h0 h =>
    have f1 : n / 100 * 10 ≤ 9999 := by omega
    have f2 : (n / 100 * 10 + n / 10 % 10) * 10 ≤ 9999 := by omega
    have e : (n / 100 * 10 + n / 10 % 10) * 10 + n % 10 = n := by omega
    simp only [getNumber, List.cons_append, List.nil_append, List.dropWhile_cons, char_blank (n / 100) (by omega), decide_false,
      Bool.false_eq_true, if_false, digitVal_char (n / 100) (by omega), digitVal_char (n / 10 % 10) (by omega),
      digitVal_char (n % 10) (by omega), Option.bind_some, digitsLoop, hz, if_pos f1, if_pos f2, e]
    rw [if_pos ⟨Nat.zero_le _, hn⟩]
  split
  · next h0 h =>
    have f1 : n / 1000 * 10 ≤ 9999 := by omega
    have f2 : (n / 1000 * 10 + n / 100 % 10) * 10 ≤ 9999 := by omega
    have f3 : ((n / 1000 * 10 + n / 100 % 10) * 10 + n / 10 % 10) * 10 ≤ 9999 := by omega
    have e : ((n / 1000 * 10 + n / 100 % 10) * 10 + n / 10 % 10) * 10 + n % 10 = n := by omega
    simp only [getNumber, List.cons_append, List.nil_append, List.dropWhile_cons, char_blank (n / 1000) (by omega), decide_false,
      Bool.false_eq_true, if_false, digitVal_char (n / 1000) (by omega), digitVal_char (n / 100 % 10) (by omega),
      digitVal_char (n / 10 % 10) (by omega),
      digitVal_char (n % 10) (by omega), Option.bind_some, digitsLoop, if_pos f1, if_pos f2, if_pos f3, e]
    rw [if_pos ⟨Nat.zero_le _, hn⟩]
  · omega

/-- **C95, written and read.** Whatever was read, of any year, is read again from its text; and that is the year in decimal without
leading zeros, with the other numbers in two digits each. -/
theorem C95_again (s : Str) (tm : Tm) (h : create s = some tm) : ∃ t : Stamp, t.InRange ∧ tm = t.tm ∧
    getXsdDateTime tm = .ok (Nat.toDigits 10 t.y ++ chars! "-" ++ dd t.mo ++ chars! "-" ++ dd t.d ++ chars! "T" ++
      dd t.h ++ chars! ":" ++ dd t.mi ++ chars! ":" ++ dd t.s ++ chars! "Z") ∧
    create (Nat.toDigits 10 t.y ++ chars! "-" ++ dd t.mo ++ chars! "-" ++ dd t.d ++ chars! "T" ++
      dd t.h ++ chars! ":" ++ dd t.mi ++ chars! ":" ++ dd t.s ++ chars! "Z") = some tm := by
  obtain ⟨t, ht, rfl⟩ := C95_ranges s tm h
  refine ⟨t, ht, rfl, ?_, ?_⟩
  · unfold getXsdDateTime
    rw [date_ok t ht, time_ok t ht, year_digits t.y (by have := ht.1; omega)]
    show Outcome.ok _ = Outcome.ok _
    simp only [List.append_assoc]
  · obtain ⟨hy, hm1, hm2, hd1, hd2, hh, hmi, hs⟩ := ht
    rw [← year_digits t.y (by omega)]
    unfold create parseXsdDateTime
    simp only [List.append_assoc, List.cons_append, List.nil_append]
    rw [getNumber_year hy]
    simp only [Option.bind_some, matchChar, if_true]
    rw [getNumber_dd (by omega) hm1 hm2]
    simp only [Option.bind_some, if_true]
    rw [getNumber_dd (by omega) hd1 hd2]
    simp only [Option.bind_some, if_true]
    rw [getNumber_dd (by omega) (Nat.zero_le _) hh]
    simp only [Option.bind_some, if_true]
    rw [getNumber_dd (by omega) (Nat.zero_le _) hmi]
    simp only [Option.bind_some, if_true]
    rw [getNumber_dd (by omega) (Nat.zero_le _) hs]
    simp only [Option.bind_some, if_true, Option.map_some]
    rfl

/-- **C95 fails: the calendar.** The 31st of February is read, and is the time of the 2nd of March. -/
theorem C95_calendar_violated : (create (chars! "2008-02-31T00:00:00Z")).isSome = true ∧
    toTimeT (chars! "2008-02-31T00:00:00Z") = toTimeT (chars! "2008-03-02T00:00:00Z") := by decide +kernel

/-- **C95 fails: what follows.** Text after the `Z` is accepted, as are blanks before numbers and numbers of fewer digits. -/
theorem C95_lax_violated : create (chars! "2008-10-03T09:25:42Zfoo") = create (chars! "2008-10-03T09:25:42Z") ∧
    create (chars! "2008- 1-3T9:5:2Z") = create (chars! "2008-01-03T09:05:02Z") := by decide +kernel

/-- **C95 fails: other forms.** Fractions of seconds and time zones, which `xsd:dateTime` has, are not read. -/
theorem C95_forms_violated : create (chars! "2008-10-03T09:25:42.5Z") = none ∧ create (chars! "2008-10-03T09:25:42+02:00") = none := by
  decide +kernel

/-- **C95 fails: telling failure.** The time of a text that is not read is that of the first of January 1970. -/
theorem C95_failure_violated : create (chars! "foo") = none ∧
    toTimeT (chars! "foo") = toTimeT (chars! "1970-01-01T00:00:00Z") := by decide +kernel

/-- **C95 fails: early years.** The text of a year before 1000 lacks its zeros. -/
theorem C95_year_violated : ∃ t, create (chars! "0987-10-03T09:25:42Z") = some t ∧
    getXsdDateTime t = .ok (chars! "987-10-03T09:25:42Z") :=
  ⟨⟨-913, 9, 3, 9, 25, 42⟩, by decide +kernel, by decide +kernel⟩

/-- The hypotheses are met. -/
example : (⟨2008, 2, 29, 23, 59, 59⟩ : Stamp).Proper ∧ (⟨2008, 2, 29, 23, 59, 59⟩ : Stamp).text = chars! "2008-02-29T23:59:59Z" := by
  refine ⟨⟨by unfold Stamp.InRange; decide, by decide, by decide, by decide⟩, by decide⟩

end Kml.DateTime
