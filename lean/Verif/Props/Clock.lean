import Verif.Model.Clock
import Verif.Props.DoubleArith

/-!
# C113: the clock
-/

namespace Kml.Ieee

set_option exponentiation.threshold 3000

theorem fl_close {q : ℚ} (h0 : 0 ≤ q) (h1 : q < 2 ^ 34) : |fl q - q| ≤ q * 2 ^ (-53 : ℤ) + 2 ^ (-1075 : ℤ) := by
  unfold fl
  rw [if_neg (not_lt.2 h0)]
  unfold toDouble
  rcases eq_or_lt_of_le h0 with h | h
  · subst h
    rw [if_pos (le_refl _)]
    norm_num
  · rw [if_neg (not_le.2 h)]
    have hr := rounded_err h
    have hm : max (q * 2 ^ (-53 : ℤ)) (2 ^ (-1075 : ℤ)) ≤ q * 2 ^ (-53 : ℤ) + 2 ^ (-1075 : ℤ) :=
      max_le (le_add_of_nonneg_right (by positivity)) (le_add_of_nonneg_left (by positivity))
    have hk := le_trans hr hm
    have hb : rounded q < 2 ^ 1024 := by
      have h2 := (abs_le.1 hk).2
      have h3 : q * 2 ^ (-53 : ℤ) ≤ 2 ^ 34 * 2 ^ (-53 : ℤ) := mul_le_mul_of_nonneg_right h1.le (by positivity)
      have h4 : (2 : ℚ) ^ 34 * 2 ^ (-53 : ℤ) ≤ 1 := by norm_num
      have h5 : (2 : ℚ) ^ (-1075 : ℤ) ≤ 1 := zpow_le_one_of_nonpos₀ (by norm_num) (by norm_num)
      have h6 : (2 : ℚ) ^ 34 + 2 < 2 ^ 1024 := by norm_num
      linarith
    rw [if_neg (not_le.2 hb)]
    exact hk

theorem fl_int {m : ℤ} (h : |m| < 2 ^ 53) : fl m = m := by
  have := fl_signed (signed_of_int (m := m) (k := 0) h (by norm_num) (by norm_num))
  simpa using this

/-- What the clock is off by: less than half a microsecond until the year 2106. -/
theorem clock_close {sec usec : ℤ} (h0 : 0 ≤ sec) (h1 : sec < 2 ^ 32) (h2 : 0 ≤ usec) (h3 : usec < 1000000) :
    |getMicroTime sec usec - (sec + usec / 1000000)| < 1 / 2000000 := by
  unfold getMicroTime
  have e1 : fl (sec : ℚ) = sec := fl_int (by rw [abs_of_nonneg h0]; omega)
  have e2 : fl (usec : ℚ) = usec := fl_int (by rw [abs_of_nonneg h2]; omega)
  have e3 : fl (1000000 : ℚ) = 1000000 := by
    have := fl_int (m := 1000000) (by norm_num)
    exact_mod_cast this
  rw [e1, e2, e3]
  have hs0 : (0 : ℚ) ≤ sec := by exact_mod_cast h0
  have hs1 : (sec : ℚ) < 2 ^ 32 := by exact_mod_cast h1
  have hu0 : (0 : ℚ) ≤ usec := by exact_mod_cast h2
  have hu1 : (usec : ℚ) < 1000000 := by exact_mod_cast h3
  generalize (sec : ℚ) = s at *
  have hq0 : (0 : ℚ) ≤ usec / 1000000 := by positivity
  have hq1 : (usec : ℚ) / 1000000 < 1 := by rw [div_lt_one (by norm_num)]; exact hu1
  generalize (usec : ℚ) / 1000000 = u at *
  have c1 := fl_close hq0 (lt_trans hq1 (by norm_num))
  have tiny : (2 : ℚ) ^ (-1075 : ℤ) ≤ 2 ^ (-60 : ℤ) := zpow_le_zpow_right₀ (by norm_num) (by norm_num)
  have b1 : u * 2 ^ (-53 : ℤ) ≤ 1 * 2 ^ (-53 : ℤ) := mul_le_mul_of_nonneg_right hq1.le (by positivity)
  have n1 : (2 : ℚ) ^ (-53 : ℤ) < 1 / 10 ^ 15 := by norm_num
  have n2 : (2 : ℚ) ^ (-60 : ℤ) < 1 / 10 ^ 15 := by norm_num
  have c1' : |fl u - u| < 2 / 10 ^ 15 := by
    refine lt_of_le_of_lt c1 ?_
    linarith
  have hf0 : 0 ≤ fl u := by
    have := fl_mono hq0
    have hz : fl 0 = 0 := by
      have := fl_int (m := 0) (by norm_num)
      exact_mod_cast this
    rwa [hz] at this
  have hf1 : fl u < 1 + 2 / 10 ^ 15 := by
    have := (abs_lt.1 c1').2
    linarith
  have hlt : s + fl u < 2 ^ 32 + 2 := by linarith
  have c2 := fl_close (q := s + fl u) (by linarith) (lt_trans hlt (by norm_num))
  have b2 : (s + fl u) * 2 ^ (-53 : ℤ) ≤ (2 ^ 32 + 2) * 2 ^ (-53 : ℤ) :=
    mul_le_mul_of_nonneg_right hlt.le (by positivity)
  have n3 : ((2 : ℚ) ^ 32 + 2) * 2 ^ (-53 : ℤ) < 48 / 10 ^ 8 := by norm_num
  have c3 : |fl (s + fl u) - (s + u)| ≤ |fl (s + fl u) - (s + fl u)| + |fl u - u| := by
    have : fl (s + fl u) - (s + u) = (fl (s + fl u) - (s + fl u)) + (fl u - u) := by ring
    rw [this]
    exact abs_add_le _ _
  refine lt_of_le_of_lt c3 ?_
  have n4 : (48 : ℚ) / 10 ^ 8 + 1 / 10 ^ 15 + 2 / 10 ^ 15 < 1 / 2000000 := by norm_num
  have c2' : |fl (s + fl u) - (s + fl u)| < 48 / 10 ^ 8 + 1 / 10 ^ 15 :=
    lt_of_le_of_lt c2 (add_lt_add (lt_of_le_of_lt b2 n3) (lt_of_le_of_lt tiny n2))
  exact lt_trans (add_lt_add c2' c1') n4

/-- **C113, the clock tells microseconds.** From 1970 to 2106 the double that is given for a moment is the nearest one to no other
microsecond, so that it can be read off. -/
theorem C113_moment (sec usec : ℤ) (h0 : 0 ≤ sec) (h1 : sec < 2 ^ 32) (h2 : 0 ≤ usec) (h3 : usec < 1000000) :
    |getMicroTime sec usec - (sec + usec / 1000000)| < 1 / 2000000 ∧
    round (getMicroTime sec usec * 1000000) = sec * 1000000 + usec := by
  have h := clock_close h0 h1 h2 h3
  refine ⟨h, ?_⟩
  rw [round_eq, Int.floor_eq_iff]
  obtain ⟨ha, hb⟩ := abs_lt.1 h
  push_cast
  constructor <;> linarith

/-- **C113, time goes on.** Of two moments the later one has the greater time. -/
theorem C113_later (s u s' u' : ℤ) (h0 : 0 ≤ s) (h1 : s < 2 ^ 32) (h2 : 0 ≤ u) (h3 : u < 1000000) (k0 : 0 ≤ s') (k1 : s' < 2 ^ 32)
    (k2 : 0 ≤ u') (k3 : u' < 1000000) :
    getMicroTime s u < getMicroTime s' u' ↔ s < s' ∨ s = s' ∧ u < u' := by
  have a := (abs_lt.1 (clock_close h0 h1 h2 h3))
  have b := (abs_lt.1 (clock_close k0 k1 k2 k3))
  have key : ∀ {s u s' u' : ℤ} {x y : ℚ}, x - (s + u / 1000000) < 1 / 2000000 → -(1 / 2000000) < y - (s' + u' / 1000000) →
      s * 1000000 + u + 1 ≤ s' * 1000000 + u' → x < y := by
    intro s u s' u' x y hx hy h
    have h' : (s : ℚ) * 1000000 + u + 1 ≤ s' * 1000000 + u' := by exact_mod_cast h
    linarith
  constructor
  · intro h
    by_contra hn
    have hle : s' * 1000000 + u' ≤ s * 1000000 + u := by
      by_contra hc
      apply hn
      omega
    rcases eq_or_lt_of_le hle with he | hl
    · have e1 : s' = s := by omega
      have e2 : u' = u := by omega
      subst e1 e2
      exact lt_irrefl _ h
    · exact lt_asymm h (key b.2 a.1 (by omega))
  · intro h
    exact key a.2 b.1 (by omega)

/-- **C113, Windows.** From 1970 to 2038 the seconds and microseconds are the microseconds since 1970 of the file time. -/
theorem C113_windows_partial (high low : ℕ) (h : 116444736000000000 ≤ high * 2 ^ 32 + low)
    (hl : high * 2 ^ 32 + low < 116444736000000000 + 10000000 * 2 ^ 31) :
    0 ≤ (windowsTimeOfDay high low).1 ∧ (windowsTimeOfDay high low).1 < 2 ^ 31 ∧ 0 ≤ (windowsTimeOfDay high low).2 ∧
    (windowsTimeOfDay high low).2 < 1000000 ∧
    (windowsTimeOfDay high low).1 * 1000000 + (windowsTimeOfDay high low).2 =
      (((high * 2 ^ 32 + low - 116444736000000000) / 10 : ℕ) : ℤ) := by
  unfold windowsTimeOfDay toLong
  generalize high * 2 ^ 32 + low = v at *
  have e : (v / 10 + (2 ^ 64 - 11644473600000000)) % 2 ^ 64 = (v - 116444736000000000) / 10 := by omega
  rw [e]
  have hw : (v - 116444736000000000) / 10 < 1000000 * 2 ^ 31 := by omega
  generalize (v - 116444736000000000) / 10 = w at *
  have h1 : w / 1000000 % 2 ^ 32 = w / 1000000 := by omega
  have h2 : w % 1000000 % 2 ^ 32 = w % 1000000 := by omega
  dsimp only
  rw [h1, h2, if_pos (by omega), if_pos (by omega)]
  omega

/-- **C113, Windows, whenever.** For every file time after 1970 the microseconds are right, and the seconds are right but for
multiples of 2 ^ 32, and those that a `long` there can have. -/
theorem C113_windows_wraps (high low : ℕ) (h : 116444736000000000 ≤ high * 2 ^ 32 + low) (hh : high < 2 ^ 32)
    (hl : low < 2 ^ 32) :
    -2 ^ 31 ≤ (windowsTimeOfDay high low).1 ∧ (windowsTimeOfDay high low).1 < 2 ^ 31 ∧
    (2 ^ 32 : ℤ) ∣ (((high * 2 ^ 32 + low - 116444736000000000) / 10000000 : ℕ) : ℤ) - (windowsTimeOfDay high low).1 ∧
    (windowsTimeOfDay high low).2 = (((high * 2 ^ 32 + low - 116444736000000000) / 10 % 1000000 : ℕ) : ℤ) := by
  unfold windowsTimeOfDay toLong
  have hv : high * 2 ^ 32 + low < 2 ^ 64 := by omega
  generalize high * 2 ^ 32 + low = v at *
  have e : (v / 10 + (2 ^ 64 - 11644473600000000)) % 2 ^ 64 = (v - 116444736000000000) / 10 := by omega
  rw [e]
  have e2 : (v - 116444736000000000) / 10000000 = (v - 116444736000000000) / 10 / 1000000 := by omega
  rw [e2]
  generalize (v - 116444736000000000) / 10 = w at *
  have h2 : w % 1000000 % 2 ^ 32 = w % 1000000 := by omega
  dsimp only
  rw [h2, if_pos (by omega : w % 1000000 < 2 ^ 31)]
  generalize w / 1000000 = q
  refine ⟨?_, ?_, ?_, rfl⟩ <;> split <;> omega

example : 116444736000000000 ≤ 40000000 * 2 ^ 32 + 5 := by norm_num

/-- **C113 fails: Windows in 2038.** After 19 January 2038 the clock is more than a hundred years behind, and it went back in one
step. -/
theorem C113_windows_violated :
    (windowsTimeOfDay 32111902 3567643008).1 = 2147483647 ∧ (windowsTimeOfDay 32111902 3577643008).1 = -2147483648 := by
  constructor <;> decide +kernel

/-- The first microseconds of a second. -/
example : getMicroTime 1800000000 1 < getMicroTime 1800000000 2 :=
  (C113_later 1800000000 1 1800000000 2 (by norm_num) (by norm_num) (by norm_num) (by norm_num) (by norm_num) (by norm_num)
    (by norm_num) (by norm_num)).2 (Or.inr ⟨rfl, by norm_num⟩)

end Kml.Ieee
