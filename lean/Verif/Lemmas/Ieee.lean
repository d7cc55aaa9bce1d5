import Verif.Model.Ieee
import Mathlib.Tactic.Linarith
import Mathlib.Tactic.NormNum
import Mathlib.Tactic.Positivity
import Mathlib.Tactic.FieldSimp
import Mathlib.Tactic.Ring

/-!
# Lemmas about rounding
-/

namespace Kml.Ieee

set_option exponentiation.threshold 3000
set_option maxRecDepth 10000

theorem nearest_near (q : ℚ) : |(nearest q : ℚ) - q| ≤ 1 / 2 := by
  have h1 := Int.floor_le q
  have h2 := Int.lt_floor_add_one q
  unfold nearest
  split
  · next h =>
    rw [abs_le]
    rcases h with h | h
    · constructor <;> linarith
    · constructor <;> linarith [h.1]
  · next h =>
    have h3 : ¬ q - ⌊q⌋ < 1 / 2 := fun h' => h (Or.inl h')
    push_cast
    rw [abs_le]
    constructor <;> linarith

theorem nearest_eq {q : ℚ} {n : ℤ} (h : |q - n| < 1 / 2) : nearest q = n := by
  have h1 := nearest_near q
  rw [abs_lt] at h
  rw [abs_le] at h1
  have h2 : (nearest q : ℚ) < n + 1 := by linarith
  have h3 : (n : ℚ) < nearest q + 1 := by linarith
  have h4 : nearest q < n + 1 := by exact_mod_cast h2
  have h5 : n < nearest q + 1 := by exact_mod_cast h3
  omega

theorem nearest_int (n : ℤ) : nearest n = n := nearest_eq (by simp)

theorem log_eq {b : ℕ} (hb : 1 < b) {x : ℚ} {e : ℤ} (h1 : (b : ℚ) ^ e ≤ x) (h2 : x < (b : ℚ) ^ (e + 1)) :
    Int.log b x = e := by
  have hb' : (1 : ℚ) < b := by exact_mod_cast hb
  have hx : 0 < x := lt_of_lt_of_le (zpow_pos (by linarith) e) h1
  have h3 := Int.zpow_log_le_self hb hx
  have h4 := Int.lt_zpow_succ_log_self hb x
  have h5 : Int.log b x < e + 1 := (zpow_lt_zpow_iff_right₀ hb').1 (lt_of_le_of_lt h3 h2)
  have h6 : e < Int.log b x + 1 := (zpow_lt_zpow_iff_right₀ hb').1 (lt_of_le_of_lt h1 h4)
  omega

theorem exponent_eq {x : ℚ} {e : ℤ} (h1 : (10 : ℚ) ^ e ≤ x) (h2 : x < (10 : ℚ) ^ (e + 1)) : exponent x = e :=
  log_eq (b := 10) (by norm_num) (by exact_mod_cast h1) (by exact_mod_cast h2)

theorem exponent_le {x : ℚ} (hx : 0 < x) : (10 : ℚ) ^ exponent x ≤ x := by
  have := Int.zpow_log_le_self (b := 10) (by norm_num) hx
  exact_mod_cast this

theorem lt_exponent (x : ℚ) : x < (10 : ℚ) ^ (exponent x + 1) := by
  have := Int.lt_zpow_succ_log_self (b := 10) (by norm_num) x
  exact_mod_cast this

theorem ulp_pos (q : ℚ) : 0 < ulp q := zpow_pos (by norm_num) _

theorem ulp_le {q : ℚ} (hq : 0 < q) : ulp q ≤ max (q * 2 ^ (-52 : ℤ)) (2 ^ (-1074 : ℤ)) := by
  have h : (2 : ℚ) ^ Int.log 2 q ≤ q := by
    have := Int.zpow_log_le_self (b := 2) (by norm_num) hq
    exact_mod_cast this
  unfold ulp
  rcases le_total (Int.log 2 q - 52) (-1074) with h' | h'
  · rw [max_eq_right h']
    exact le_max_right _ _
  · rw [max_eq_left h', sub_eq_add_neg, zpow_add₀ (by norm_num)]
    exact le_max_of_le_left (mul_le_mul_of_nonneg_right h (by positivity))

theorem rounded_near (q : ℚ) : |rounded q - q| ≤ ulp q / 2 := by
  have hu := ulp_pos q
  have h := nearest_near (q / ulp q)
  unfold rounded
  have e : (nearest (q / ulp q) : ℚ) * ulp q - q = ((nearest (q / ulp q) : ℚ) - q / ulp q) * ulp q := by
    field_simp
  rw [e, abs_mul, abs_of_pos hu]
  calc _ ≤ 1 / 2 * ulp q := mul_le_mul_of_nonneg_right h hu.le
    _ = _ := by ring

/-- What reading is off by. -/
theorem rounded_err {q : ℚ} (hq : 0 < q) : |rounded q - q| ≤ max (q * 2 ^ (-53 : ℤ)) (2 ^ (-1075 : ℤ)) := by
  have h1 := rounded_near q
  have h2 := ulp_le hq
  have e1 : (2 : ℚ) ^ (-53 : ℤ) = 2 ^ (-52 : ℤ) / 2 := by
    rw [show (-53 : ℤ) = -52 - 1 by norm_num, zpow_sub_one₀ (by norm_num)]; ring
  have e2 : (2 : ℚ) ^ (-1075 : ℤ) = 2 ^ (-1074 : ℤ) / 2 := by
    rw [show (-1075 : ℤ) = -1074 - 1 by norm_num, zpow_sub_one₀ (by norm_num)]; ring
  rw [e1, e2]
  rcases le_max_iff.1 h2 with h | h
  · exact le_max_of_le_left (by
      rw [← mul_div_assoc]
      exact le_trans h1 (div_le_div_of_nonneg_right h (by norm_num)))
  · exact le_max_of_le_right (le_trans h1 (div_le_div_of_nonneg_right h (by norm_num)))

/-- The number that 15 digits stand for. -/
def decimal (n : ℕ) (e : ℤ) : ℚ := n * 10 ^ (e - 14)

theorem unit_pos (e : ℤ) : (0 : ℚ) < 10 ^ e := zpow_pos (by norm_num) e

theorem ten_succ (e : ℤ) : (10 : ℚ) ^ (e + 1) = 10 * 10 ^ e := by
  rw [zpow_add_one₀ (by norm_num)]; ring

theorem ten_unit (e : ℤ) : (10 : ℚ) ^ e = 10 ^ 14 * 10 ^ (e - 14) := by
  rw [show e = (14 : ℕ) + (e - 14) by push_cast; ring, zpow_add₀ (by norm_num), zpow_natCast]
  norm_num

theorem significant_of_near {y : ℚ} {n : ℕ} {e : ℤ} (h1 : 10 ^ 14 ≤ n) (h2 : n < 10 ^ 15)
    (h3 : |y - decimal n e| < 10 ^ (e - 14) / 2)
    (h4 : n = 10 ^ 14 → y < 10 ^ e → |y - decimal n e| < 10 ^ (e - 14) / 20) : significant y = (n, e) := by
  have hu := unit_pos (e - 14)
  have te := ten_unit e
  have h1' : (10 ^ 14 : ℚ) ≤ n := by exact_mod_cast h1
  have h2' : (n : ℚ) + 1 ≤ 10 ^ 15 := by exact_mod_cast h2
  have h3' := abs_lt.1 h3
  unfold decimal at h3' h4 h3
  by_cases hy : (10 : ℚ) ^ e ≤ y
  · have hE : exponent y = e := by
      refine exponent_eq hy ?_
      rw [ten_succ, te]
      nlinarith [h3'.2]
    have hN : nearest (y / 10 ^ (e - 14)) = n := by
      apply nearest_eq
      rw [show y / (10 : ℚ) ^ (e - 14) - ((n : ℤ) : ℚ) = (y - n * 10 ^ (e - 14)) / 10 ^ (e - 14) by
        field_simp; push_cast; ring]
      rw [abs_div, abs_of_pos hu, div_lt_iff₀ hu]
      linarith
    unfold significant
    rw [hE, hN, Int.toNat_natCast, if_neg (by omega)]
  · have hn : n = 10 ^ 14 := by
      by_contra hne
      have hge : 10 ^ 14 + 1 ≤ n := by omega
      have hge' : (10 ^ 14 : ℚ) + 1 ≤ n := by exact_mod_cast hge
      apply hy
      rw [te]
      nlinarith [h3'.1]
    have h5 := h4 hn (lt_of_not_ge hy)
    have h5' := abs_lt.1 h5
    have hnq : (n : ℚ) = 10 ^ 14 := by exact_mod_cast hn
    rw [hnq] at h5' h5
    have hu10 : (10 : ℚ) ^ (e - 14) = 10 * 10 ^ (e - 1 - 14) := by
      rw [← ten_succ]; congr 1; ring
    have hv := unit_pos (e - 1 - 14)
    have hE : exponent y = e - 1 := by
      refine exponent_eq ?_ ?_
      · rw [ten_unit (e - 1)]
        rw [hu10] at h5'
        linarith [h5'.1]
      · rw [show e - 1 + 1 = e by ring]; exact lt_of_not_ge hy
    have hN : nearest (y / 10 ^ (e - 1 - 14)) = ((10 ^ 15 : ℕ) : ℤ) := by
      apply nearest_eq
      rw [show y / (10 : ℚ) ^ (e - 1 - 14) - (((10 ^ 15 : ℕ) : ℤ) : ℚ)
          = (y - 10 ^ 15 * 10 ^ (e - 1 - 14)) / 10 ^ (e - 1 - 14) by
        field_simp; push_cast; ring]
      rw [abs_div, abs_of_pos hv, div_lt_iff₀ hv]
      rw [hu10] at h5
      rw [show y - (10 : ℚ) ^ 15 * 10 ^ (e - 1 - 14) = y - 10 ^ 14 * (10 * 10 ^ (e - 1 - 14)) by ring]
      linarith
    unfold significant
    rw [hE, hN, Int.toNat_natCast, if_pos rfl, hn]
    congr 1
    ring

/-- The 15 digits are 15 digits, and off by at most half a unit of the last. -/
theorem significant_spec {x : ℚ} (hx : 0 < x) : 10 ^ 14 ≤ (significant x).1 ∧ (significant x).1 < 10 ^ 15 ∧
    |decimal (significant x).1 (significant x).2 - x| ≤ 10 ^ ((significant x).2 - 14) / 2 := by
  have hu := unit_pos (exponent x - 14)
  have h1 := exponent_le hx
  have h2 := lt_exponent x
  rw [ten_succ, ten_unit] at h2
  rw [ten_unit] at h1
  have hn := nearest_near (x / 10 ^ (exponent x - 14))
  have h3 : (10 ^ 14 : ℚ) ≤ x / 10 ^ (exponent x - 14) := by rw [le_div_iff₀ hu]; exact h1
  have h4 : x / 10 ^ (exponent x - 14) < (10 ^ 15 : ℚ) := by
    rw [div_lt_iff₀ hu]; calc x < _ := h2
      _ = _ := by ring
  have hn' := abs_le.1 hn
  have h5 : (10 ^ 14 : ℤ) - 1 < nearest (x / 10 ^ (exponent x - 14)) := by
    have : ((10 ^ 14 : ℤ) - 1 : ℚ) < nearest (x / 10 ^ (exponent x - 14)) := by push_cast; linarith [hn'.1]
    exact_mod_cast this
  have h6 : nearest (x / 10 ^ (exponent x - 14)) < (10 ^ 15 : ℤ) + 1 := by
    have : (nearest (x / 10 ^ (exponent x - 14)) : ℚ) < (10 ^ 15 : ℤ) + 1 := by push_cast; linarith [hn'.2]
    exact_mod_cast this
  obtain ⟨k, hk⟩ : ∃ k : ℕ, nearest (x / 10 ^ (exponent x - 14)) = k :=
    ⟨(nearest (x / 10 ^ (exponent x - 14))).toNat, by omega⟩
  rw [hk] at h5 h6 hn
  have hd : |(k : ℚ) * 10 ^ (exponent x - 14) - x| ≤ 10 ^ (exponent x - 14) / 2 := by
    rw [show (k : ℚ) * 10 ^ (exponent x - 14) - x
      = ((k : ℤ) - x / 10 ^ (exponent x - 14)) * 10 ^ (exponent x - 14) by field_simp; push_cast; ring]
    rw [abs_mul, abs_of_pos hu]
    calc _ ≤ 1 / 2 * 10 ^ (exponent x - 14) := mul_le_mul_of_nonneg_right hn hu.le
      _ = _ := by ring
  unfold significant
  rw [hk, Int.toNat_natCast]
  split
  · next he =>
    refine ⟨by norm_num, by norm_num, ?_⟩
    subst he
    unfold decimal
    have e1 : (10 : ℚ) ^ (exponent x + 1 - 14) = 10 * 10 ^ (exponent x - 14) := by
      rw [← ten_succ]; congr 1; ring
    rw [e1]
    rw [show ((10 ^ 14 : ℕ) : ℚ) * (10 * 10 ^ (exponent x - 14)) = ((10 ^ 15 : ℕ) : ℚ) * 10 ^ (exponent x - 14) by
      push_cast; ring]
    refine le_trans hd ?_
    linarith
  · next he => exact ⟨by omega, by omega, hd⟩

theorem unit_le {a b : ℤ} (h : a ≤ b) : (10 : ℚ) ^ a ≤ 10 ^ b := zpow_le_zpow_right₀ (by norm_num) h

theorem decimal_pos {n : ℕ} {e : ℤ} (h : 10 ^ 14 ≤ n) : 0 < decimal n e :=
  mul_pos (by exact_mod_cast (by omega : 0 < n)) (unit_pos _)

/-- What reading 15 digits is off by, in units of the last of them. -/
theorem rounded_decimal {n : ℕ} {e : ℤ} (h1 : 10 ^ 14 ≤ n) (h2 : n < 10 ^ 15) (he : -309 ≤ e) :
    |rounded (decimal n e) - decimal n e| < 10 ^ (e - 14) / 2 ∧
      (-308 ≤ e → n = 10 ^ 14 → |rounded (decimal n e) - decimal n e| < 10 ^ (e - 14) / 20) := by
  have hu := unit_pos (e - 14)
  have hr := rounded_err (decimal_pos (e := e) h1)
  have h2' : (n : ℚ) + 1 ≤ 10 ^ 15 := by exact_mod_cast h2
  have hw : (2 : ℚ) ^ (-1075 : ℤ) < 10 ^ (-323 : ℤ) / 2 := by norm_num
  have hw' : (2 : ℚ) ^ (-1075 : ℤ) < 10 ^ (-322 : ℤ) / 20 := by norm_num
  have hp : (2 : ℚ) ^ (-53 : ℤ) = 1 / 9007199254740992 := by norm_num
  refine ⟨lt_of_le_of_lt hr (max_lt ?_ ?_), fun he' hn => lt_of_le_of_lt hr (max_lt ?_ ?_)⟩
  · unfold decimal
    rw [hp]
    nlinarith
  · have := unit_le (a := -323) (b := e - 14) (by omega)
    exact lt_of_lt_of_le hw (div_le_div_of_nonneg_right this (by norm_num))
  · unfold decimal
    have : (n : ℚ) = 10 ^ 14 := by exact_mod_cast hn
    rw [hp, this]
    linarith
  · have := unit_le (a := -322) (b := e - 14) (by omega)
    exact lt_of_lt_of_le hw' (div_le_div_of_nonneg_right this (by norm_num))

/-- 15 digits in the range of the normal numbers are still there after they were read. -/
theorem significant_toDouble {n : ℕ} {e : ℤ} (h1 : 10 ^ 14 ≤ n) (h2 : n < 10 ^ 15)
    (hlo : -308 ≤ e ∨ e = -309 ∧ n ≠ 10 ^ 14) (hhi : e ≤ 307 ∨ e = 308 ∧ n ≤ 179769313486231) :
    significant (toDouble (decimal n e)) = (n, e) := by
  have hu := unit_pos (e - 14)
  have hd := decimal_pos (e := e) h1
  obtain ⟨h3, h4⟩ := rounded_decimal h1 h2 (e := e) (by omega)
  have h3' := abs_lt.1 h3
  have hlt : rounded (decimal n e) < 2 ^ 1024 := by
    have h2' : (n : ℚ) + 1 ≤ 10 ^ 15 := by exact_mod_cast h2
    have : rounded (decimal n e) < (n + 1 / 2) * 10 ^ (e - 14) := by
      unfold decimal at h3' ⊢
      linarith [h3'.2]
    refine lt_trans this ?_
    rcases hhi with h | ⟨h, hn⟩
    · calc (n + 1 / 2) * (10 : ℚ) ^ (e - 14) ≤ 10 ^ 15 * 10 ^ (e - 14) :=
            mul_le_mul_of_nonneg_right (by linarith) hu.le
        _ ≤ 10 ^ 15 * 10 ^ (293 : ℤ) := mul_le_mul_of_nonneg_left (unit_le (by omega)) (by norm_num)
        _ < 2 ^ 1024 := by norm_num
    · have hn' : (n : ℚ) ≤ 179769313486231 := by exact_mod_cast hn
      subst h
      calc (n + 1 / 2) * (10 : ℚ) ^ (308 - 14 : ℤ) ≤ (179769313486231 + 1 / 2) * 10 ^ (308 - 14 : ℤ) :=
            mul_le_mul_of_nonneg_right (by linarith) hu.le
        _ < 2 ^ 1024 := by norm_num
  unfold toDouble
  rw [if_neg (not_le.2 hd), if_neg (not_le.2 hlt)]
  exact significant_of_near h1 h2 h3 (fun hn _ => h4 (by omega) hn)

/-- A magnitude above 0 on the grid of the doubles. -/
def OnGrid (x : ℚ) : Prop := 0 < x ∧ x < 2 ^ 1024 ∧ ∃ m : ℤ, x = m * 2 ^ (-1074 : ℤ)

theorem onGrid_toDouble {q : ℚ} (h : 0 < toDouble q) : OnGrid (toDouble q) := by
  refine ⟨h, ?_, ?_⟩
  · unfold toDouble
    split
    · norm_num
    · split
      · unfold maxDouble; norm_num
      · next h' => exact not_le.1 h'
  · unfold toDouble
    split
    · exact ⟨0, by norm_num⟩
    · split
      · exact ⟨(2 ^ 53 - 1) * 2 ^ 2045, by unfold maxDouble; norm_num⟩
      · unfold rounded ulp
        obtain ⟨j, hj⟩ : ∃ j : ℕ, max (Int.log 2 q - 52) (-1074) = j + -1074 :=
          ⟨(max (Int.log 2 q - 52) (-1074) + 1074).toNat, by omega⟩
        generalize nearest (q / 2 ^ max (Int.log 2 q - 52) (-1074)) = k
        rw [hj, zpow_add₀ (by norm_num), zpow_natCast]
        exact ⟨k * 2 ^ j, by push_cast; ring⟩

theorem ulp_small {t : ℚ} (h0 : 0 < t) (ht : t < 10 ^ (-308 : ℤ)) : ulp t = 2 ^ (-1074 : ℤ) := by
  have h : (2 : ℚ) ^ Int.log 2 t ≤ t := by
    have := Int.zpow_log_le_self (b := 2) (by norm_num) h0
    exact_mod_cast this
  have h1 : (2 : ℚ) ^ Int.log 2 t < 2 ^ (-1022 : ℤ) :=
    lt_of_le_of_lt h (lt_trans ht (by norm_num))
  have h2 : Int.log 2 t < -1022 := (zpow_lt_zpow_iff_right₀ (by norm_num)).1 h1
  unfold ulp
  rw [max_eq_right (by omega)]

theorem toDouble_grid {t : ℚ} {m : ℤ} (h0 : 0 < t) (ht : t < 10 ^ (-308 : ℤ))
    (h : |t - m * 2 ^ (-1074 : ℤ)| < 2 ^ (-1074 : ℤ) / 2) : toDouble t = m * 2 ^ (-1074 : ℤ) := by
  have hr : rounded t = m * 2 ^ (-1074 : ℤ) := by
    unfold rounded
    rw [ulp_small h0 ht]
    have hp : (0 : ℚ) < 2 ^ (-1074 : ℤ) := by positivity
    congr 2
    apply nearest_eq
    rw [show t / (2 : ℚ) ^ (-1074 : ℤ) - m = (t - m * 2 ^ (-1074 : ℤ)) / 2 ^ (-1074 : ℤ) by field_simp,
      abs_div, abs_of_pos hp, div_lt_iff₀ hp]
    linarith
  have h1 := rounded_err h0
  have hlt : rounded t < 2 ^ 1024 := by
    have h2 := abs_le.1 h1
    have h3 : max (t * 2 ^ (-53 : ℤ)) ((2 : ℚ) ^ (-1075 : ℤ)) ≤ 1 := by
      refine max_le ?_ (by norm_num)
      have : t < 1 := lt_trans ht (by norm_num)
      have hp : (2 : ℚ) ^ (-53 : ℤ) = 1 / 9007199254740992 := by norm_num
      rw [hp]; linarith
    have : t < 1 := lt_trans ht (by norm_num)
    have : rounded t < 2 := by linarith [h2.2]
    exact lt_trans this (by norm_num)
  unfold toDouble
  rw [if_neg (not_le.2 h0), if_neg (not_le.2 hlt), hr]

theorem toDouble_edge : significant (toDouble (decimal (10 ^ 14) (-309))) = (10 ^ 14, -309) := by
  have hd : decimal (10 ^ 14) (-309) = 1 / 10 ^ 309 := by unfold decimal; norm_num
  have h : toDouble (decimal (10 ^ 14) (-309)) = (202402253307311 : ℤ) * 2 ^ (-1074 : ℤ) := by
    apply toDouble_grid
    · exact decimal_pos (le_refl _)
    · rw [hd]; norm_num
    · rw [hd, abs_lt]; constructor <;> norm_num
  rw [h]
  apply significant_of_near (le_refl _) (by norm_num)
  · rw [hd, abs_lt]; constructor <;> norm_num
  · intro _ hlt
    exact absurd hlt (by norm_num)

theorem toDouble_great : significant (toDouble (decimal 179769313486232 308)) = (179769313486232, 308) := by
  have hd : decimal 179769313486232 308 = 179769313486232 * 10 ^ 294 := by unfold decimal; norm_num
  have hl : Int.log 2 (decimal 179769313486232 308) = 1024 := by
    apply log_eq (b := 2) (by norm_num)
    · rw [hd]; norm_num
    · rw [hd]; norm_num
  have hr := rounded_near (decimal 179769313486232 308)
  unfold ulp at hr
  rw [hl] at hr
  have hge : 2 ^ 1024 ≤ rounded (decimal 179769313486232 308) := by
    have h1 := (abs_le.1 hr).1
    rw [hd] at h1 ⊢
    norm_num at h1 ⊢
    linarith
  unfold toDouble
  rw [if_neg (not_le.2 (decimal_pos (by norm_num))), if_pos hge]
  apply significant_of_near (by norm_num) (by norm_num)
  · rw [hd, abs_lt]; unfold maxDouble; constructor <;> norm_num
  · intro h; exact absurd h (by norm_num)

/-- The 15 digits that are written for a double are those that are written for the double that is read from them. -/
theorem significant_again {x : ℚ} (hx : OnGrid x) :
    significant (toDouble (decimal (significant x).1 (significant x).2)) = significant x := by
  obtain ⟨h0, hlt, m, hm⟩ := hx
  obtain ⟨h1, h2, h3⟩ := significant_spec h0
  generalize hs : significant x = s at h1 h2 h3 ⊢
  obtain ⟨n, e⟩ := s
  simp only at h1 h2 h3 ⊢
  have hu := unit_pos (e - 14)
  have h1' : (10 ^ 14 : ℚ) ≤ n := by exact_mod_cast h1
  have h2' : (n : ℚ) + 1 ≤ 10 ^ 15 := by exact_mod_cast h2
  have h3' := abs_le.1 h3
  have hxn : (n - 1 / 2 : ℚ) * 10 ^ (e - 14) ≤ x := by
    unfold decimal at h3'
    linarith [h3'.2]
  by_cases he : e ≤ -310
  · have ht : decimal n e < 10 ^ (-308 : ℤ) := by
      unfold decimal
      calc (n : ℚ) * 10 ^ (e - 14) ≤ 10 ^ 15 * 10 ^ (e - 14) := mul_le_mul_of_nonneg_right (by linarith) hu.le
        _ ≤ 10 ^ 15 * 10 ^ (-324 : ℤ) := mul_le_mul_of_nonneg_left (unit_le (by omega)) (by norm_num)
        _ < _ := by norm_num
    have h : toDouble (decimal n e) = m * 2 ^ (-1074 : ℤ) := by
      apply toDouble_grid (decimal_pos h1) ht
      rw [← hm]
      refine lt_of_le_of_lt h3 ?_
      have := unit_le (a := e - 14) (b := -324) (by omega)
      have hw : (10 : ℚ) ^ (-324 : ℤ) < 2 ^ (-1074 : ℤ) := by norm_num
      exact div_lt_div_of_pos_right (lt_of_le_of_lt this hw) (by norm_num)
    rw [h, ← hm, hs]
  · have hhi : e ≤ 308 := by
      by_contra hc
      have := unit_le (a := 295) (b := e - 14) (by omega)
      have h4 : (10 ^ 14 - 1 / 2 : ℚ) * 10 ^ (295 : ℤ) ≤ x := by
        refine le_trans ?_ hxn
        exact mul_le_mul (by linarith) this (by positivity) (by linarith)
      have h5 : (2 : ℚ) ^ 1024 < (10 ^ 14 - 1 / 2 : ℚ) * 10 ^ (295 : ℤ) := by norm_num
      linarith
    by_cases he8 : e = 308
    · subst he8
      have hn : n ≤ 179769313486232 := by
        by_contra hc
        have hc' : (179769313486233 : ℚ) ≤ n := by exact_mod_cast (by omega : 179769313486233 ≤ n)
        have h4 : (179769313486233 - 1 / 2 : ℚ) * 10 ^ (308 - 14 : ℤ) ≤ x :=
          le_trans (mul_le_mul_of_nonneg_right (by linarith) hu.le) hxn
        have h5 : (2 : ℚ) ^ 1024 < (179769313486233 - 1 / 2 : ℚ) * 10 ^ (308 - 14 : ℤ) := by norm_num
        linarith
      by_cases hn' : n = 179769313486232
      · subst hn'; exact toDouble_great
      · exact significant_toDouble h1 h2 (Or.inl (by norm_num)) (Or.inr ⟨rfl, by omega⟩)
    · by_cases he9 : e = -309 ∧ n = 10 ^ 14
      · obtain ⟨rfl, rfl⟩ := he9; exact toDouble_edge
      · exact significant_toDouble h1 h2 (by omega) (by omega)

end Kml.Ieee
