import Verif.Lemmas.IeeeNear
import Verif.Spec.Ieee
import Verif.Model.Lit

/-!
# C109: numbers keep their value

What becomes of a number that is parsed from a document and written again, with doubles as IEEE 754 has them.
`Stands`, `IsDouble` and `Fifteen` are in `Spec/Ieee.lean` and do not use the model.
-/

namespace Kml.Ieee

set_option exponentiation.threshold 3000

/-- C109.  Reading a decimal text of any length gives the nearest double, with the sign of the text. -/
theorem C109_read {s : Str} {b : Bool} {q : ℚ} (h : Stands s b q) :
    (readDouble s).1 = b ∧ IsDouble (readDouble s).2 ∧
      ∀ y, IsDouble y → |(readDouble s).2 - q| ≤ |y - q| := by
  rw [readDouble_stands h]
  exact ⟨rfl, toDouble_best (stands_nonneg h)⟩

/-- C109.  Half way between two normal doubles the even one is read. -/
theorem C109_tie {s : Str} {b : Bool} {m : ℕ} {k : ℤ} (h1 : 2 ^ 52 ≤ m) (h2 : m + 1 < 2 ^ 53) (h3 : -1074 ≤ k)
    (h4 : k ≤ 971) (h : Stands s b ((m + 1 / 2) * 2 ^ k)) :
    (readDouble s).2 = ((if m % 2 = 0 then m else m + 1 : ℕ) : ℚ) * 2 ^ k := by
  rw [readDouble_stands h]
  have hk : (0 : ℚ) < 2 ^ k := zpow_pos (by norm_num) _
  have hm1 : (2 ^ 52 : ℚ) ≤ m := by exact_mod_cast h1
  have hm2 : (m : ℚ) + 2 ≤ 2 ^ 53 := by exact_mod_cast (by omega : m + 2 ≤ 2 ^ 53)
  have hq : (0 : ℚ) < (m + 1 / 2) * 2 ^ k := mul_pos (by positivity) hk
  have e52 : (2 : ℚ) ^ (52 + k) = 2 ^ 52 * 2 ^ k := by rw [zpow_add₀ (by norm_num)]; norm_num
  have e53 : (2 : ℚ) ^ (52 + k + 1) = 2 ^ 53 * 2 ^ k := by
    rw [zpow_add_one₀ (by norm_num), e52]; ring
  have hl : Int.log 2 ((m + 1 / 2 : ℚ) * 2 ^ k) = 52 + k := by
    apply log_eq (b := 2) (by norm_num)
    · push_cast
      rw [e52]
      exact mul_le_mul_of_nonneg_right (by linarith) hk.le
    · push_cast
      rw [e53]
      exact mul_lt_mul_of_pos_right (by linarith) hk
  have hu : ulp ((m + 1 / 2 : ℚ) * 2 ^ k) = 2 ^ k := by
    unfold ulp
    rw [hl, max_eq_left (by omega)]
    congr 1
    omega
  have hf : ⌊(m + 1 / 2 : ℚ)⌋ = m := by
    rw [Int.floor_eq_iff]
    push_cast
    constructor <;> linarith
  have hn : nearest (m + 1 / 2 : ℚ) = ((if m % 2 = 0 then m else m + 1 : ℕ) : ℤ) := by
    unfold nearest
    rw [hf]
    by_cases hp : m % 2 = 0
    · rw [if_pos hp, if_pos]
      right
      constructor
      · push_cast; ring
      · omega
    · rw [if_neg hp, if_neg]
      · push_cast; rfl
      · rintro (hc | ⟨_, hc⟩)
        · push_cast at hc; linarith
        · omega
  have hr : rounded ((m + 1 / 2 : ℚ) * 2 ^ k) = ((if m % 2 = 0 then m else m + 1 : ℕ) : ℚ) * 2 ^ k := by
    unfold rounded
    rw [hu, mul_div_assoc, div_self hk.ne', mul_one, hn]
    rfl
  have hlt : ¬ 2 ^ 1024 ≤ rounded ((m + 1 / 2 : ℚ) * 2 ^ k) := by
    rw [hr, not_le]
    have hb : ((if m % 2 = 0 then m else m + 1 : ℕ) : ℚ) ≤ 2 ^ 53 - 1 := by
      split <;> (push_cast; linarith)
    calc _ ≤ (2 ^ 53 - 1 : ℚ) * 2 ^ k := mul_le_mul_of_nonneg_right hb hk.le
      _ ≤ (2 ^ 53 - 1) * 2 ^ (971 : ℤ) := mul_le_mul_of_nonneg_left (two_le h4) (by norm_num)
      _ < _ := by norm_num
  simp only [toDouble]
  rw [if_neg (not_le.2 hq), if_neg hlt, hr]

/-- C109.  What is written for a double is a decimal text of the 15 significant digits nearest to it. -/
theorem C109_write {b : Bool} {x : ℚ} (hx : IsDouble x) (h0 : 0 < x) :
    ∃ (n : ℕ) (k : ℤ), 10 ^ 14 ≤ n ∧ n < 10 ^ 15 ∧ Stands (writeDouble (b, x)) b (n * 10 ^ k) ∧
      |n * 10 ^ k - x| ≤ 10 ^ k / 2 := by
  have hg := onGrid_isDouble hx h0
  obtain ⟨h1, h2, h3⟩ := significant_spec h0
  exact ⟨_, _, h1, h2, write_stands hg, h3⟩

/-- C109.  Reading and writing again changes nothing any more: what is written once stays, whatever was read, and
whatever follows it in the text does not matter if it begins with a line break. -/
theorem C109_again (s r : Str) :
    writeDouble (readDouble (writeDouble (readDouble s))) = writeDouble (readDouble s) ∧
      writeDouble (readDouble (writeDouble (readDouble s) ++ '\n' :: r)) = writeDouble (readDouble s) := by
  have h1 := write_again (b := (readDouble s).1) (readDouble_grid s) ends_nil
  rw [List.append_nil] at h1
  exact ⟨h1, write_again (b := (readDouble s).1) (readDouble_grid s) (ends_newline r)⟩

/-- The double for a number of at most 15 significant digits is written with that value. -/
theorem written_fifteen {b : Bool} {q : ℚ} (hf : Fifteen q)
    (hr : q = 0 ∨ 10 ^ (-308 : ℤ) ≤ q ∧ q ≤ 179769313486231 * 10 ^ (294 : ℤ)) :
    Stands (writeDouble (b, toDouble q)) b q := by
  rcases hr with rfl | ⟨hlo, hhi⟩
  · have : toDouble 0 = 0 := by unfold toDouble; rw [if_pos (le_refl _)]
    rw [this]
    exact write_zero b
  · have h0 : 0 < q := lt_of_lt_of_le (zpow_pos (by norm_num) _) hlo
    obtain ⟨n, e, h1, h2, rfl⟩ := fifteen_decimal hf h0
    have hu := unit_pos (e - 14)
    have h1' : (10 ^ 14 : ℚ) ≤ n := by exact_mod_cast h1
    have h2' : (n : ℚ) + 1 ≤ 10 ^ 15 := by exact_mod_cast h2
    have helo : -308 ≤ e := by
      have : (10 : ℚ) ^ (-308 : ℤ) < 10 ^ (e + 1) := by
        refine lt_of_le_of_lt hlo ?_
        rw [ten_succ, ten_unit]
        unfold decimal
        have := mul_lt_mul_of_pos_right (by linarith : (n : ℚ) < 10 ^ 15) hu
        refine lt_of_lt_of_eq this ?_
        ring
      have := (zpow_lt_zpow_iff_right₀ (by norm_num : (1 : ℚ) < 10)).1 this
      omega
    have hehi : e ≤ 307 ∨ e = 308 ∧ n ≤ 179769313486231 := by
      by_cases hc : e ≤ 307
      · exact Or.inl hc
      · right
        have hcn : e = 308 := by
          have : (10 : ℚ) ^ e < 10 ^ (309 : ℤ) := by
            have h5 : (10 : ℚ) ^ e ≤ decimal n e := by
              rw [ten_unit]
              exact mul_le_mul_of_nonneg_right h1' hu.le
            refine lt_of_le_of_lt (le_trans h5 hhi) (by norm_num)
          have := (zpow_lt_zpow_iff_right₀ (by norm_num : (1 : ℚ) < 10)).1 this
          omega
        refine ⟨hcn, ?_⟩
        subst hcn
        unfold decimal at hhi
        have h6 : (n : ℚ) ≤ 179769313486231 :=
          le_of_mul_le_mul_right hhi (unit_pos 294)
        exact_mod_cast h6
    have hs := significant_toDouble h1 h2 (Or.inl helo) hehi
    have hp : 0 < toDouble (decimal n e) := by
      by_contra hc
      have h5 := significant_nonpos (not_lt.1 hc)
      rw [hs] at h5
      simp only at h5
      omega
    have hw := write_stands (b := b) (onGrid_toDouble hp)
    rwa [hs] at hw

/-- C109.  A number of at most 15 significant digits in the range of the normal doubles is written with the value it
was read with.  Missing from the full statement: numbers of more digits, see `C109_violated` and `C109_near`. -/
theorem C109_fifteen_partial {s : Str} {b : Bool} {q : ℚ} (h : Stands s b q) (hf : Fifteen q)
    (hr : q = 0 ∨ 10 ^ (-308 : ℤ) ≤ q ∧ q ≤ 179769313486231 * 10 ^ (294 : ℤ)) :
    Stands (writeDouble (readDouble s)) b q := by
  rw [readDouble_stands h]
  exact written_fifteen hf hr

/-- C109.  However many digits a number has, it is changed by no more than one part in 10^14. -/
theorem C109_near {s : Str} {b : Bool} {q : ℚ} (h : Stands s b q) (hlo : 10 ^ (-307 : ℤ) ≤ q)
    (hhi : q ≤ 10 ^ (308 : ℤ)) : ∃ w, Stands (writeDouble (readDouble s)) b w ∧ |w - q| ≤ q / 10 ^ 14 := by
  rw [readDouble_stands h]
  have h0 : 0 < q := lt_of_lt_of_le (zpow_pos (by norm_num) _) hlo
  have hp : (2 : ℚ) ^ (-53 : ℤ) = 1 / 9007199254740992 := by norm_num
  have herr : |rounded q - q| ≤ q / 9007199254740992 := by
    refine le_trans (rounded_err h0) (max_le ?_ ?_)
    · rw [hp]; exact le_of_eq (by ring)
    · refine le_trans ?_ (div_le_div_of_nonneg_right hlo (by norm_num))
      norm_num
  have ha := abs_le.1 herr
  have hlt : ¬ 2 ^ 1024 ≤ rounded q := by
    rw [not_le]
    have h5 : rounded q ≤ 3 / 2 * q := by
      have := ha.2
      linarith
    refine lt_of_le_of_lt (le_trans h5 (mul_le_mul_of_nonneg_left hhi (by norm_num))) ?_
    norm_num
  have ht : toDouble q = rounded q := by unfold toDouble; rw [if_neg (not_le.2 h0), if_neg hlt]
  have hx : 0 < rounded q := by
    have := ha.1
    linarith
  have hg : OnGrid (rounded q) := by
    rw [← ht] at hx ⊢
    exact onGrid_toDouble hx
  obtain ⟨h1, h2, h3⟩ := significant_spec hx
  rw [ht]
  refine ⟨_, write_stands hg, ?_⟩
  generalize significant (rounded q) = z at h1 h2 h3
  obtain ⟨n, e⟩ := z
  simp only at h1 h2 h3 ⊢
  have hu := unit_pos (e - 14)
  have h1' : (10 ^ 14 : ℚ) ≤ n := by exact_mod_cast h1
  have hw : 10 ^ 14 * 10 ^ (e - 14) ≤ decimal n e := mul_le_mul_of_nonneg_right h1' hu.le
  generalize decimal n e = w at h3 hw ⊢
  generalize (10 : ℚ) ^ (e - 14) = u at h3 hw hu
  have h3' := abs_le.1 h3
  rw [abs_le]
  constructor <;> linarith [h3'.1, h3'.2, ha.1, ha.2]

/-- C109.  Numbers of more digits are not kept: 0.1 + 0.2 is a double that is written as 0.3, which is another one. -/
theorem C109_violated : ∃ s x y, Stands s false x ∧ IsDouble (readDouble s).2 ∧
    Stands (writeDouble (readDouble s)) false y ∧ (readDouble (writeDouble (readDouble s))).2 ≠ (readDouble s).2 ∧
    x = 30000000000000004 / 10 ^ 17 ∧ y = 3 / 10 := by
  refine ⟨chars! "0.30000000000000004", _, _,
    ⟨⟨false, [0], [3, 0, 0, 0, 0, 0, 0, 0, 0, 0, 0, 0, 0, 0, 0, 0, 4], none⟩, ⟨by simp, fun _ h => by simp at h⟩,
      by decide, rfl, rfl⟩, ?_,
    ⟨⟨false, [0], [3], none⟩, ⟨by simp, fun _ h => by simp at h⟩, by decide +kernel, rfl, rfl⟩, by decide +kernel, ?_, ?_⟩
  · exact ⟨5404319552844596, -54 + 0, by norm_num, by norm_num, by norm_num, by decide +kernel⟩
  · unfold Numeral.magnitude Numeral.power
    norm_num [wholeValue, fracValue]
  · unfold Numeral.magnitude Numeral.power
    norm_num [wholeValue, fracValue]

/-- C109.  The greatest double is written as a number above all doubles, which other readers take for infinity. -/
theorem C109_greatest_violated : IsDouble maxDouble ∧ ∃ w, Stands (writeDouble (false, maxDouble)) false w ∧
    (∀ x, IsDouble x → x < w) ∧ 2 ^ 1024 ≤ w := by
  have hw : writeDouble (false, maxDouble) = chars! "1.79769313486232e+308" := by decide +kernel
  have hb : (2 : ℚ) ^ 1024 ≤ Numeral.magnitude ⟨false, [1], [7, 9, 7, 6, 9, 3, 1, 3, 4, 8, 6, 2, 3, 2], some (some false, [3, 0, 8])⟩ := by
    decide +kernel
  refine ⟨isDouble_max, _, ⟨⟨false, [1], [7, 9, 7, 6, 9, 3, 1, 3, 4, 8, 6, 2, 3, 2], some (some false, [3, 0, 8])⟩,
    ⟨by simp, fun e he => by simp at he; subst he; simp⟩, by rw [hw]; decide, rfl, rfl⟩, ?_, hb⟩
  intro x hx
  refine lt_of_lt_of_le (lt_of_le_of_lt (isDouble_le hx).2 ?_) hb
  unfold maxDouble
  norm_num

/-- C109.  An infinity or a NaN that a caller sets is written as a text that reads as 0. -/
theorem C109_special_violated (b : Bool) (v : Special) : readDouble (specialText b v) = (false, 0) ∧
    specialText b v = (if b then chars! "-" else []) ++ (if v = .inf then chars! "inf" else chars! "nan") := by
  cases b <;> cases v <;> decide +kernel

theorem e_iff {n : ℕ} {e : ℤ} : 'e' ∈ significantText n e ↔ e < -4 ∨ 15 ≤ e := by
  have hd : 'e' ∉ digitsOf 15 n := fun h => absurd (digitsOf_digits 15 n _ h) (by decide)
  have hp : ∀ a, 'e' ∉ pointed (stripZeros ((digitsOf 15 n).drop a)) := by
    intro a h
    unfold pointed at h
    split at h
    · simp at h
    · rcases List.mem_cons.1 h with h | h
      · exact absurd h (by decide)
      · exact hd (List.mem_of_mem_drop (stripZeros_mem h))
  unfold significantText
  split
  · next h => exact ⟨fun _ => h, fun _ => by simp⟩
  · next h =>
    refine ⟨fun hm => ?_, fun hh => absurd hh h⟩
    split at hm
    · rcases List.mem_append.1 hm with hm | hm
      · exact absurd (List.mem_of_mem_take hm) hd
      · exact absurd hm (hp _)
    · rcases List.mem_cons.1 hm with hm | hm
      · exact absurd hm (by decide)
      · rcases List.mem_cons.1 hm with hm | hm
        · exact absurd hm (by decide)
        · rcases List.mem_append.1 hm with hm | hm
          · exact absurd (List.mem_replicate.1 hm).2 (by decide)
          · exact absurd (stripZeros_mem hm) hd

theorem e_writeDouble {b : Bool} {x : ℚ} (h0 : 0 < x) :
    'e' ∈ writeDouble (b, x) ↔ (significant x).2 < -4 ∨ 15 ≤ (significant x).2 := by
  rw [← e_iff (n := (significant x).1)]
  unfold writeDouble magnitudeText
  simp only [if_neg (not_le.2 h0)]
  cases b <;> simp

theorem significant_exponent {x : ℚ} : (significant x).2 = exponent x ∨
    (significant x).2 = exponent x + 1 ∧ ((10 : ℚ) ^ 15 - 1 / 2) * 10 ^ (exponent x - 14) ≤ x := by
  unfold significant
  split
  · next h =>
    refine Or.inr ⟨rfl, ?_⟩
    have h1 := nearest_near (x / 10 ^ (exponent x - 14))
    have h2 : nearest (x / 10 ^ (exponent x - 14)) = 10 ^ 15 := by omega
    rw [h2] at h1
    have h3 := (abs_le.1 h1).2
    push_cast at h3
    have hp : (0 : ℚ) < 10 ^ (exponent x - 14) := zpow_pos (by norm_num) _
    rw [← le_div_iff₀ hp]
    linarith
  · exact Or.inl rfl

/-- C109.  A double is written without an exponent from one ten thousandth on and below 10^15, and with one if it is smaller or greater; where
a double is so near to one of these bounds that its 15 digits are those of the bound, it is written as the bound is. -/
theorem C109_exponent (b : Bool) {x : ℚ} (h0 : 0 < x) :
    (1 / 10 ^ 4 ≤ x → x < 10 ^ 15 - 1 / 2 → 'e' ∉ writeDouble (b, x)) ∧
    (x < 1 / 10 ^ 4 - 1 / 10 ^ 19 ∨ 10 ^ 15 ≤ x → 'e' ∈ writeDouble (b, x)) := by
  have hlo := exponent_le h0
  have hhi := lt_exponent x
  have one : (1 : ℚ) < 10 := by norm_num
  rw [e_writeDouble h0]
  constructor
  · intro h1 h2
    have k1 : -4 ≤ exponent x := by
      apply Classical.byContradiction
      intro hn
      have : (10 : ℚ) ^ (exponent x + 1) ≤ 10 ^ (-4 : ℤ) := zpow_le_zpow_right₀ one.le (by omega)
      norm_num at this h1
      linarith
    have k2 : exponent x < 15 := by
      apply Classical.byContradiction
      intro hn
      have : (10 : ℚ) ^ (15 : ℤ) ≤ 10 ^ exponent x := zpow_le_zpow_right₀ one.le (by omega)
      norm_num at this h2
      linarith
    rcases significant_exponent (x := x) with h | ⟨h, h3⟩
    · omega
    · have k3 : exponent x < 14 := by
        apply Classical.byContradiction
        intro hn
        have : exponent x = 14 := by omega
        rw [this] at h3
        norm_num at h3 h2
        linarith
      omega
  · rintro (h1 | h1)
    · have k1 : exponent x < -4 := by
        apply Classical.byContradiction
        intro hn
        have : (10 : ℚ) ^ (-4 : ℤ) ≤ 10 ^ exponent x := zpow_le_zpow_right₀ one.le (by omega)
        norm_num at this h1
        linarith
      rcases significant_exponent (x := x) with h | ⟨h, h3⟩
      · omega
      · have k3 : exponent x ≠ -5 := by
          intro he
          rw [he] at h3
          norm_num at h3 h1
          linarith
        omega
    · have k1 : 15 ≤ exponent x := by
        apply Classical.byContradiction
        intro hn
        have : (10 : ℚ) ^ (exponent x + 1) ≤ 10 ^ (15 : ℤ) := zpow_le_zpow_right₀ one.le (by omega)
        norm_num at this h1
        linarith
      rcases significant_exponent (x := x) with h | ⟨h, -⟩ <;> omega

example : writeDouble (false, 999999999999999) = chars! "999999999999999" ∧ writeDouble (false, 10 ^ 15) = chars! "1e+15" ∧
    writeDouble (false, 1 / 8192) = chars! "0.0001220703125" ∧ writeDouble (true, 1 / 16384) = chars! "-6.103515625e-05" := by
  decide +kernel

theorem stripZeros_last (ds : Str) : ∀ c ∈ (stripZeros ds).getLast?, c ≠ '0' := by
  intro c hc
  unfold stripZeros at hc
  rw [List.getLast?_reverse] at hc
  have := List.head?_dropWhile_not (p := (· == '0')) ds.reverse
  rw [Option.mem_def.1 hc] at this
  simpa using this

theorem digit_mem {c : Char} (h : isDigit c = true) : c ∈ chars! "0123456789" := by
  have h2 : c.toNat < 128 := by
    have : c ≤ '9' := by unfold isDigit at h; simp at h; exact h.2
    have : c.toNat ≤ '9'.toNat := this
    have : '9'.toNat = 57 := rfl
    omega
  have h3 : ∀ n < 128, isDigit (Char.ofNat n) = true → Char.ofNat n ∈ chars! "0123456789" := by decide +kernel
  have h4 := h3 c.toNat h2
  rw [Char.ofNat_toNat] at h4
  exact h4 h

/-- What the point and the digits behind it look like. -/
theorem significantText_shape {n : ℕ} {e : ℤ} (h0 : 0 < n) (hn : n < 10 ^ 15) :
    ∃ i f r, significantText n e = i ++ pointed f ++ r ∧ '.' ∉ i ∧ (∀ c ∈ f, isDigit c = true) ∧ (∀ c ∈ f.getLast?, c ≠ '0') ∧
      '.' ∉ r ∧ ∀ c ∈ r.head?, c = 'e' := by
  have hd := digitsOf_digits 15 n
  have hdt : ∀ a, '.' ∉ (digitsOf 15 n).take a :=
    fun a hc => absurd (hd _ (List.mem_of_mem_take hc)) (by decide)
  have hdd : ∀ a, ∀ c ∈ stripZeros ((digitsOf 15 n).drop a), isDigit c = true :=
    fun a c hc => hd c (List.mem_of_mem_drop (stripZeros_mem hc))
  unfold significantText
  split
  · refine ⟨_, _, _, rfl, hdt 1, hdd 1, stripZeros_last _, ?_, by simp⟩
    intro h
    rcases List.mem_cons.1 h with h | h
    · exact absurd h (by decide)
    · unfold exponentText at h
      rcases List.mem_cons.1 h with h | h
      · split at h <;> exact absurd h (by decide)
      · split at h <;> exact absurd (digitsOf_digits _ _ _ h) (by decide)
  · split
    · exact ⟨_, _, [], (List.append_nil _).symm, hdt _, hdd _, stripZeros_last _, by simp, by simp⟩
    · have hs : stripZeros (digitsOf 15 n) ≠ [] := by
        intro h
        obtain ⟨k, hk⟩ := stripZeros_spec (digitsOf 15 n)
        have hv := digitsOf_val 15 n
        rw [hk, h, List.nil_append, digitsVal_zeros, Nat.mod_eq_of_lt hn] at hv
        omega
      refine ⟨['0'], List.replicate (-e - 1).toNat '0' ++ stripZeros (digitsOf 15 n), [], ?_, by decide, ?_, ?_, by simp, by simp⟩
      · unfold pointed
        rw [if_neg (by simp [hs]), List.append_nil]
        rfl
      · intro c hc
        rcases List.mem_append.1 hc with hc | hc
        · rw [(List.mem_replicate.1 hc).2]; decide
        · exact hd c (stripZeros_mem hc)
      · intro c hc
        rw [List.getLast?_append_of_ne_nil _ hs] at hc
        exact stripZeros_last _ c hc

/-- C109.  In what is written for a number there is a digit behind a point, and no zero at the end of the digits behind it. -/
theorem C109_short (b : Bool) (x : ℚ) (whole frac rest : Str) (h : writeDouble (b, x) = whole ++ '.' :: (frac ++ rest))
    (hf : ∀ c ∈ frac, c ∈ chars! "0123456789") (hr : ∀ c ∈ rest.head?, c ∉ chars! "0123456789") :
    ∃ f c, frac = f ++ [c] ∧ c ≠ '0' := by
  have hdig : ∀ c, c ∈ chars! "0123456789" → isDigit c = true := by decide
  have key : ∃ i f r, writeDouble (b, x) = i ++ pointed f ++ r ∧ '.' ∉ i ∧ (∀ c ∈ f, isDigit c = true) ∧
      (∀ c ∈ f.getLast?, c ≠ '0') ∧ '.' ∉ r ∧ ∀ c ∈ r.head?, c = 'e' := by
    have : ∃ i f r, magnitudeText x = i ++ pointed f ++ r ∧ '.' ∉ i ∧ (∀ c ∈ f, isDigit c = true) ∧
        (∀ c ∈ f.getLast?, c ≠ '0') ∧ '.' ∉ r ∧ ∀ c ∈ r.head?, c = 'e' := by
      unfold magnitudeText
      split
      · exact ⟨['0'], [], [], rfl, by decide, by simp, by simp, by simp, by simp⟩
      · next hx =>
        obtain ⟨s1, s2, _⟩ := significant_spec (not_le.1 hx)
        exact significantText_shape (by omega) s2
    obtain ⟨i, f, r, h1, h2, h3⟩ := this
    unfold writeDouble
    cases b with
    | false => exact ⟨i, f, r, h1, h2, h3⟩
    | true => exact ⟨'-' :: i, f, r, by simp [h1], by simp [h2], h3⟩
  obtain ⟨i, f, r, h1, h2, h3, h4, h5, h6⟩ := key
  have hne : f ≠ [] := by
    rintro rfl
    rw [h1] at h
    have : '.' ∈ i ++ pointed [] ++ r := by rw [h]; simp
    simp [pointed, h2, h5] at this
  unfold pointed at h1
  rw [if_neg hne, List.append_assoc, List.cons_append] at h1
  rw [h1] at h
  have hfr : '.' ∉ f ++ r := by
    simp only [List.mem_append, not_or]
    exact ⟨fun hc => absurd (h3 _ hc) (by decide), h5⟩
  obtain ⟨-, h7⟩ : whole = i ∧ frac ++ rest = f ++ r := by
    have := (List.append_cons_inj_of_notMem (x₂ := whole) (z₂ := frac ++ rest) h2 hfr).1 h
    exact ⟨this.1.symm, this.2.2.symm⟩
  have k1 := (takeWhile_digits (t := r) h3 (fun c hc => by rw [h6 c hc]; decide)).1
  have k2 := (takeWhile_digits (t := rest) (fun c hc => hdig c (hf c hc)) (fun c hc => by
    cases hcd : isDigit c with
    | false => rfl
    | true => exact absurd (digit_mem hcd) (hr c hc))).1
  rw [h7, k1] at k2
  rw [← k2]
  exact ⟨f.dropLast, f.getLast hne, (List.dropLast_append_getLast hne).symm, h4 _ (by rw [List.getLast?_eq_some_getLast hne]; rfl)⟩

/-- A point with digits behind it, and an exponent. -/
example : writeDouble (false, 1 / 16384) = chars! "6" ++ '.' :: (chars! "103515625" ++ chars! "e-05") ∧
    writeDouble (true, 5 / 2) = chars! "-2" ++ '.' :: (chars! "5" ++ []) := by decide +kernel

/-- C109.  An `int` is read as it was written. -/
theorem C109_int {i : ℤ} (h1 : -2147483648 ≤ i) (h2 : i ≤ 2147483647) : readInt (writeInt i) = i :=
  readInt_write h1 h2

theorem readInt_range (s : Str) : -2147483648 ≤ readInt s ∧ readInt s ≤ 2147483647 := by unfold readInt; omega

/-- C109.  Reading an `int` gives the integer the text stands for, or the end of the range of `int` that is nearest. -/
theorem C109_int_read (neg : Bool) {ds : List (Fin 10)} (h : ds ≠ []) :
    readInt ((if neg then ['-'] else []) ++ ds.map digitText) =
      max (-2147483648) (min 2147483647 (if neg then -(wholeValue ds : ℤ) else wholeValue ds)) := by
  have ht := (takeWhile_digits (t := []) (digits_all ds) (by simp)).1
  rw [List.append_nil] at ht
  have hv := digitsVal_map ds
  unfold readInt
  cases neg
  · obtain ⟨d, r, rfl⟩ : ∃ d r, ds = d :: r := by
      cases ds with
      | nil => exact absurd rfl h
      | cons d r => exact ⟨d, r, rfl⟩
    simp only [Bool.false_eq_true, if_false, List.nil_append, List.map_cons] at ht hv ⊢
    rw [List.dropWhile_cons_of_neg (by simp [isDigit_not_space (digitText_eq d).2])]
    obtain ⟨n1, n2⟩ := isDigit_not_minus (digitText_eq d).2
    have : readInteger (digitText d :: r.map digitText) = digitsVal ((digitText d :: r.map digitText).takeWhile isDigit) := by
      unfold readInteger
      split
      · next heq => exact absurd (List.cons.inj heq).1 n1
      · next heq => exact absurd (List.cons.inj heq).1 n2
      · rfl
    rw [this, ht, hv]
  · simp only [if_true, List.cons_append, List.nil_append]
    rw [List.dropWhile_cons_of_neg (by decide)]
    simp only [readInteger]
    rw [ht, hv]

/-- The number library of the model, with the doubles of IEEE 754: what `NumLib` asks for is so. -/
def _root_.Kml.NumLib.ieee : NumLib where
  num s := writeDouble (readDouble s)
  int s := writeInt (readInt s)
  num_num s := (C109_again s []).1
  int_int s := by rw [readInt_write (readInt_range s).1 (readInt_range s).2]
  num_text s := writeDouble_isNum _
  int_text s := writeInt_isNum (readInt_range s).1 (readInt_range s).2
  num_stop s r := (C109_again s r).2
  num_small := by decide +kernel
  int_small := by decide +kernel

/-- C109.  The laws that the theorems about documents assume of the number library hold of the doubles and `int`s of the
C++ library. -/
theorem C109_laws : ∃ N : NumLib, (∀ s, N.num s = writeDouble (readDouble s)) ∧ (∀ s, N.int s = writeInt (readInt s)) :=
  ⟨NumLib.ieee, fun _ => rfl, fun _ => rfl⟩

/-! ## The hypotheses can be met -/

/-- A longitude of 17 digits. -/
example : Stands (chars! "-122.08220154540187") true (12208220154540187 / 10 ^ 14) :=
  ⟨⟨true, [1, 2, 2], [0, 8, 2, 2, 0, 1, 5, 4, 5, 4, 0, 1, 8, 7], none⟩, ⟨by simp, fun _ h => by simp at h⟩, by decide, rfl, by
    decide +kernel⟩

example : writeDouble (readDouble (chars! "-122.08220154540187")) = chars! "-122.082201545402" := by decide +kernel

/-- One of 15 digits stays. -/
example : Stands (chars! "37.4220033612141") false (374220033612141 / 10 ^ 13) ∧ Fifteen (374220033612141 / 10 ^ 13) :=
  ⟨⟨⟨false, [3, 7], [4, 2, 2, 0, 0, 3, 3, 6, 1, 2, 1, 4, 1], none⟩, ⟨by simp, fun _ h => by simp at h⟩, by decide, rfl, by
    decide +kernel⟩, ⟨374220033612141, -13, by norm_num, by norm_num⟩⟩

example : writeDouble (readDouble (chars! "37.4220033612141")) = chars! "37.4220033612141" := by decide +kernel

/-- Exponents, overflow, the smallest number, an underflow, and texts that are no numbers. -/
example : [chars! "1.5e3", chars! "1e400", chars! "4e-324", chars! "-1e-400", chars! "1e", chars! ".", chars! "abc",
    chars! "  +7x", chars! "1e-5", chars! "123456789012345678"].map (fun s => writeDouble (readDouble s)) =
    [chars! "1500", chars! "1.79769313486232e+308", chars! "4.94065645841247e-324", chars! "-0", chars! "0", chars! "0",
      chars! "0", chars! "7", chars! "1e-05", chars! "1.23456789012346e+17"] := by decide +kernel

/-- Ties: 2^53 + 1 and 2^53 + 3. -/
example : (readDouble (chars! "9007199254740993")).2 = 9007199254740992 ∧
    (readDouble (chars! "9007199254740995")).2 = 9007199254740996 := by decide +kernel

example : Stands (chars! "9007199254740993") false (((2 ^ 52 : ℕ) + 1 / 2) * 2 ^ (1 : ℤ)) :=
  ⟨⟨false, [9, 0, 0, 7, 1, 9, 9, 2, 5, 4, 7, 4, 0, 9, 9, 3], [], none⟩, ⟨by simp, fun _ h => by simp at h⟩, by decide, rfl, by
    decide +kernel⟩

end Kml.Ieee
