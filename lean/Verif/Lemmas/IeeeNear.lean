import Verif.Lemmas.IeeeText
import Verif.Spec.Ieee

/-!
# Reading is to the nearest double
-/

namespace Kml.Ieee

set_option exponentiation.threshold 3000

theorem nearest_best (q : ℚ) (k : ℤ) : |(nearest q : ℚ) - q| ≤ |(k : ℚ) - q| := by
  by_contra hc
  have hc := not_le.1 hc
  have h1 := nearest_near q
  have : nearest q = k := nearest_eq (by rw [abs_sub_comm]; linarith)
  rw [this] at hc
  exact lt_irrefl _ hc

theorem rounded_best (q : ℚ) (k : ℤ) : |rounded q - q| ≤ |k * ulp q - q| := by
  have hu := ulp_pos q
  have h := nearest_best (q / ulp q) k
  unfold rounded
  have e : ∀ j : ℤ, (j : ℚ) * ulp q - q = ((j : ℚ) - q / ulp q) * ulp q := by
    intro j
    field_simp
  rw [e, e, abs_mul, abs_mul]
  exact mul_le_mul_of_nonneg_right h (abs_nonneg _)

theorem two_le {a b : ℤ} (h : a ≤ b) : (2 : ℚ) ^ a ≤ 2 ^ b := zpow_le_zpow_right₀ (by norm_num) h

theorem rounded_best_double {q y : ℚ} (hq : 0 < q) (hy : IsDouble y) : |rounded q - q| ≤ |y - q| := by
  obtain ⟨m, k, hm, hk1, hk2, rfl⟩ := hy
  have hlog : (2 : ℚ) ^ Int.log 2 q ≤ q := by
    have := Int.zpow_log_le_self (b := 2) (by norm_num) hq
    exact_mod_cast this
  by_cases hk : max (Int.log 2 q - 52) (-1074) ≤ k
  · obtain ⟨j, hj⟩ : ∃ j : ℕ, k = j + max (Int.log 2 q - 52) (-1074) :=
      ⟨(k - max (Int.log 2 q - 52) (-1074)).toNat, by omega⟩
    have h := rounded_best q ((m * 2 ^ j : ℕ) : ℤ)
    have e : (((m * 2 ^ j : ℕ) : ℤ) : ℚ) * ulp q = m * 2 ^ k := by
      unfold ulp
      rw [hj, zpow_add₀ (by norm_num), zpow_natCast]
      push_cast
      ring
    rwa [e] at h
  · have hu : ulp q = 2 ^ (Int.log 2 q - 52) := by
      unfold ulp
      rw [max_eq_left (by omega)]
    have h := rounded_best q ((2 ^ 52 : ℕ) : ℤ)
    have e : (((2 ^ 52 : ℕ) : ℤ) : ℚ) * ulp q = 2 ^ Int.log 2 q := by
      rw [hu, show Int.log 2 q = (52 : ℕ) + (Int.log 2 q - 52) by push_cast; ring, zpow_add₀ (by norm_num), zpow_natCast]
      push_cast
      congr 3
      ring
    rw [e] at h
    have hy : (m : ℚ) * 2 ^ k ≤ 2 ^ Int.log 2 q := by
      have h1 : (m : ℚ) ≤ 2 ^ 53 := by exact_mod_cast hm.le
      calc (m : ℚ) * 2 ^ k ≤ 2 ^ 53 * 2 ^ k := mul_le_mul_of_nonneg_right h1 (zpow_pos (by norm_num) _).le
        _ = 2 ^ (53 + k) := by rw [zpow_add₀ (by norm_num)]; norm_num
        _ ≤ _ := two_le (by omega)
    refine le_trans h ?_
    rw [abs_of_nonpos (by linarith), abs_of_nonpos (by linarith)]
    linarith

theorem rounded_isDouble {q : ℚ} (hq : 0 < q) (hlt : rounded q < 2 ^ 1024) : IsDouble (rounded q) := by
  have hu := ulp_pos q
  have h0 := nearest_nonneg (div_nonneg hq.le hu.le)
  obtain ⟨m, hm⟩ : ∃ m : ℕ, nearest (q / ulp q) = m := ⟨(nearest (q / ulp q)).toNat, by omega⟩
  have hlog : q < (2 : ℚ) ^ (Int.log 2 q + 1) := by
    have := Int.lt_zpow_succ_log_self (b := 2) (by norm_num) q
    exact_mod_cast this
  have hq53 : q / ulp q < 2 ^ 53 := by
    rw [div_lt_iff₀ hu]
    refine lt_of_lt_of_le hlog ?_
    unfold ulp
    calc (2 : ℚ) ^ (Int.log 2 q + 1) = 2 ^ (53 + (Int.log 2 q - 52)) := by congr 1; ring
      _ = 2 ^ 53 * 2 ^ (Int.log 2 q - 52) := by rw [zpow_add₀ (by norm_num)]; norm_num
      _ ≤ _ := mul_le_mul_of_nonneg_left (two_le (le_max_left _ _)) (by norm_num)
  have hm53 : m ≤ 2 ^ 53 := by
    have h1 := (abs_le.1 (nearest_near (q / ulp q))).2
    rw [hm] at h1
    have h2 : (m : ℚ) < 2 ^ 53 + 1 := by push_cast at h1; linarith
    have h3 : m < 2 ^ 53 + 1 := by exact_mod_cast h2
    omega
  have hr : rounded q = m * ulp q := by unfold rounded; rw [hm]; rfl
  -- the exponent is in range
  have hexp : ∀ (j : ℕ) (k : ℤ), 2 ^ 52 ≤ j → rounded q = j * 2 ^ k → k ≤ 971 := by
    intro j k hj e
    by_contra hc
    have h1 : (2 : ℚ) ^ (972 : ℤ) ≤ 2 ^ k := two_le (by omega)
    have h2 : (2 ^ 52 : ℚ) ≤ j := by exact_mod_cast hj
    have : (2 : ℚ) ^ 1024 ≤ rounded q := by
      rw [e]
      calc (2 : ℚ) ^ 1024 = 2 ^ 52 * 2 ^ (972 : ℤ) := by norm_num
        _ ≤ _ := mul_le_mul h2 h1 (by positivity) (by positivity)
    exact absurd hlt (not_lt.2 this)
  by_cases hc : m = 2 ^ 53
  · have e : rounded q = ((2 ^ 52 : ℕ) : ℚ) * 2 ^ (max (Int.log 2 q - 52) (-1074) + 1) := by
      rw [hr, hc]
      unfold ulp
      rw [zpow_add_one₀ (by norm_num)]
      push_cast
      ring
    exact ⟨2 ^ 52, _, by norm_num, by omega, hexp _ _ (le_refl _) e, e⟩
  · have e : rounded q = (m : ℚ) * 2 ^ (max (Int.log 2 q - 52) (-1074)) := hr
    refine ⟨m, _, by omega, by omega, ?_, e⟩
    by_cases hs : 2 ^ 52 ≤ m
    · exact hexp _ _ hs e
    · -- then the magnitude is subnormal
      by_contra hbig
      have h1 : max (Int.log 2 q - 52) (-1074) = Int.log 2 q - 52 := by omega
      have hlo : (2 : ℚ) ^ Int.log 2 q ≤ q := by
        have := Int.zpow_log_le_self (b := 2) (by norm_num) hq
        exact_mod_cast this
      have h2 : (2 ^ 52 : ℚ) ≤ q / ulp q := by
        rw [le_div_iff₀ hu]
        unfold ulp
        rw [h1]
        calc (2 : ℚ) ^ 52 * 2 ^ (Int.log 2 q - 52) = 2 ^ (52 + (Int.log 2 q - 52)) := by
              rw [zpow_add₀ (by norm_num)]; norm_num
          _ = 2 ^ Int.log 2 q := by congr 1; ring
          _ ≤ q := hlo
      have h3 := (abs_le.1 (nearest_near (q / ulp q))).1
      rw [hm] at h3
      have h4 : (2 ^ 52 : ℚ) - 1 < m := by push_cast at h3; linarith
      have h5 : (2 : ℚ) ^ 52 < m + 1 := by linarith
      have h6 : 2 ^ 52 < m + 1 := by exact_mod_cast h5
      omega

theorem isDouble_max : IsDouble maxDouble := ⟨2 ^ 53 - 1, 971, by norm_num, by norm_num, le_refl _, by unfold maxDouble; norm_num⟩

theorem isDouble_zero : IsDouble 0 := ⟨0, 0, by norm_num, by norm_num, by norm_num, by norm_num⟩

theorem isDouble_le {x : ℚ} (h : IsDouble x) : 0 ≤ x ∧ x ≤ maxDouble := by
  obtain ⟨m, k, hm, _, hk, rfl⟩ := h
  refine ⟨mul_nonneg (Nat.cast_nonneg m) (zpow_pos (by norm_num) k).le, ?_⟩
  have h1 : (m : ℚ) + 1 ≤ 2 ^ 53 := by exact_mod_cast hm
  unfold maxDouble
  calc (m : ℚ) * 2 ^ k ≤ (2 ^ 53 - 1) * 2 ^ k := mul_le_mul_of_nonneg_right (by linarith) (zpow_pos (by norm_num) _).le
    _ ≤ (2 ^ 53 - 1) * 2 ^ (971 : ℤ) := mul_le_mul_of_nonneg_left (two_le hk) (by norm_num)
    _ = _ := by norm_num

/-- What is read is a double, and no other is nearer. -/
theorem toDouble_best {q : ℚ} (hq : 0 ≤ q) : IsDouble (toDouble q) ∧ ∀ y, IsDouble y → |toDouble q - q| ≤ |y - q| := by
  by_cases h0 : q ≤ 0
  · have : q = 0 := le_antisymm h0 hq
    subst this
    have h : toDouble 0 = 0 := by unfold toDouble; rw [if_pos (le_refl _)]
    rw [h]
    exact ⟨isDouble_zero, fun y _ => by simp⟩
  · have hpos := not_le.1 h0
    by_cases hbig : 2 ^ 1024 ≤ rounded q
    · have h : toDouble q = maxDouble := by unfold toDouble; rw [if_neg h0, if_pos hbig]
      rw [h]
      refine ⟨isDouble_max, fun y hy => ?_⟩
      obtain ⟨_, hy2⟩ := isDouble_le hy
      -- no double is nearer than the rounded value, which is beyond
      have hmq : maxDouble ≤ q := by
        by_contra hc
        have hc := not_le.1 hc
        have h1 := rounded_best_double hpos isDouble_max
        have h2 : maxDouble < 2 ^ 1024 := by unfold maxDouble; norm_num
        rw [abs_of_nonneg (by linarith), abs_of_pos (by linarith)] at h1
        linarith
      rw [abs_of_nonpos (by linarith), abs_of_nonpos (by linarith)]
      linarith
    · have h : toDouble q = rounded q := by unfold toDouble; rw [if_neg h0, if_neg hbig]
      rw [h]
      exact ⟨rounded_isDouble hpos (not_le.1 hbig), fun y hy => rounded_best_double hpos hy⟩

theorem onGrid_isDouble {x : ℚ} (h : IsDouble x) (h0 : 0 < x) : OnGrid x := by
  obtain ⟨_, h2⟩ := isDouble_le h
  refine ⟨h0, lt_of_le_of_lt h2 (by unfold maxDouble; norm_num), ?_⟩
  obtain ⟨m, k, _, hk, _, rfl⟩ := h
  obtain ⟨j, hj⟩ : ∃ j : ℕ, k = j + -1074 := ⟨(k + 1074).toNat, by omega⟩
  rw [hj, zpow_add₀ (by norm_num), zpow_natCast]
  exact ⟨m * 2 ^ j, by push_cast; ring⟩

/-! ## What decimal texts stand for -/

theorem digitText_eq (d : Fin 10) : (digitText d).toNat = 48 + d.val ∧ isDigit (digitText d) = true := by
  revert d; decide

theorem digits_all (ds : List (Fin 10)) : ∀ c ∈ ds.map digitText, isDigit c = true := by
  intro c hc
  obtain ⟨d, _, rfl⟩ := List.mem_map.1 hc
  exact (digitText_eq d).2

theorem digitsVal_map (ds : List (Fin 10)) : digitsVal (ds.map digitText) = wholeValue ds := by
  induction ds with
  | nil => rfl
  | cons d r ih =>
    rw [List.map_cons, show digitText d :: r.map digitText = [digitText d] ++ r.map digitText from rfl,
      digitsVal_append, ih]
    simp [digitsVal, wholeValue, (digitText_eq d).1]

theorem fracValue_eq (ds : List (Fin 10)) : fracValue ds = wholeValue ds / 10 ^ ds.length := by
  induction ds with
  | nil => simp [fracValue, wholeValue]
  | cons d r ih =>
    simp only [fracValue, wholeValue, ih, List.length_cons]
    push_cast
    field_simp
    ring

theorem scaled_numeral (w f : List (Fin 10)) (k : ℤ) :
    scaled (w.map digitText) (f.map digitText) k = (wholeValue w + fracValue f) * 10 ^ k := by
  unfold scaled
  rw [digitsVal_append, digitsVal_map, digitsVal_map, List.length_map, fracValue_eq, zpow_sub₀ (by norm_num),
    zpow_natCast]
  push_cast
  field_simp

/-- A decimal text stands for its number. -/
theorem readSigned_numeral {n : Numeral} (h : n.Proper) : readSigned n.text = some (n.neg, n.magnitude) := by
  obtain ⟨neg, w, f, ex⟩ := n
  obtain ⟨hw, hex⟩ := h
  simp only at hw hex
  have key : readMagnitude (w.map digitText ++ (if f = [] then [] else '.' :: f.map digitText) ++
      powerText ex) =
      some (Numeral.magnitude ⟨neg, w, f, ex⟩) := by
    have hp : (if f = [] then [] else '.' :: f.map digitText) = pointed (f.map digitText) := by
      unfold pointed
      simp only [List.map_eq_nil_iff]
    rw [hp]
    have hwn : w.map digitText ≠ [] := by simpa using hw
    cases ex with
    | none =>
      simp only [powerText]
      rw [readMagnitude_parts (digits_all w) (digits_all f) ends_nil.weak, readScaled_ends hwn ends_nil,
        scaled_numeral]
      rfl
    | some e =>
      obtain ⟨en, ds⟩ := e
      have hds : ds ≠ [] := hex (en, ds) rfl
      have hdn : ds.map digitText ≠ [] := by simpa using hds
      have ht := (takeWhile_digits (t := []) (digits_all ds) (by simp)).1
      rw [List.append_nil] at ht
      have hh : ∃ t, powerText (some (en, ds)) = 'e' :: t ∧ (t = match en with
          | none => ds.map digitText | some true => '-' :: ds.map digitText | some false => '+' :: ds.map digitText) := by
        cases en with
        | none => exact ⟨_, rfl, rfl⟩
        | some b => cases b <;> exact ⟨_, rfl, rfl⟩
      obtain ⟨t, ht1, ht2⟩ := hh
      rw [ht1, readMagnitude_parts (digits_all w) (digits_all f) (by
        simp only [List.head?_cons, Option.mem_def, Option.some.injEq]
        rintro c rfl
        decide)]
      unfold readScaled
      rw [if_neg (fun hh => hwn hh.1)]
      simp only
      subst ht2
      cases en with
      | some b =>
        cases b <;>
        · simp only [readExponent]
          rw [ht, if_neg hdn, digitsVal_map]
          simp only [Option.map_some, scaled_numeral]
          rfl
      | none =>
        obtain ⟨d, r, rfl⟩ : ∃ d r, ds = d :: r := by
          cases ds with
          | nil => exact absurd rfl hds
          | cons d r => exact ⟨d, r, rfl⟩
        have hm := isDigit_not_minus (digitText_eq d).2
        have : readExponent ((d :: r).map digitText) = some (wholeValue (d :: r) : ℤ) := by
          unfold readExponent
          split
          · next heq => exact absurd (List.cons.inj heq).1 hm.2
          · next heq => exact absurd (List.cons.inj heq).1 hm.1
          · rw [ht, if_neg hdn, digitsVal_map]
        rw [this]
        simp only [Option.map_some, scaled_numeral]
        rfl
  unfold Numeral.text
  simp only
  cases neg with
  | true =>
    simp only [if_true, List.cons_append, List.nil_append, readSigned]
    rw [key]
    rfl
  | false =>
    obtain ⟨d, r, rfl⟩ : ∃ d r, w = d :: r := by
      cases w with
      | nil => exact absurd rfl hw
      | cons d r => exact ⟨d, r, rfl⟩
    simp only [Bool.false_eq_true, if_false, List.nil_append, List.map_cons, List.cons_append] at key ⊢
    rw [readSigned_digit (digitText_eq d).2, key]
    rfl

/-- Digits are digits. -/
theorem lift_digits {l : Str} (h : ∀ c ∈ l, isDigit c = true) : ∃ ds : List (Fin 10), l = ds.map digitText := by
  induction l with
  | nil => exact ⟨[], rfl⟩
  | cons c l ih =>
    obtain ⟨ds, hds⟩ := ih (fun x hx => h x (by simp [hx]))
    have hc := h c (by simp)
    unfold isDigit at hc
    simp only [Bool.and_eq_true, decide_eq_true_eq] at hc
    refine ⟨⟨c.toNat - 48, by omega⟩ :: ds, ?_⟩
    rw [List.map_cons, hds]
    congr 1
    apply Char.toNat_inj.1
    rw [(digitText_eq _).1]
    simp only
    omega

theorem pointed_text (ds : List (Fin 10)) :
    pointed (ds.map digitText) = if ds = [] then [] else '.' :: ds.map digitText := by
  unfold pointed
  simp only [List.map_eq_nil_iff]

theorem significantText_numeral {n : ℕ} (h0 : 0 < n) (hn : n < 10 ^ 15) (e : ℤ) :
    ∃ m : Numeral, m.Proper ∧ m.neg = false ∧ m.text = significantText n e := by
  have hd := digitsOf_digits 15 n
  have hp : ∀ a, ∃ ds : List (Fin 10), stripZeros ((digitsOf 15 n).drop a) = ds.map digitText :=
    fun a => lift_digits fun c hc => hd c (List.mem_of_mem_drop (stripZeros_mem hc))
  have ht : ∀ a, 1 ≤ a → ∃ ds : List (Fin 10), (digitsOf 15 n).take a = ds.map digitText ∧ ds ≠ [] := by
    intro a ha
    obtain ⟨ds, hds⟩ := lift_digits (l := (digitsOf 15 n).take a) fun c hc => hd c (List.mem_of_mem_take hc)
    refine ⟨ds, hds, ?_⟩
    rintro rfl
    exact take_ne_nil ha hds
  unfold significantText
  split
  · obtain ⟨w, hw, hw0⟩ := ht 1 (le_refl _)
    obtain ⟨f, hf⟩ := hp 1
    obtain ⟨x, hx, hx0⟩ : ∃ ds : List (Fin 10),
        (if e.natAbs < 100 then digitsOf 2 e.natAbs else digitsOf 3 e.natAbs) = ds.map digitText ∧ ds ≠ [] := by
      have key : ∀ w, w ≠ 0 → ∃ ds : List (Fin 10), digitsOf w e.natAbs = ds.map digitText ∧ ds ≠ [] := by
        intro w hw
        obtain ⟨ds, hds⟩ := lift_digits (digitsOf_digits w e.natAbs)
        refine ⟨ds, hds, ?_⟩
        rintro rfl
        have := congrArg List.length hds
        rw [digitsOf_length] at this
        exact hw this
      split
      · exact key 2 (by norm_num)
      · exact key 3 (by norm_num)
    refine ⟨⟨false, w, f, some (some (decide (e < 0)), x)⟩, ⟨hw0, ?_⟩, rfl, ?_⟩
    · rintro y hy
      rw [Option.mem_def, Option.some.injEq] at hy
      rw [← hy]
      exact hx0
    · unfold Numeral.text exponentText
      rw [hw, hf, hx, pointed_text]
      by_cases hneg : e < 0
      · simp [hneg, powerText]
      · simp [hneg, powerText]
  · split
    · obtain ⟨w, hw, hw0⟩ := ht (e.toNat + 1) (by omega)
      obtain ⟨f, hf⟩ := hp (e.toNat + 1)
      refine ⟨⟨false, w, f, none⟩, ⟨hw0, fun _ h => by simp at h⟩, rfl, ?_⟩
      unfold Numeral.text
      rw [hw, hf, pointed_text]
      simp [powerText]
    · next h1 h2 =>
      obtain ⟨f, hf⟩ := lift_digits (l := List.replicate (-e - 1).toNat '0' ++ stripZeros (digitsOf 15 n)) (by
        intro c hc
        rcases List.mem_append.1 hc with hc | hc
        · rw [(List.mem_replicate.1 hc).2]; decide
        · exact hd c (stripZeros_mem hc))
      by_cases hf0 : f = []
      · exfalso
        subst hf0
        have hs : stripZeros (digitsOf 15 n) = [] := (List.append_eq_nil_iff.1 hf).2
        obtain ⟨k, hk⟩ := stripZeros_spec (digitsOf 15 n)
        have hv := digitsOf_val 15 n
        rw [hk, hs, List.nil_append, digitsVal_zeros, Nat.mod_eq_of_lt hn] at hv
        omega
      · refine ⟨⟨false, [0], f, none⟩, ⟨by simp, fun _ h => by simp at h⟩, rfl, ?_⟩
        unfold Numeral.text
        rw [hf]
        simp [powerText, hf0]
        decide

theorem text_neg {m : Numeral} (h : m.neg = false) : (Numeral.text { m with neg := true }) = '-' :: m.text := by
  unfold Numeral.text
  simp [h]

theorem stands_of {b : Bool} {t : Str} {q : ℚ} (h : ∃ m : Numeral, m.Proper ∧ m.neg = false ∧ m.text = t)
    (hr : readMagnitude t = some q) (hd : ∃ c r, t = c :: r ∧ isDigit c = true) :
    Stands (if b then '-' :: t else t) b q := by
  obtain ⟨m, hm, hn, rfl⟩ := h
  obtain ⟨c, r, hc, hd⟩ := hd
  have h1 := readSigned_numeral hm
  have h2 : readSigned m.text = some (false, q) := by
    rw [hc] at hr ⊢
    rw [readSigned_digit hd, hr]
    rfl
  rw [h1] at h2
  have hq : m.magnitude = q := (Prod.mk.inj (Option.some.inj h2)).2
  cases b
  · exact ⟨m, hm, by simp, hn, hq⟩
  · exact ⟨{ m with neg := true }, hm, by simp [text_neg hn], rfl, hq⟩

/-- What is written for a double stands for its 15 digits. -/
theorem write_stands {b : Bool} {x : ℚ} (hx : OnGrid x) :
    Stands (writeDouble (b, x)) b (decimal (significant x).1 (significant x).2) := by
  obtain ⟨s1, s2, _⟩ := significant_spec hx.1
  have hm : magnitudeText x = significantText (significant x).1 (significant x).2 := by
    unfold magnitudeText
    rw [if_neg (not_le.2 hx.1)]
  unfold writeDouble
  simp only
  rw [hm]
  refine stands_of (significantText_numeral (by omega) s2 _) ?_ significantText_head
  have := readMagnitude_significant s2 (significant_range hx) ends_nil
  rwa [List.append_nil] at this

theorem write_zero (b : Bool) : Stands (writeDouble (b, 0)) b 0 := by
  have : writeDouble (b, 0) = if b then '-' :: ['0'] else ['0'] := by
    unfold writeDouble magnitudeText
    simp
  rw [this]
  refine stands_of ⟨⟨false, [0], [], none⟩, ⟨by simp, fun _ h => by simp at h⟩, rfl, by decide⟩ ?_ ⟨'0', [], rfl, by decide⟩
  have := readMagnitude_zero ends_nil
  rwa [List.append_nil] at this

theorem text_noSpace {n : Numeral} (h : n.Proper) : n.text.dropWhile isSpace = n.text := by
  obtain ⟨neg, w, f, ex⟩ := n
  obtain ⟨hw, _⟩ := h
  cases neg with
  | true =>
    unfold Numeral.text
    simp only [if_true, List.cons_append]
    rw [List.dropWhile_cons_of_neg (by decide)]
  | false =>
    cases w with
    | nil => exact absurd rfl hw
    | cons d r =>
      unfold Numeral.text
      simp only [Bool.false_eq_true, if_false, List.nil_append, List.map_cons, List.cons_append]
      rw [List.dropWhile_cons_of_neg (by simp [isDigit_not_space (digitText_eq d).2])]

theorem readDouble_stands {s : Str} {b : Bool} {q : ℚ} (h : Stands s b q) : readDouble s = (b, toDouble q) := by
  obtain ⟨n, hn, rfl, rfl, rfl⟩ := h
  unfold readDouble
  rw [text_noSpace hn, readSigned_numeral hn]

theorem fracValue_nonneg (ds : List (Fin 10)) : 0 ≤ fracValue ds := by rw [fracValue_eq]; positivity

theorem stands_nonneg {s : Str} {b : Bool} {q : ℚ} (h : Stands s b q) : 0 ≤ q := by
  obtain ⟨n, _, _, _, rfl⟩ := h
  unfold Numeral.magnitude
  exact mul_nonneg (add_nonneg (Nat.cast_nonneg _) (fracValue_nonneg _)) (zpow_pos (by norm_num) _).le

/-- 15 digits, the first not 0. -/
theorem fifteen_decimal {q : ℚ} (h : Fifteen q) (h0 : 0 < q) : ∃ n e, 10 ^ 14 ≤ n ∧ n < 10 ^ 15 ∧ q = decimal n e := by
  obtain ⟨n, k, hn, hq⟩ := h
  have key : ∀ j : ℕ, ∀ (n : ℕ) (k : ℤ), n < 10 ^ 15 → 10 ^ 15 ≤ n * 10 ^ j → q = n * 10 ^ k →
      ∃ n e, 10 ^ 14 ≤ n ∧ n < 10 ^ 15 ∧ q = decimal n e := by
    intro j
    induction j with
    | zero => intro n k h1 h2 _; omega
    | succ j ih =>
      intro n k h1 h2 h3
      by_cases hc : 10 ^ 14 ≤ n
      · exact ⟨n, k + 14, hc, h1, by rw [h3]; unfold decimal; congr 2; ring⟩
      · refine ih (n * 10) (k - 1) (by omega) ?_ ?_
        · rw [mul_assoc, ← pow_succ']; exact h2
        · rw [h3, zpow_sub_one₀ (by norm_num)]; push_cast; ring
  have hn0 : 0 < n := by
    rcases Nat.eq_zero_or_pos n with rfl | h
    · rw [hq] at h0; simp at h0
    · exact h
  exact key 15 n k hn (Nat.le_mul_of_pos_left _ hn0) hq

end Kml.Ieee
