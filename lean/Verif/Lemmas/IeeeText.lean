import Verif.Lemmas.Ieee
import Verif.Spec.Numbers

/-!
# Lemmas about the texts of numbers
-/

namespace Kml.Ieee

theorem digitsVal_append (a b : Str) : digitsVal (a ++ b) = digitsVal a * 10 ^ b.length + digitsVal b := by
  induction b using List.reverseRecOn with
  | nil => simp [digitsVal]
  | append_singleton b c ih =>
    rw [← List.append_assoc]
    unfold digitsVal at ih ⊢
    rw [List.foldl_append, ih, List.foldl_append]
    simp only [List.foldl_cons, List.foldl_nil, List.length_append, List.length_cons, List.length_nil]
    ring

theorem digit_toNat (n : ℕ) : (digit n).toNat = 48 + n % 10 := by
  unfold digit
  have h : n % 10 < 10 := Nat.mod_lt _ (by norm_num)
  generalize n % 10 = k at h
  revert k
  decide

theorem digit_isDigit (n : ℕ) : isDigit (digit n) = true := by
  unfold isDigit
  rw [digit_toNat]
  have h : n % 10 < 10 := Nat.mod_lt _ (by norm_num)
  simp
  omega

theorem digitsOf_length (w n : ℕ) : (digitsOf w n).length = w := by
  induction w generalizing n with
  | zero => rfl
  | succ w ih => simp [digitsOf, ih]

theorem digitsOf_digits (w n : ℕ) : ∀ c ∈ digitsOf w n, isDigit c = true := by
  induction w generalizing n with
  | zero => simp [digitsOf]
  | succ w ih =>
    intro c hc
    simp only [digitsOf, List.mem_append, List.mem_singleton] at hc
    rcases hc with hc | rfl
    · exact ih _ c hc
    · exact digit_isDigit n

theorem digitsOf_val (w n : ℕ) : digitsVal (digitsOf w n) = n % 10 ^ w := by
  induction w generalizing n with
  | zero => simp [digitsOf, digitsVal, Nat.mod_one]
  | succ w ih =>
    rw [digitsOf, digitsVal_append, ih]
    simp only [List.length_cons, List.length_nil, digitsVal, List.foldl_cons, List.foldl_nil, digit_toNat]
    rw [show 10 ^ (w + 1) = 10 * 10 ^ w by ring, Nat.mod_mul]
    omega

theorem mem_zeros {c : Char} {l : Str} (h : c ∈ l.takeWhile (· == '0')) : c = '0' := by
  induction l with
  | nil => simp at h
  | cons x l ih =>
    rw [List.takeWhile_cons] at h
    split at h
    · next hx =>
      rcases List.mem_cons.1 h with rfl | h
      · simpa using hx
      · exact ih h
    · simp at h

theorem stripZeros_spec (ds : Str) : ∃ k, ds = stripZeros ds ++ List.replicate k '0' := by
  refine ⟨(ds.reverse.takeWhile (· == '0')).length, ?_⟩
  have h := List.takeWhile_append_dropWhile (p := (· == '0')) (l := ds.reverse)
  have h2 : ds.reverse.takeWhile (· == '0') = List.replicate (ds.reverse.takeWhile (· == '0')).length '0' := by
    apply List.eq_replicate_of_mem
    intro c hc
    exact mem_zeros hc
  have h3 := congrArg List.reverse h
  rw [List.reverse_append, List.reverse_reverse] at h3
  rw [h2, List.reverse_replicate] at h3
  simp only at h3
  exact h3.symm

theorem digitsVal_zeros (k : ℕ) : digitsVal (List.replicate k '0') = 0 := by
  induction k with
  | zero => rfl
  | succ k ih => rw [List.replicate_succ', digitsVal_append, ih]; simp [digitsVal]

theorem scaled_zeros (i f : Str) (k : ℕ) (e : ℤ) : scaled i (f ++ List.replicate k '0') e = scaled i f e := by
  unfold scaled
  rw [← List.append_assoc, digitsVal_append, digitsVal_zeros]
  simp only [List.length_replicate, List.length_append, Nat.cast_add]
  rw [show e - ((f.length : ℤ) + k) = (e - f.length) + -(k : ℤ) by ring, zpow_add₀ (by norm_num), zpow_neg,
    zpow_natCast]
  push_cast
  field_simp
  ring

theorem scaled_strip (i f : Str) (e : ℤ) : scaled i (stripZeros f) e = scaled i f e := by
  obtain ⟨k, hk⟩ := stripZeros_spec f
  conv => rhs; rw [hk]
  rw [scaled_zeros]

theorem stripZeros_mem {ds : Str} {c : Char} (h : c ∈ stripZeros ds) : c ∈ ds := by
  obtain ⟨k, hk⟩ := stripZeros_spec ds
  rw [hk]
  exact List.mem_append_left _ h

theorem stripZeros_length (ds : Str) : (stripZeros ds).length ≤ ds.length := by
  obtain ⟨k, hk⟩ := stripZeros_spec ds
  conv => rhs; rw [hk]
  simp

/-- The text does not go on with something that belongs to a number. -/
def Ends (t : Str) : Prop := ∀ c ∈ t.head?, isDigit c = false ∧ c ≠ '.' ∧ c ≠ 'e' ∧ c ≠ 'E'

theorem ends_nil : Ends [] := by simp [Ends]
theorem ends_newline (r : Str) : Ends ('\n' :: r) := by
  simp only [Ends, List.head?_cons, Option.mem_def, Option.some.injEq]
  rintro c rfl
  decide

theorem takeWhile_digits {i t : Str} (hi : ∀ c ∈ i, isDigit c = true) (ht : ∀ c ∈ t.head?, isDigit c = false) :
    (i ++ t).takeWhile isDigit = i ∧ (i ++ t).dropWhile isDigit = t := by
  induction i with
  | nil =>
    cases t with
    | nil => simp
    | cons c t => simp [ht c (by simp)]
  | cons x i ih =>
    have hx := hi x (by simp)
    have := ih (fun c hc => hi c (by simp [hc]))
    simp [hx, this]

theorem readScaled_ends {i f t : Str} (hi : i ≠ []) (ht : Ends t) : readScaled i f t = some (scaled i f 0) := by
  unfold readScaled
  rw [if_neg (fun h => hi h.1)]
  split
  · exact absurd rfl (ht 'e' (by simp)).2.2.1
  · exact absurd rfl (ht 'E' (by simp)).2.2.2
  · rfl

theorem readExponent_text {e : ℤ} (he : e.natAbs < 1000) {t : Str} (ht : ∀ c ∈ t.head?, isDigit c = false) :
    readExponent (exponentText e ++ t) = some e := by
  have key : ∀ w, w = 2 ∨ w = 3 → e.natAbs < 10 ^ w →
      (digitsOf w e.natAbs ++ t).takeWhile isDigit = digitsOf w e.natAbs ∧ digitsOf w e.natAbs ≠ [] ∧
        digitsVal (digitsOf w e.natAbs) = e.natAbs := by
    intro w hw hlt
    refine ⟨(takeWhile_digits (digitsOf_digits w _) ht).1, ?_, ?_⟩
    · intro h
      have := congrArg List.length h
      rw [digitsOf_length] at this
      simp at this
      omega
    · rw [digitsOf_val, Nat.mod_eq_of_lt hlt]
  obtain ⟨w, hw, hlt, hw'⟩ : ∃ w, (w = 2 ∨ w = 3) ∧ e.natAbs < 10 ^ w ∧
      (if e.natAbs < 100 then digitsOf 2 e.natAbs else digitsOf 3 e.natAbs) = digitsOf w e.natAbs := by
    by_cases h : e.natAbs < 100
    · exact ⟨2, Or.inl rfl, h, if_pos h⟩
    · exact ⟨3, Or.inr rfl, he, if_neg h⟩
  obtain ⟨k1, k2, k3⟩ := key w hw hlt
  unfold exponentText
  rw [hw']
  by_cases h : e < 0
  · rw [if_pos h]
    simp only [List.cons_append, readExponent]
    rw [k1, if_neg k2, k3]
    congr 1
    omega
  · rw [if_neg h]
    simp only [List.cons_append, readExponent]
    rw [k1, if_neg k2, k3]
    congr 1
    omega

theorem isDigit_point : isDigit '.' = false := by decide
theorem isDigit_e : isDigit 'e' = false := by decide

theorem readMagnitude_parts {i f t : Str} (hi : ∀ c ∈ i, isDigit c = true) (hf : ∀ c ∈ f, isDigit c = true)
    (ht : ∀ c ∈ t.head?, isDigit c = false ∧ c ≠ '.') :
    readMagnitude (i ++ pointed f ++ t) = readScaled i f t := by
  unfold readMagnitude pointed
  by_cases h : f = []
  · subst h
    rw [if_pos rfl, List.append_nil]
    obtain ⟨h1, h2⟩ := takeWhile_digits hi (fun c hc => (ht c hc).1)
    rw [h1, h2]
    unfold readFraction
    split
    · exact absurd rfl (ht '.' (by simp)).2
    · rfl
  · rw [if_neg h, List.append_assoc]
    obtain ⟨h1, h2⟩ := takeWhile_digits (t := '.' :: f ++ t) hi (by
      simp only [List.cons_append, List.head?_cons, Option.mem_def, Option.some.injEq]
      rintro c rfl
      exact isDigit_point)
    rw [h1, h2]
    simp only [List.cons_append, readFraction]
    obtain ⟨h3, h4⟩ := takeWhile_digits hf (fun c hc => (ht c hc).1)
    rw [h3, h4]

theorem Ends.weak {t : Str} (ht : Ends t) : ∀ c ∈ t.head?, isDigit c = false ∧ c ≠ '.' :=
  fun c hc => ⟨(ht c hc).1, (ht c hc).2.1⟩

theorem scaled_digits {n : ℕ} (h : n < 10 ^ 15) {a : ℕ} (ha : a ≤ 15) (e : ℤ) :
    scaled ((digitsOf 15 n).take a) (stripZeros ((digitsOf 15 n).drop a)) e = n * 10 ^ (e - (15 - a)) := by
  rw [scaled_strip]
  unfold scaled
  rw [List.take_append_drop, digitsOf_val, Nat.mod_eq_of_lt h, List.length_drop, digitsOf_length]
  push_cast [Nat.cast_sub ha]
  rfl

theorem take_ne_nil {n a : ℕ} (ha : 1 ≤ a) : (digitsOf 15 n).take a ≠ [] := by
  intro h
  have := congrArg List.length h
  rw [List.length_take, digitsOf_length] at this
  simp at this
  omega

/-- The text of 15 digits reads as the number they stand for. -/
theorem readMagnitude_significant {n : ℕ} {e : ℤ} (h : n < 10 ^ 15) (he : e.natAbs < 1000) {t : Str}
    (ht : Ends t) : readMagnitude (significantText n e ++ t) = some (decimal n e) := by
  have hd := digitsOf_digits 15 n
  have hdt : ∀ a, ∀ c ∈ (digitsOf 15 n).take a, isDigit c = true := fun a c hc => hd c (List.mem_of_mem_take hc)
  have hdd : ∀ a, ∀ c ∈ stripZeros ((digitsOf 15 n).drop a), isDigit c = true :=
    fun a c hc => hd c (List.mem_of_mem_drop (stripZeros_mem hc))
  unfold significantText
  split
  · rw [List.append_assoc, List.cons_append, readMagnitude_parts (hdt 1) (hdd 1) (by
      simp only [List.head?_cons, Option.mem_def, Option.some.injEq]
      rintro c rfl
      decide)]
    unfold readScaled
    rw [if_neg (fun hh => take_ne_nil (le_refl 1) hh.1)]
    simp only
    rw [readExponent_text he (fun c hc => (ht c hc).1), Option.map_some, scaled_digits h (by norm_num)]
    rfl
  · next h1 =>
    have h1' : -4 ≤ e ∧ e < 15 := by omega
    split
    · next h2 =>
      rw [readMagnitude_parts (hdt _) (hdd _) ht.weak, readScaled_ends (take_ne_nil (by omega)) ht,
        scaled_digits h (by omega)]
      unfold decimal
      congr 3
      push_cast
      omega
    · next h2 =>
      have e1 : '0' :: '.' :: (List.replicate (-e - 1).toNat '0' ++ stripZeros (digitsOf 15 n)) ++ t
          = ['0'] ++ ('.' :: (List.replicate (-e - 1).toNat '0' ++ stripZeros (digitsOf 15 n))) ++ t := by simp
      have hf : ∀ c ∈ List.replicate (-e - 1).toNat '0' ++ stripZeros (digitsOf 15 n), isDigit c = true := by
        intro c hc
        rcases List.mem_append.1 hc with hc | hc
        · rw [(List.mem_replicate.1 hc).2]; decide
        · exact hd c (stripZeros_mem hc)
      have hv : readMagnitude ('0' :: '.' :: (List.replicate (-e - 1).toNat '0' ++ stripZeros (digitsOf 15 n)) ++ t)
          = some (scaled ['0'] (List.replicate (-e - 1).toNat '0' ++ stripZeros (digitsOf 15 n)) 0) := by
        rw [e1]
        unfold readMagnitude
        rw [List.append_assoc]
        obtain ⟨h3, h4⟩ := takeWhile_digits (i := ['0'])
          (t := '.' :: (List.replicate (-e - 1).toNat '0' ++ stripZeros (digitsOf 15 n)) ++ t) (by
            intro c hc
            rw [List.mem_singleton.1 hc]; decide) (by
          simp only [List.cons_append, List.head?_cons, Option.mem_def, Option.some.injEq]
          rintro c rfl
          exact isDigit_point)
        rw [h3, h4]
        simp only [List.cons_append, readFraction]
        obtain ⟨h5, h6⟩ := takeWhile_digits hf (fun c hc => (ht c hc).1)
        rw [h5, h6]
        exact readScaled_ends (by simp) ht
      rw [hv]
      obtain ⟨k, hk⟩ := stripZeros_spec (digitsOf 15 n)
      rw [← scaled_zeros _ _ k, List.append_assoc, ← hk]
      unfold scaled decimal
      have hz : digitsVal (['0'] ++ (List.replicate (-e - 1).toNat '0' ++ digitsOf 15 n)) = n := by
        rw [digitsVal_append, digitsVal_append, digitsVal_zeros, digitsOf_val, Nat.mod_eq_of_lt h]
        simp [digitsVal]
      rw [hz]
      congr 3
      rw [List.length_append, List.length_replicate, digitsOf_length]
      push_cast
      omega

/-- The text begins with a digit. -/
theorem significantText_head {n : ℕ} {e : ℤ} :
    ∃ c r, significantText n e = c :: r ∧ isDigit c = true := by
  obtain ⟨c, r, hcr⟩ : ∃ c r, digitsOf 15 n = c :: r := by
    cases h : digitsOf 15 n with
    | nil => have := digitsOf_length 15 n; rw [h] at this; simp at this
    | cons c r => exact ⟨c, r, rfl⟩
  have hc : isDigit c = true := digitsOf_digits 15 n c (by rw [hcr]; simp)
  unfold significantText
  split
  · exact ⟨c, pointed (stripZeros ((digitsOf 15 n).drop 1)) ++ 'e' :: exponentText e, by rw [hcr]; simp, hc⟩
  · split
    · exact ⟨c, r.take e.toNat ++ pointed (stripZeros ((digitsOf 15 n).drop (e.toNat + 1))), by rw [hcr]; simp, hc⟩
    · exact ⟨_, _, rfl, by decide⟩

def numberChar (c : Char) : Prop := isDigit c = true ∨ c = '-' ∨ c = '+' ∨ c = '.' ∨ c = 'e'

theorem significantText_chars {n : ℕ} {e : ℤ} : ∀ c ∈ significantText n e, numberChar c := by
  have hd := digitsOf_digits 15 n
  have hp : ∀ a, ∀ c ∈ pointed (stripZeros ((digitsOf 15 n).drop a)), numberChar c := by
    intro a c hc
    unfold pointed at hc
    split at hc
    · simp at hc
    · rcases List.mem_cons.1 hc with rfl | hc
      · exact Or.inr (Or.inr (Or.inr (Or.inl rfl)))
      · exact Or.inl (hd c (List.mem_of_mem_drop (stripZeros_mem hc)))
  intro c hc
  unfold significantText at hc
  split at hc
  · rcases List.mem_append.1 hc with hc | hc
    · rcases List.mem_append.1 hc with hc | hc
      · exact Or.inl (hd c (List.mem_of_mem_take hc))
      · exact hp _ c hc
    · rcases List.mem_cons.1 hc with rfl | hc
      · exact Or.inr (Or.inr (Or.inr (Or.inr rfl)))
      · unfold exponentText at hc
        rcases List.mem_cons.1 hc with rfl | hc
        · split
          · exact Or.inr (Or.inl rfl)
          · exact Or.inr (Or.inr (Or.inl rfl))
        · split at hc <;> exact Or.inl (digitsOf_digits _ _ c hc)
  · split at hc
    · rcases List.mem_append.1 hc with hc | hc
      · exact Or.inl (hd c (List.mem_of_mem_take hc))
      · exact hp _ c hc
    · rcases List.mem_cons.1 hc with rfl | hc
      · exact Or.inl (by decide)
      · rcases List.mem_cons.1 hc with rfl | hc
        · exact Or.inr (Or.inr (Or.inr (Or.inl rfl)))
        · rcases List.mem_append.1 hc with hc | hc
          · rw [(List.mem_replicate.1 hc).2]; exact Or.inl (by decide)
          · exact Or.inl (hd c (stripZeros_mem hc))

theorem significantText_length {n : ℕ} {e : ℤ} : (significantText n e).length ≤ 31 := by
  have hl := digitsOf_length 15 n
  have hp : ∀ a, (pointed (stripZeros ((digitsOf 15 n).drop a))).length ≤ 15 - a + 1 := by
    intro a
    have := stripZeros_length ((digitsOf 15 n).drop a)
    rw [List.length_drop, hl] at this
    unfold pointed
    split
    · simp
    · simp; omega
  unfold significantText
  split
  · have := hp 1
    simp only [List.length_append, List.length_take, hl, List.length_cons, exponentText]
    split <;> rw [digitsOf_length] <;> omega
  · split
    · have := hp (e.toNat + 1)
      simp only [List.length_append, List.length_take, hl]
      omega
    · have := stripZeros_length (digitsOf 15 n)
      rw [hl] at this
      simp only [List.length_cons, List.length_append, List.length_replicate]
      omega

theorem isDigit_not_space {c : Char} (h : isDigit c = true) : isSpace c = false := by
  unfold isDigit at h
  simp only [Bool.and_eq_true, decide_eq_true_eq] at h
  unfold isSpace
  by_contra hc
  simp only [Bool.not_eq_false, Bool.or_eq_true, decide_eq_true_eq] at hc
  rcases hc with ((((rfl | rfl) | rfl) | rfl) | rfl) | rfl <;> revert h <;> decide

theorem isDigit_not_minus {c : Char} (h : isDigit c = true) : c ≠ '-' ∧ c ≠ '+' := by
  constructor <;> (rintro rfl; revert h; decide)

theorem magnitudeText_head (x : ℚ) : ∃ c r, magnitudeText x = c :: r ∧ isDigit c = true := by
  unfold magnitudeText
  split
  · exact ⟨_, _, rfl, by decide⟩
  · exact significantText_head

theorem readSigned_digit {c : Char} {r : Str} (h : isDigit c = true) :
    readSigned (c :: r) = (readMagnitude (c :: r)).map fun q => (false, q) := by
  obtain ⟨h1, h2⟩ := isDigit_not_minus h
  unfold readSigned
  split
  · next heq => exact absurd (List.cons.inj heq).1 h1
  · next heq => exact absurd (List.cons.inj heq).1 h2
  · rfl

theorem readDouble_write {x q : ℚ} {t : Str} {b : Bool} (h : readMagnitude (magnitudeText x ++ t) = some q) :
    readDouble (writeDouble (b, x) ++ t) = (b, toDouble q) := by
  obtain ⟨c, r, hc, hd⟩ := magnitudeText_head x
  have hs := isDigit_not_space hd
  unfold writeDouble readDouble
  cases b
  · simp only [Bool.false_eq_true, if_false]
    rw [hc] at h ⊢
    simp only [List.cons_append] at h ⊢
    rw [List.dropWhile_cons_of_neg (by simp [hs]), readSigned_digit hd, h]
    rfl
  · simp only [if_true, List.cons_append]
    rw [List.dropWhile_cons_of_neg (by decide)]
    simp only [readSigned]
    rw [h]
    rfl

theorem significant_nonpos {x : ℚ} (h : x ≤ 0) : (significant x).1 = 0 := by
  have hu := unit_pos (exponent x - 14)
  have hn := (abs_le.1 (nearest_near (x / 10 ^ (exponent x - 14)))).2
  have h1 : x / 10 ^ (exponent x - 14) ≤ 0 := div_nonpos_of_nonpos_of_nonneg h hu.le
  have h2 : (nearest (x / 10 ^ (exponent x - 14)) : ℚ) < 1 := by linarith
  have h3 : nearest (x / 10 ^ (exponent x - 14)) < 1 := by exact_mod_cast h2
  have h4 : (nearest (x / 10 ^ (exponent x - 14))).toNat = 0 := by omega
  unfold significant
  rw [h4, if_neg (by norm_num)]

theorem significant_range {x : ℚ} (hx : OnGrid x) : (significant x).2.natAbs < 1000 := by
  obtain ⟨h0, hlt, m, hm⟩ := hx
  have h1 := exponent_le h0
  have h2 := lt_exponent x
  have hm1 : 1 ≤ m := by
    by_contra hc
    have : (m : ℚ) ≤ 0 := by exact_mod_cast (by omega : m ≤ 0)
    have hp : (0 : ℚ) < 2 ^ (-1074 : ℤ) := zpow_pos (by norm_num) _
    have := mul_nonpos_of_nonpos_of_nonneg this hp.le
    rw [← hm] at this
    exact absurd h0 (not_lt.2 this)
  have hge : (2 : ℚ) ^ (-1074 : ℤ) ≤ x := by
    rw [hm]
    have : (1 : ℚ) ≤ m := by exact_mod_cast hm1
    exact le_mul_of_one_le_left (zpow_pos (by norm_num) _).le this
  have h3 : exponent x < 310 := by
    have : (10 : ℚ) ^ exponent x < 10 ^ (310 : ℤ) :=
      lt_of_le_of_lt h1 (lt_trans hlt (by set_option exponentiation.threshold 3000 in norm_num))
    exact (zpow_lt_zpow_iff_right₀ (by norm_num)).1 this
  have h4 : -330 < exponent x + 1 := by
    have : (10 : ℚ) ^ (-330 : ℤ) < 10 ^ (exponent x + 1) :=
      lt_of_le_of_lt (le_trans (by set_option exponentiation.threshold 3000 in norm_num) hge) h2
    exact (zpow_lt_zpow_iff_right₀ (by norm_num)).1 this
  unfold significant
  split <;> simp only <;> omega

theorem readMagnitude_zero {t : Str} (ht : Ends t) : readMagnitude (['0'] ++ t) = some 0 := by
  have h := readMagnitude_parts (i := ['0']) (f := []) (t := t)
    (fun c hc => by rw [List.mem_singleton.1 hc]; decide) (by simp) ht.weak
  simp only [pointed, if_true, List.append_nil] at h
  rw [h, readScaled_ends (by simp) ht]
  simp [scaled, digitsVal]

/-- What is written for a double is what is written for the double read from it. -/
theorem write_again {b : Bool} {x : ℚ} (hx : x = 0 ∨ OnGrid x) {t : Str} (ht : Ends t) :
    writeDouble (readDouble (writeDouble (b, x) ++ t)) = writeDouble (b, x) := by
  rcases hx with rfl | hx
  · have h : readMagnitude (magnitudeText 0 ++ t) = some 0 := by
      unfold magnitudeText
      rw [if_pos (le_refl _)]
      exact readMagnitude_zero ht
    rw [readDouble_write h]
    unfold toDouble
    rw [if_pos (le_refl _)]
  · obtain ⟨s1, s2, _⟩ := significant_spec hx.1
    have h : readMagnitude (magnitudeText x ++ t) = some (decimal (significant x).1 (significant x).2) := by
      unfold magnitudeText
      rw [if_neg (not_le.2 hx.1)]
      exact readMagnitude_significant s2 (significant_range hx) ht
    rw [readDouble_write h]
    have ha := significant_again hx
    have hp : ¬ toDouble (decimal (significant x).1 (significant x).2) ≤ 0 := by
      intro hc
      have h5 := significant_nonpos hc
      rw [ha] at h5
      omega
    have hm : magnitudeText (toDouble (decimal (significant x).1 (significant x).2)) = magnitudeText x := by
      unfold magnitudeText
      rw [if_neg hp, if_neg (not_le.2 hx.1), ha]
    unfold writeDouble
    rw [hm]

theorem nearest_nonneg {q : ℚ} (h : 0 ≤ q) : 0 ≤ nearest q := by
  have := Int.floor_nonneg.2 h
  unfold nearest
  split <;> omega

theorem toDouble_grid_or (q : ℚ) : toDouble q = 0 ∨ OnGrid (toDouble q) := by
  by_cases h : 0 < toDouble q
  · exact Or.inr (onGrid_toDouble h)
  · left
    unfold toDouble at h ⊢
    split at h
    · next hq => rw [if_pos hq]
    · next hq =>
      rw [if_neg hq]
      split at h
      · exact absurd (by unfold maxDouble; norm_num) h
      · next h2 =>
        rw [if_neg h2]
        have : 0 ≤ rounded q := by
          unfold rounded
          have hu := ulp_pos q
          exact mul_nonneg (by exact_mod_cast nearest_nonneg (div_nonneg (not_le.1 hq).le hu.le)) hu.le
        exact le_antisymm (not_lt.1 h) this

theorem readDouble_grid (s : Str) : (readDouble s).2 = 0 ∨ OnGrid (readDouble s).2 := by
  unfold readDouble
  split
  · exact toDouble_grid_or _
  · exact Or.inl rfl

theorem writeDouble_isNum (d : Bool × ℚ) : IsNumText (writeDouble d) := by
  obtain ⟨b, x⟩ := d
  obtain ⟨c, r, hc, hd⟩ := magnitudeText_head x
  have hch : ∀ c ∈ magnitudeText x, numberChar c := by
    unfold magnitudeText
    split
    · intro c hc
      rw [List.mem_singleton.1 hc]
      exact Or.inl (by decide)
    · exact significantText_chars
  have hl : (magnitudeText x).length ≤ 31 := by
    unfold magnitudeText
    split
    · simp
    · exact significantText_length
  unfold writeDouble
  cases b
  · simp only [Bool.false_eq_true, if_false]
    exact ⟨⟨c, r, Or.inl hc, hd⟩, hch, by omega⟩
  · simp only [if_true]
    refine ⟨⟨c, r, Or.inr (by rw [hc]), hd⟩, ?_, by simp; omega⟩
    intro y hy
    rcases List.mem_cons.1 hy with rfl | hy
    · exact Or.inr (Or.inl rfl)
    · exact hch y hy

/-! ## Integers -/

theorem dropZeros_spec (ds : Str) : ∃ k, ds = List.replicate k '0' ++ ds.dropWhile (· == '0') := by
  refine ⟨(ds.takeWhile (· == '0')).length, ?_⟩
  have h := List.takeWhile_append_dropWhile (p := (· == '0')) (l := ds)
  have h2 : ds.takeWhile (· == '0') = List.replicate (ds.takeWhile (· == '0')).length '0' := by
    apply List.eq_replicate_of_mem
    intro c hc
    exact mem_zeros hc
  rw [h2] at h
  simp only at h
  exact h.symm

theorem natDigits_val {n : ℕ} (h : n < 10 ^ 10) : digitsVal ((digitsOf 10 n).dropWhile (· == '0')) = n := by
  obtain ⟨k, hk⟩ := dropZeros_spec (digitsOf 10 n)
  have h2 := digitsOf_val 10 n
  rw [hk, digitsVal_append, digitsVal_zeros, Nat.mod_eq_of_lt h] at h2
  omega

theorem natDigits_digits (n : ℕ) : ∀ c ∈ (digitsOf 10 n).dropWhile (· == '0'), isDigit c = true := by
  intro c hc
  obtain ⟨k, hk⟩ := dropZeros_spec (digitsOf 10 n)
  exact digitsOf_digits 10 n c (by rw [hk]; exact List.mem_append_right _ hc)

theorem natDigits_length (n : ℕ) : ((digitsOf 10 n).dropWhile (· == '0')).length ≤ 10 := by
  obtain ⟨k, hk⟩ := dropZeros_spec (digitsOf 10 n)
  have h2 := congrArg List.length hk
  rw [digitsOf_length, List.length_append] at h2
  omega

theorem natDigits_head {n : ℕ} (h0 : 0 < n) (h : n < 10 ^ 10) :
    ∃ c r, (digitsOf 10 n).dropWhile (· == '0') = c :: r ∧ isDigit c = true := by
  cases hd : (digitsOf 10 n).dropWhile (· == '0') with
  | nil =>
    have := natDigits_val h
    rw [hd] at this
    simp [digitsVal] at this
    omega
  | cons c r => exact ⟨c, r, rfl, natDigits_digits n c (by rw [hd]; simp)⟩

/-- An `int` is read as it was written. -/
theorem readInt_write {i : ℤ} (h1 : -2147483648 ≤ i) (h2 : i ≤ 2147483647) : readInt (writeInt i) = i := by
  have hb : i.natAbs < 10 ^ 10 := by omega
  unfold writeInt
  split
  · next h =>
    unfold readInt
    rw [List.dropWhile_cons_of_neg (by decide)]
    have ht := (takeWhile_digits (t := []) (natDigits_digits i.natAbs) (by simp)).1
    rw [List.append_nil] at ht
    simp only [readInteger]
    rw [ht, natDigits_val hb]
    omega
  · split
    · next h => subst h; rfl
    · next h h' =>
      obtain ⟨c, r, hc, hd⟩ := natDigits_head (n := i.natAbs) (by omega) hb
      have hv := natDigits_val hb
      have ht := (takeWhile_digits (t := []) (natDigits_digits i.natAbs) (by simp)).1
      rw [List.append_nil] at ht
      unfold readInt
      rw [hc] at hv ht ⊢
      rw [List.dropWhile_cons_of_neg (by simp [isDigit_not_space hd])]
      have : readInteger (c :: r) = digitsVal ((c :: r).takeWhile isDigit) := by
        obtain ⟨n1, n2⟩ := isDigit_not_minus hd
        unfold readInteger
        split
        · next heq => exact absurd (List.cons.inj heq).1 n1
        · next heq => exact absurd (List.cons.inj heq).1 n2
        · rfl
      rw [this, ht, hv]
      omega

theorem writeInt_isNum {i : ℤ} (h1 : -2147483648 ≤ i) (h2 : i ≤ 2147483647) : IsNumText (writeInt i) := by
  unfold writeInt
  split
  · next h =>
    obtain ⟨c, r, hc, hd⟩ := natDigits_head (n := i.natAbs) (by omega) (by omega)
    refine ⟨⟨c, r, Or.inr (by rw [hc]), hd⟩, ?_, ?_⟩
    · intro y hy
      rcases List.mem_cons.1 hy with rfl | hy
      · exact Or.inr (Or.inl rfl)
      · exact Or.inl (natDigits_digits _ y hy)
    · have := natDigits_length i.natAbs
      simp only [List.length_cons]
      omega
  · split
    · exact ⟨⟨'0', [], Or.inl rfl, by decide⟩, by decide, by decide⟩
    · obtain ⟨c, r, hc, hd⟩ := natDigits_head (n := i.natAbs) (by omega) (by omega)
      refine ⟨⟨c, r, Or.inl hc, hd⟩, fun y hy => Or.inl (natDigits_digits _ y hy), ?_⟩
      have := natDigits_length i.natAbs
      omega

end Kml.Ieee
