import Verif.Model.Color32
import Mathlib.Tactic.IntervalCases
namespace Kml.Color32

theorem skipSpace_append {ws rest : Str} (h : ∀ c ∈ ws, isSpace c = true)
    (hr : ∀ c, rest.head? = some c → isSpace c = false) :
    skipSpace (ws ++ rest) = ws.length := by
  induction ws with
  | nil =>
    cases rest with
    | nil => rfl
    | cons c r => simp [skipSpace, hr c rfl]
  | cons c ws ih =>
    simp only [List.cons_append, skipSpace, h c (by simp), if_true, List.length_cons]
    rw [ih (fun c hc => h c (by simp [hc]))]

theorem setAll (old out : Color) :
    setAlpha (setBlue (setGreen (setRed old ((out &&& 0xff#32).truncate 8))
      (((out >>> 8) &&& 0xff#32).truncate 8)) (((out >>> 16) &&& 0xff#32).truncate 8))
      (((out >>> 24) &&& 0xff#32).truncate 8) = out := by
  unfold setAlpha setBlue setGreen setRed
  ext i hi
  interval_cases i <;> simp

end Kml.Color32
namespace Kml

theorem toNat_ofNat_small {n : Nat} (h : n < 0xd800) : (Char.ofNat n).toNat = n := by
  have hv : n.isValidChar := Or.inl h
  unfold Char.ofNat
  rw [dif_pos hv]
  simp [Char.toNat, Char.ofNatAux]

theorem toLower_toNat (c : Char) :
    (toLower c).toNat = if 65 ≤ c.toNat ∧ c.toNat ≤ 90 then c.toNat + 32 else c.toNat := by
  unfold toLower
  by_cases h : 65 ≤ c.toNat ∧ c.toNat ≤ 90
  · rw [if_pos (by simpa using h), if_pos h, toNat_ofNat_small (by omega)]
  · rw [if_neg (by simpa using h), if_neg h]

theorem toLower_idem (c : Char) : toLower (toLower c) = toLower c := by
  apply Char.toNat_inj.mp
  have h1 := toLower_toNat c
  have h2 := toLower_toNat (toLower c)
  split at h1 <;> split at h2 <;> omega

theorem isDigit_toLower (c : Char) : isDigit (toLower c) = isDigit c := by
  unfold isDigit
  rw [toLower_toNat c, Bool.eq_iff_iff]
  simp only [Bool.and_eq_true, decide_eq_true_eq]
  split <;> omega

namespace Color32

theorem digitValue_toLower (c : Char) : digitValue (toLower c) = digitValue c := by
  unfold digitValue
  simp only [toLower_idem, isDigit_toLower]
  cases hd : isDigit c
  · simp
  · have : (toLower c).toNat = c.toNat := by
      unfold isDigit at hd
      simp only [Bool.and_eq_true, decide_eq_true_eq] at hd
      rw [toLower_toNat c]; split <;> omega
    simp only [this]

theorem digitValue_hex : ∀ n : Fin 16, digitValue (hexMap.getD n.val '?') = BitVec.ofNat 32 n := by
  decide

theorem hexMap_gt : ∀ n : Fin 16, 40 < (hexMap.getD n.val '?').toNat ∧ (hexMap.getD n.val '?').toNat < 110 := by
  decide

theorem hex_not_space (n : Fin 16) (t : Char) (ht : toLower t = hexMap.getD n.val '?') :
    isSpace t = false ∧ t ≠ '#' := by
  have h1 := toLower_toNat t
  rw [ht] at h1
  have h2 := hexMap_gt n
  have key : t.toNat > 40 := by split at h1 <;> omega
  constructor
  · unfold isSpace
    simp only [Bool.or_eq_false_iff, decide_eq_false_iff_not]
    refine ⟨⟨⟨⟨⟨?_, ?_⟩, ?_⟩, ?_⟩, ?_⟩, ?_⟩ <;> (rintro rfl; revert key; decide)
  · rintro rfl; revert key; decide

theorem nibNat (b : BitVec 32) : (b &&& 0xf#32).toNat = b.toNat % 16 := by
  rw [BitVec.toNat_and]; exact Nat.and_two_pow_sub_one_eq_mod _ 4

theorem getRed_toNat (c : Color) : (getRed c).toNat = c.toNat % 256 := by
  unfold getRed; rw [BitVec.toNat_and]; exact Nat.and_two_pow_sub_one_eq_mod _ 8

theorem getGreen_toNat (c : Color) : (getGreen c).toNat = c.toNat / 256 % 256 := by
  have : getGreen c = (c >>> 8) &&& 0xff#32 := by
    unfold getGreen; ext i hi; interval_cases i <;> simp
  rw [this, BitVec.toNat_and, BitVec.toNat_ushiftRight, Nat.shiftRight_eq_div_pow]
  exact Nat.and_two_pow_sub_one_eq_mod _ 8

theorem getBlue_toNat (c : Color) : (getBlue c).toNat = c.toNat / 65536 % 256 := by
  have : getBlue c = (c >>> 16) &&& 0xff#32 := by
    unfold getBlue; ext i hi; interval_cases i <;> simp
  rw [this, BitVec.toNat_and, BitVec.toNat_ushiftRight, Nat.shiftRight_eq_div_pow]
  exact Nat.and_two_pow_sub_one_eq_mod _ 8

theorem getAlpha_toNat (c : Color) : (getAlpha c).toNat = c.toNat / 16777216 % 256 := by
  have : getAlpha c = (c >>> 24) &&& 0xff#32 := by
    unfold getAlpha; ext i hi; interval_cases i <;> simp
  rw [this, BitVec.toNat_and, BitVec.toNat_ushiftRight, Nat.shiftRight_eq_div_pow]
  exact Nat.and_two_pow_sub_one_eq_mod _ 8

/-- The eight nibbles of a colour, most significant first, reassemble to the colour. -/
theorem reassemble (c : Color) :
    ((((((((0#32 * 16#32 + ((getAlpha c >>> 4) &&& 0xf#32)) * 16#32 + (getAlpha c &&& 0xf#32)) * 16#32
      + ((getBlue c >>> 4) &&& 0xf#32)) * 16#32 + (getBlue c &&& 0xf#32)) * 16#32
      + ((getGreen c >>> 4) &&& 0xf#32)) * 16#32
      + (getGreen c &&& 0xf#32)) * 16#32 + ((getRed c >>> 4) &&& 0xf#32)) * 16#32
      + (getRed c &&& 0xf#32)) = c := by
  apply BitVec.eq_of_toNat_eq
  simp only [BitVec.toNat_add, BitVec.toNat_mul, nibNat, BitVec.toNat_ushiftRight,
    Nat.shiftRight_eq_div_pow, getRed_toNat, getGreen_toNat, getBlue_toNat, getAlpha_toNat,
    BitVec.toNat_ofNat]
  have := c.isLt
  omega

/-- The parse loop over characters that are all inside the string is a fold. -/
theorem parseLoop_eq (s : Str) (n i : Nat) (out : BitVec 32) (h : i + n ≤ s.length) :
    parseLoop s n i out =
      .ok (((s.drop i).take n).foldl (fun o c => o * 16#32 + digitValue c) out) := by
  induction n generalizing i out with
  | zero => simp [parseLoop]
  | succ n ih =>
    have hi : i < s.length := by omega
    have hc : charAt s i = .ok s[i] := by simp [charAt, hi]
    rw [parseLoop, hc, Outcome.ok_bind, ih (i + 1) _ (by omega),
      List.drop_eq_getElem_cons hi, List.take_succ_cons, List.foldl_cons]

theorem parseLoop_ub (s : Str) (n i : Nat) (out : BitVec 32) (h : i + n > s.length + 1)
    (h2 : i ≤ s.length + 1) : parseLoop s n i out = .ub := by
  induction n generalizing i out with
  | zero => omega
  | succ n ih =>
    rw [parseLoop]
    by_cases hi : i < s.length
    · have hc : charAt s i = .ok s[i] := by simp [charAt, hi]
      rw [hc, Outcome.ok_bind, ih _ _ (by omega) (by omega)]
    · by_cases he : i = s.length
      · have hc : charAt s i = .ok '\x00' := by simp [charAt, he]
        rw [hc, Outcome.ok_bind, ih _ _ (by omega) (by omega)]
      · have hc : charAt s i = .ub := by
          have : s[i]? = none := by simp; omega
          simp [charAt, this, he]
        rw [hc, Outcome.ub_bind]

theorem parseLoop_safe (s : Str) (n i : Nat) (out : BitVec 32) (h : i + n ≤ s.length + 1) :
    (parseLoop s n i out).Safe := by
  induction n generalizing i out with
  | zero => simp [parseLoop]
  | succ n ih =>
    have hc : (charAt s i).Safe := by
      by_cases hi : i < s.length
      · simp [charAt, hi]
      · have he : i = s.length := by omega
        simp [charAt, he]
    obtain ⟨c, hc⟩ := hc
    rw [parseLoop, hc, Outcome.ok_bind]
    exact ih _ _ (by omega)

theorem skipSpace_le (s : Str) : skipSpace s ≤ s.length := by
  induction s with
  | nil => simp [skipSpace]
  | cons c s ih => unfold skipSpace; split <;> simp <;> omega

/-- `setFromString` once the position of the first digit is known. -/
theorem setFromString_eq (old : Color) (s : Str) (c : Char) (hc : charAt s (skipSpace s) = .ok c) :
    let off := if 0 < s.length && c = '#' then skipSpace s + 1 else skipSpace s
    setFromString old s =
      parseLoop s (if s.length ≥ 8 + off then 8 else s.length) off 0#32 := by
  intro off
  unfold setFromString
  simp only [hc, Outcome.ok_bind]
  change (parseLoop s (if s.length ≥ 8 + off then 8 else s.length) off 0#32 >>= _) = _
  cases parseLoop s (if s.length ≥ 8 + off then 8 else s.length) off 0#32 with
  | ok out => simp only [Outcome.ok_bind]; rw [setAll]
  | ub => rfl
  | throws => rfl

theorem getRed_setRed (c : Color) (v : BitVec 8) : getRed (setRed c v) = v.zeroExtend 32 := by
  unfold getRed setRed; ext i hi; interval_cases i <;> simp
theorem getGreen_setRed (c : Color) (v : BitVec 8) : getGreen (setRed c v) = getGreen c := by
  unfold getGreen setRed; ext i hi; interval_cases i <;> simp
theorem getBlue_setRed (c : Color) (v : BitVec 8) : getBlue (setRed c v) = getBlue c := by
  unfold getBlue setRed; ext i hi; interval_cases i <;> simp
theorem getAlpha_setRed (c : Color) (v : BitVec 8) : getAlpha (setRed c v) = getAlpha c := by
  unfold getAlpha setRed; ext i hi; interval_cases i <;> simp
theorem getRed_setGreen (c : Color) (v : BitVec 8) : getRed (setGreen c v) = getRed c := by
  unfold getRed setGreen; ext i hi; interval_cases i <;> simp
theorem getGreen_setGreen (c : Color) (v : BitVec 8) : getGreen (setGreen c v) = v.zeroExtend 32 := by
  unfold getGreen setGreen; ext i hi; interval_cases i <;> simp
theorem getBlue_setGreen (c : Color) (v : BitVec 8) : getBlue (setGreen c v) = getBlue c := by
  unfold getBlue setGreen; ext i hi; interval_cases i <;> simp
theorem getAlpha_setGreen (c : Color) (v : BitVec 8) : getAlpha (setGreen c v) = getAlpha c := by
  unfold getAlpha setGreen; ext i hi; interval_cases i <;> simp
theorem getRed_setBlue (c : Color) (v : BitVec 8) : getRed (setBlue c v) = getRed c := by
  unfold getRed setBlue; ext i hi; interval_cases i <;> simp
theorem getGreen_setBlue (c : Color) (v : BitVec 8) : getGreen (setBlue c v) = getGreen c := by
  unfold getGreen setBlue; ext i hi; interval_cases i <;> simp
theorem getBlue_setBlue (c : Color) (v : BitVec 8) : getBlue (setBlue c v) = v.zeroExtend 32 := by
  unfold getBlue setBlue; ext i hi; interval_cases i <;> simp
theorem getAlpha_setBlue (c : Color) (v : BitVec 8) : getAlpha (setBlue c v) = getAlpha c := by
  unfold getAlpha setBlue; ext i hi; interval_cases i <;> simp
theorem getRed_setAlpha (c : Color) (v : BitVec 8) : getRed (setAlpha c v) = getRed c := by
  unfold getRed setAlpha; ext i hi; interval_cases i <;> simp
theorem getGreen_setAlpha (c : Color) (v : BitVec 8) : getGreen (setAlpha c v) = getGreen c := by
  unfold getGreen setAlpha; ext i hi; interval_cases i <;> simp
theorem getBlue_setAlpha (c : Color) (v : BitVec 8) : getBlue (setAlpha c v) = getBlue c := by
  unfold getBlue setAlpha; ext i hi; interval_cases i <;> simp
theorem getAlpha_setAlpha (c : Color) (v : BitVec 8) : getAlpha (setAlpha c v) = v.zeroExtend 32 := by
  unfold getAlpha setAlpha; ext i hi; interval_cases i <;> simp

end Color32
end Kml
