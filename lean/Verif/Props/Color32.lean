import Verif.Lemmas.Color32
/-!
# Properties C01, C02, C03: colours

`Color32` values are the 32-bit numbers `0xaabbggrr`.
-/
namespace Kml.Color32

/-! ## C01 Colour text round trip -/

/-- Specification: the text of a colour is the eight lower-case hexadecimal digits of its number. -/
def specText (c : Color) : Str :=
  let digit (k : Nat) : Char := "0123456789abcdef".toList.getD (c.toNat / 16 ^ k % 16) '?'
  [digit 7, digit 6, digit 5, digit 4, digit 3, digit 2, digit 1, digit 0]

theorem C01_text_is_hex (c : Color) : toStringAbgr c = specText c := by
  have hm : hexMap = "0123456789abcdef".toList := rfl
  have h4 : ∀ b : BitVec 32, ((b >>> 4) &&& 0xf#32).toNat = b.toNat / 16 % 16 := by
    intro b; rw [nibNat, BitVec.toNat_ushiftRight, Nat.shiftRight_eq_div_pow]
  simp only [toStringAbgr, b2aHex, specText, List.cons_append, List.nil_append, hm, h4, nibNat,
    getRed_toNat, getGreen_toNat, getBlue_toNat, getAlpha_toNat]
  have := c.isLt
  have e1 : c.toNat / 16777216 % 256 / 16 % 16 = c.toNat / 16 ^ 7 % 16 := by omega
  have e2 : c.toNat / 16777216 % 256 % 16 = c.toNat / 16 ^ 6 % 16 := by omega
  have e3 : c.toNat / 65536 % 256 / 16 % 16 = c.toNat / 16 ^ 5 % 16 := by omega
  have e4 : c.toNat / 65536 % 256 % 16 = c.toNat / 16 ^ 4 % 16 := by omega
  have e5 : c.toNat / 256 % 256 / 16 % 16 = c.toNat / 16 ^ 3 % 16 := by omega
  have e6 : c.toNat / 256 % 256 % 16 = c.toNat / 16 ^ 2 % 16 := by omega
  have e7 : c.toNat % 256 / 16 % 16 = c.toNat / 16 ^ 1 % 16 := by omega
  have e8 : c.toNat % 256 % 16 = c.toNat / 16 ^ 0 % 16 := by omega
  rw [e1, e2, e3, e4, e5, e6, e7, e8]

/-- Reading back the text of a colour gives the colour: in any letter case, after any white space and
an optional `#`, whatever follows, and whatever the colour held before. -/
theorem C01_round_trip (old c : Color) (ws t rest : Str) (hash : Bool)
    (hws : ∀ x ∈ ws, isSpace x = true) (ht : t.map toLower = toStringAbgr c) :
    setFromString old (ws ++ (if hash then ['#'] else []) ++ t ++ rest) = .ok c := by
  have hlen : t.length = 8 := by
    have := congrArg List.length ht
    simpa [toStringAbgr, b2aHex] using this
  match t, hlen with
  | [t0, t1, t2, t3, t4, t5, t6, t7], _ =>
    simp only [toStringAbgr, b2aHex, List.map_cons, List.map_nil, List.cons_append, List.nil_append,
      List.cons.injEq, and_true] at ht
    obtain ⟨h0, h1, h2, h3, h4, h5, h6, h7⟩ := ht
    have nl : ∀ b : BitVec 32, (b &&& 0xf#32).toNat < 16 := by
      intro b; rw [nibNat]; omega
    have dv : ∀ (x : Char) (b : BitVec 32), toLower x = hexMap.getD (b &&& 0xf#32).toNat '?' →
        digitValue x = (b &&& 0xf#32) := by
      intro x b hx
      have := digitValue_hex ⟨_, nl b⟩
      rw [← digitValue_toLower, hx, this]
      simp
    have ns := hex_not_space ⟨_, nl (getAlpha c >>> 4)⟩ t0 h0
    set s := ws ++ (if hash then ['#'] else []) ++ [t0, t1, t2, t3, t4, t5, t6, t7] ++ rest with hs
    have hskip : skipSpace s = ws.length := by
      rw [hs, List.append_assoc, List.append_assoc]
      apply skipSpace_append hws
      cases hash
      · intro x hx; simp at hx; subst hx; exact ns.1
      · intro x hx; simp at hx; subst hx; decide
    have hchar : charAt s (skipSpace s) = .ok (if hash then '#' else t0) := by
      rw [hskip, hs]
      cases hash <;> simp [charAt]
    rw [setFromString_eq old s _ hchar]
    have hpos : 0 < s.length := by simp [hs]
    have hoff : (if 0 < s.length && (if hash then '#' else t0) = '#' then skipSpace s + 1
        else skipSpace s) = ws.length + (if hash then 1 else 0) := by
      rw [hskip]
      cases hash
      · simp [ns.2]
      · simp [hpos]
    rw [hoff]
    have hl : s.length ≥ 8 + (ws.length + (if hash then 1 else 0)) := by
      rw [hs]; cases hash <;> simp <;> omega
    rw [if_pos hl, parseLoop_eq _ _ _ _ (by omega)]
    have hdrop : (s.drop (ws.length + if hash then 1 else 0)).take 8 =
        [t0, t1, t2, t3, t4, t5, t6, t7] := by
      rw [hs]; cases hash <;> simp [List.drop_append, List.drop_eq_nil_of_le]
    rw [hdrop]
    simp only [List.foldl_cons, List.foldl_nil, dv _ _ h0, dv _ _ h1, dv _ _ h2, dv _ _ h3,
      dv _ _ h4, dv _ _ h5, dv _ _ h6, dv _ _ h7]
    rw [reassemble]

/-- The hypotheses are met, with upper-case digits, white space, `#` and trailing text. -/
example : setFromString 0 "\n #Ff8000aBxyz".toList = .ok 0xff8000ab#32 ∧
    ("Ff8000aB".toList.map toLower = toStringAbgr 0xff8000ab#32) := by decide

/-! ## C02 Colour channels are independent -/

/-- Specification: channel `k` of a colour (0 red, 1 green, 2 blue, 3 alpha) is byte `k` of its number. -/
def chan (k : Nat) (c : Color) : Nat := c.toNat / 256 ^ k % 256

theorem C02_getters (c : Color) :
    (getRed c).toNat = chan 0 c ∧ (getGreen c).toNat = chan 1 c ∧ (getBlue c).toNat = chan 2 c ∧
      (getAlpha c).toNat = chan 3 c := by
  simp only [chan, getRed_toNat, getGreen_toNat, getBlue_toNat, getAlpha_toNat]
  omega

theorem C02_setters (c : Color) (v : BitVec 8) :
    (∀ k < 4, chan k (setRed c v) = if k = 0 then v.toNat else chan k c) ∧
    (∀ k < 4, chan k (setGreen c v) = if k = 1 then v.toNat else chan k c) ∧
    (∀ k < 4, chan k (setBlue c v) = if k = 2 then v.toNat else chan k c) ∧
    (∀ k < 4, chan k (setAlpha c v) = if k = 3 then v.toNat else chan k c) := by
  have k0 := fun d => (C02_getters d).1.symm
  have k1 := fun d => (C02_getters d).2.1.symm
  have k2 := fun d => (C02_getters d).2.2.1.symm
  have k3 := fun d => (C02_getters d).2.2.2.symm
  have hv : (v.zeroExtend 32).toNat = v.toNat := by simp; omega
  refine ⟨?_, ?_, ?_, ?_⟩ <;> intro k hk <;>
    (obtain rfl | rfl | rfl | rfl : k = 0 ∨ k = 1 ∨ k = 2 ∨ k = 3 := by omega) <;>
    simp only [k0, k1, k2, k3, getRed_setRed, getRed_setGreen, getRed_setBlue, getRed_setAlpha,
      getGreen_setRed, getGreen_setGreen, getGreen_setBlue, getGreen_setAlpha,
      getBlue_setRed, getBlue_setGreen, getBlue_setBlue, getBlue_setAlpha,
      getAlpha_setRed, getAlpha_setGreen, getAlpha_setBlue, getAlpha_setAlpha, hv] <;> rfl

/-- Reading as ARGB exchanges the red and blue channels and nothing else. -/
theorem C02_argb_swaps (c : Color) :
    chan 0 (getArgb c) = chan 2 c ∧ chan 1 (getArgb c) = chan 1 c ∧ chan 2 (getArgb c) = chan 0 c ∧
      chan 3 (getArgb c) = chan 3 c := by
  have key : ∀ (d : Color) (k : Nat), chan k d = ((d >>> (8 * k)).truncate 8 : BitVec 8).toNat := by
    intro d k
    simp only [chan, BitVec.truncate, BitVec.toNat_setWidth, BitVec.toNat_ushiftRight,
      Nat.shiftRight_eq_div_pow, Nat.pow_mul]
  simp only [key]
  refine ⟨?_, ?_, ?_, ?_⟩ <;> congr 1 <;> ext i hi <;> interval_cases i <;> simp [getArgb]

theorem chan_ext {a b : Color} (h : ∀ k < 4, chan k a = chan k b) : a = b := by
  apply BitVec.eq_of_toNat_eq
  have h0 := h 0 (by omega); have h1 := h 1 (by omega)
  have h2 := h 2 (by omega); have h3 := h 3 (by omega)
  simp only [chan] at h0 h1 h2 h3
  have := a.isLt; have := b.isLt
  omega

/-- The ARGB text is the eight hexadecimal digits of the ARGB number. -/
theorem C02_argb_text (c : Color) : toStringArgb c = specText (getArgb c) := by
  rw [← C01_text_is_hex]
  obtain ⟨h0, h1, h2, h3⟩ := C02_argb_swaps c
  obtain ⟨r, g, b, a⟩ := C02_getters c
  obtain ⟨r', g', b', a'⟩ := C02_getters (getArgb c)
  have er : getRed (getArgb c) = getBlue c := BitVec.eq_of_toNat_eq (by rw [r', b, h0])
  have eg : getGreen (getArgb c) = getGreen c := BitVec.eq_of_toNat_eq (by rw [g', g, h1])
  have eb : getBlue (getArgb c) = getRed c := BitVec.eq_of_toNat_eq (by rw [b', r, h2])
  have ea : getAlpha (getArgb c) = getAlpha c := BitVec.eq_of_toNat_eq (by rw [a', a, h3])
  unfold toStringArgb toStringAbgr
  rw [er, eg, eb, ea]

/-- Setting from ARGB and reading as ARGB is the identity, whatever the colour held before. -/
theorem C02_argb_round_trip (c : Color) (x : BitVec 32) : getArgb (setArgb c x) = x := by
  have byte : ∀ y : BitVec 32, ((y &&& 0xff#32).truncate 8).toNat = y.toNat % 256 := by
    intro y
    simp only [BitVec.truncate, BitVec.toNat_setWidth, BitVec.toNat_and]
    have : y.toNat &&& (255#32).toNat = y.toNat % 256 := Nat.and_two_pow_sub_one_eq_mod _ 8
    omega
  have sh : ∀ (y : BitVec 32) (k : Nat), (y >>> k).toNat = y.toNat / 2 ^ k := by
    intro y k; rw [BitVec.toNat_ushiftRight, Nat.shiftRight_eq_div_pow]
  apply chan_ext
  intro k hk
  obtain ⟨s0, s1, s2, s3⟩ := C02_argb_swaps (setArgb c x)
  have sR := fun d v => (C02_setters d v).1
  have sG := fun d v => (C02_setters d v).2.1
  have sB := fun d v => (C02_setters d v).2.2.1
  have sA := fun d v => (C02_setters d v).2.2.2
  unfold setArgb at s0 s1 s2 s3 ⊢
  simp only at s0 s1 s2 s3 ⊢
  have hx := x.isLt
  obtain rfl | rfl | rfl | rfl : k = 0 ∨ k = 1 ∨ k = 2 ∨ k = 3 := by omega
  · rw [s0, sB _ _ 2 (by omega), if_pos rfl, byte]; simp [chan]
  · rw [s1, sB _ _ 1 (by omega), if_neg (by omega), sG _ _ 1 (by omega), if_pos rfl, byte, sh]
    simp [chan]
  · rw [s2, sB _ _ 0 (by omega), if_neg (by omega), sG _ _ 0 (by omega), if_neg (by omega),
      sR _ _ 0 (by omega), if_pos rfl, byte, sh]; simp [chan]
  · rw [s3, sB _ _ 3 (by omega), if_neg (by omega), sG _ _ 3 (by omega), if_neg (by omega),
      sR _ _ 3 (by omega), if_neg (by omega), sA _ _ 3 (by omega), if_pos rfl, byte, sh]; simp [chan]

/-- The four-channel setter sets exactly the four channels. -/
theorem C02_set_four (c : Color) (a b g r : BitVec 8) :
    (setAbgr4 c a b g r).toNat = a.toNat * 256 ^ 3 + b.toNat * 256 ^ 2 + g.toNat * 256 + r.toNat := by
  have hr := (C02_setters (setGreen (setBlue (setAlpha c a) b) g) r).1
  have hg := (C02_setters (setBlue (setAlpha c a) b) g).2.1
  have hb := (C02_setters (setAlpha c a) b).2.2.1
  have ha := (C02_setters c a).2.2.2
  have r0 := hr 0; have r1 := hr 1; have r2 := hr 2; have r3 := hr 3
  have g1 := hg 1; have g2 := hg 2; have g3 := hg 3
  have b2 := hb 2; have b3 := hb 3
  have a3 := ha 3
  simp at r0 r1 r2 r3 g1 g2 g3 b2 b3 a3
  rw [g1] at r1; rw [g2, b2] at r2; rw [g3, b3, a3] at r3
  have hlt := (setAbgr4 c a b g r).isLt
  unfold setAbgr4 at hlt ⊢
  simp only [chan] at r0 r1 r2 r3
  omega

example : chan 2 (setBlue 0x11223344#32 0xab#8) = 0xab ∧ chan 1 (setBlue 0x11223344#32 0xab#8) = 0x33 := by
  decide

/-! ## C03 Colour text parsing is memory safe -/

/-- Number of leading white space characters, plus one if a `#` follows. -/
def prefixLen (s : Str) : Nat :=
  if (s.dropWhile isSpace).head? = some '#' then (s.takeWhile isSpace).length + 1
  else (s.takeWhile isSpace).length

theorem skipSpace_takeWhile (s : Str) : skipSpace s = (s.takeWhile isSpace).length := by
  induction s with
  | nil => rfl
  | cons c s ih => unfold skipSpace; by_cases h : isSpace c <;> simp [h, ih]

theorem dropWhile_eq (s : Str) : s.dropWhile isSpace = s.drop (skipSpace s) := by
  induction s with
  | nil => rfl
  | cons c s ih => unfold skipSpace; by_cases h : isSpace c <;> simp [h, ih]

theorem prefix_facts (s : Str) : ∃ c, charAt s (skipSpace s) = .ok c ∧
    (if 0 < s.length && c = '#' then skipSpace s + 1 else skipSpace s) = prefixLen s := by
  have hle := skipSpace_le s
  by_cases hlt : skipSpace s < s.length
  · refine ⟨s[skipSpace s], by simp [charAt, hlt], ?_⟩
    have hp : 0 < s.length := by omega
    unfold prefixLen
    rw [← skipSpace_takeWhile, dropWhile_eq, List.head?_drop, List.getElem?_eq_getElem hlt]
    simp [hp]
  · have he : skipSpace s = s.length := by omega
    refine ⟨'\x00', by simp [charAt, he], ?_⟩
    unfold prefixLen
    rw [← skipSpace_takeWhile, dropWhile_eq, he]
    simp

/-- Exactly when parsing stays inside the string: there are at least eight characters after the
white space and `#`, or there is at most one such leading character. -/
theorem C03_safe_iff (old : Color) (s : Str) :
    (setFromString old s).Safe ↔ (8 + prefixLen s ≤ s.length ∨ prefixLen s ≤ 1) := by
  obtain ⟨c, hc, hp⟩ := prefix_facts s
  rw [setFromString_eq old s c hc]
  simp only [hp]
  have hpl : prefixLen s ≤ s.length := by
    unfold prefixLen
    rw [← skipSpace_takeWhile, dropWhile_eq]
    split
    · rename_i h
      have : skipSpace s < s.length := by
        by_contra hn
        rw [List.drop_eq_nil_of_le (by omega)] at h
        simp at h
      omega
    · exact skipSpace_le s
  by_cases h8 : s.length ≥ 8 + prefixLen s
  · rw [if_pos h8]
    exact iff_of_true (parseLoop_safe _ _ _ _ (by omega)) (Or.inl h8)
  · rw [if_neg h8]
    by_cases h1 : prefixLen s ≤ 1
    · exact iff_of_true (parseLoop_safe _ _ _ _ (by omega)) (Or.inr h1)
    · rw [parseLoop_ub _ _ _ _ (by omega) (by omega)]
      exact iff_of_false Outcome.not_safe_ub (by omega)

/-- The property fails: two blanks before a short colour make the code read behind the string. -/
theorem C03_violated : ¬ ∀ (old : Color) (s : Str), (setFromString old s).Safe := by
  intro h
  have := (C03_safe_iff 0 "  ff".toList).mp (h 0 _)
  revert this; decide

/-- The part that holds: texts with at most one character of white space or `#` before the digits,
and texts with at least eight characters after them, are read safely.  Missing: short texts after
two or more such characters (the code has undefined behaviour there, `C03_violated`). -/
theorem C03_safe_partial (old : Color) (s : Str)
    (h : 8 + prefixLen s ≤ s.length ∨ prefixLen s ≤ 1) : (setFromString old s).Safe :=
  (C03_safe_iff old s).mpr h

/-- Also the value is wrong for a short text after `#`: the digits are shifted by one place. -/
theorem C03_short_hash_value_violated : setFromString 0 "#ff".toList = .ok 0xff0#32 ∧
    setFromString 0 "ff".toList = .ok 0xff#32 := by decide

end Kml.Color32
