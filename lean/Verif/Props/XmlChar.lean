import Verif.Spec.XmlChar
/-! Property C98: the texts of the XML parser as strings. -/
namespace Kml.XmlChar

/-- Bits put beside bits. -/
theorem or_low (a b i : Nat) (h : b < 2 ^ i) : (2 ^ i * a) ||| b = 2 ^ i * a + b := (Nat.two_pow_add_eq_or_of_lt h a).symm

theorem low6 (c : Nat) : 0x80 ||| (c &&& 0x3f) = c % 64 + 128 := by
  have h1 : c &&& 0x3f = c % 64 := Nat.and_two_pow_sub_one_eq_mod c 6
  have h2 : 0x80 ||| c % 64 = 0x80 + c % 64 := or_low 2 (c % 64) 6 (Nat.mod_lt _ (by decide))
  rw [h1, h2, Nat.add_comm]

theorem units_bytes (n : Nat) (h : n < 0x10000) (hs : n < 0xd800 ∨ 0xdfff < n) : toUtf8 true n =
    if n ≤ 127 then [UInt8.ofNat n]
    else if n ≤ 2047 then [UInt8.ofNat (n / 64 % 32 + 192), UInt8.ofNat (n % 64 + 128)]
    else if n ≤ 65535 then [UInt8.ofNat (n / 4096 % 16 + 224), UInt8.ofNat (n / 64 % 64 + 128), UInt8.ofNat (n % 64 + 128)]
    else [UInt8.ofNat (n / 262144 % 8 + 240), UInt8.ofNat (n / 4096 % 64 + 128), UInt8.ofNat (n / 64 % 64 + 128),
      UInt8.ofNat (n % 64 + 128)] := by
  have e1 : n >>> 6 = n / 64 := Nat.shiftRight_eq_div_pow n 6
  have e4 : n >>> 12 = n / 4096 := Nat.shiftRight_eq_div_pow n 12
  unfold toUtf8
  rw [low6, low6, e1, e4]
  by_cases h1 : n < 0x80
  · rw [if_pos (by simp [h1]), if_pos (show n ≤ 127 by omega)]
  rw [if_neg (by simp [h1]), if_neg (show ¬ n ≤ 127 by omega)]
  by_cases h2 : n < 0x800
  · have e2 : 0xc0 ||| n / 64 = 0xc0 + n / 64 := or_low 3 (n / 64) 6 (by omega)
    have e3 : n / 64 % 32 = n / 64 := Nat.mod_eq_of_lt (by omega)
    rw [if_pos h2, if_pos (show n ≤ 2047 by omega), e2, e3, Nat.add_comm]
  have e2 : 0xe0 ||| n / 4096 = 0xe0 + n / 4096 := or_low 14 (n / 4096) 4 (by omega)
  have e3 : n / 4096 % 16 = n / 4096 := Nat.mod_eq_of_lt (by omega)
  rw [if_neg h2, if_neg (show ¬ n ≤ 2047 by omega), if_pos (by simp; omega), if_pos (show n ≤ 65535 by omega), e2, e3, Nat.add_comm 0xe0]

/-- One character of the first plane. -/
theorem toUtf8_char (c : Char) (h : c.toNat < 0x10000) : toUtf8 true c.toNat = String.utf8EncodeChar c := by
  have hs : c.toNat < 0xd800 ∨ 0xdfff < c.toNat := by
    rcases c.valid with h | h
    · exact .inl h
    · exact .inr h.1
  exact units_bytes c.toNat h hs

theorem toStrN_append (wide : Bool) (us rest : List Nat) :
    toStrN wide (us ++ rest) us.length = .ok (us.flatMap (toUtf8 wide)) := by
  induction us with
  | nil => cases rest <;> rfl
  | cons u us ih =>
    rw [List.cons_append, List.length_cons, toStrN, ih, Outcome.ok_bind, List.flatMap_cons]

theorem toStr_append (wide : Bool) (us rest : List Nat) (h : 0 ∉ us) :
    toStr wide (us ++ 0 :: rest) = .ok (us.flatMap (toUtf8 wide)) := by
  induction us with
  | nil => rfl
  | cons u us ih =>
    rw [List.mem_cons, not_or] at h
    rw [List.cons_append, toStr, if_neg (fun e => h.1 e.symm), ih h.2, Outcome.ok_bind, List.flatMap_cons]

theorem utf16_low {s : List Char} (h : ∀ c ∈ s, c.toNat < 0x10000) : utf16 s = s.map Char.toNat := by
  induction s with
  | nil => rfl
  | cons c s ih =>
    unfold utf16 at ih ⊢
    rw [List.flatMap_cons, ih (fun c hc => h c (List.mem_cons_of_mem _ hc)), utf16Char, if_pos (h c List.mem_cons_self)]
    rfl

theorem units_utf8 {s : List Char} (h : ∀ c ∈ s, c.toNat < 0x10000) : (utf16 s).flatMap (toUtf8 true) = utf8 s := by
  rw [utf16_low h]
  unfold utf8
  induction s with
  | nil => rfl
  | cons c s ih =>
    rw [List.map_cons, List.flatMap_cons, List.flatMap_cons, ih (fun c hc => h c (List.mem_cons_of_mem _ hc)),
      toUtf8_char c (h c List.mem_cons_self)]

/-- **C98, bytes.** Where the parser gives bytes, the strings are these bytes: up to the zero that ends a name, or as many as are
given for character data, whatever lies behind. -/
theorem C98_narrow (bytes : List UInt8) (rest : List Nat) :
    toStrN false (bytes.map UInt8.toNat ++ rest) bytes.length = .ok bytes ∧
    (0 ∉ bytes → toStr false (bytes.map UInt8.toNat ++ 0 :: rest) = .ok bytes) := by
  have hid : (bytes.map UInt8.toNat).flatMap (toUtf8 false) = bytes := by
    induction bytes with
    | nil => rfl
    | cons b bytes ih =>
      rw [List.map_cons, List.flatMap_cons, ih]
      simp [toUtf8]
  constructor
  · have := toStrN_append false (bytes.map UInt8.toNat) rest
    rw [List.length_map, hid] at this
    exact this
  · intro h
    rw [toStr_append, hid]
    intro h0
    obtain ⟨b, hb, he⟩ := List.mem_map.1 h0
    have : b = 0 := UInt8.toNat_inj.1 he
    exact h (this ▸ hb)

/-- **C98, 16 bits.** Where the parser gives UTF-16, every text of characters of the first plane becomes the same text in UTF-8.

Missing from the full property: texts with other characters, for which it is false (`C98_astral_violated`). -/
theorem C98_wide_partial (s : List Char) (h : ∀ c ∈ s, c.toNat < 0x10000) (rest : List Nat) :
    toStrN true (utf16 s ++ rest) (utf16 s).length = .ok (utf8 s) ∧
    ((∀ c ∈ s, c.toNat ≠ 0) → toStr true (utf16 s ++ 0 :: rest) = .ok (utf8 s)) := by
  constructor
  · rw [toStrN_append, units_utf8 h]
  · intro h0
    rw [toStr_append, units_utf8 h]
    rw [utf16_low h]
    intro hm
    obtain ⟨c, hc, he⟩ := List.mem_map.1 hm
    exact h0 c hc he

/-- What is behind the pointers for names and values: each ends in a zero, and NULL ends them all. -/
def attributeMemory : List (List Nat × List Nat) → List (Option (List Nat))
  | [] => [none]
  | (a, b) :: l => some (a ++ [0]) :: some (b ++ [0]) :: attributeMemory l

/-- **C98, attributes.** The attributes become their names and values in turn, all of them and no others, whatever lies
behind the NULL at their end. -/
theorem C98_attributes (wide : Bool) (l : List (List Nat × List Nat)) (rest : List (Option (List Nat)))
    (h : ∀ p ∈ l, 0 ∉ p.1 ∧ 0 ∉ p.2) :
    toStrVec wide (attributeMemory l ++ rest) =
      .ok (l.flatMap fun p => [p.1.flatMap (toUtf8 wide), p.2.flatMap (toUtf8 wide)]) := by
  induction l with
  | nil => rfl
  | cons p l ih =>
    obtain ⟨a, b⟩ := p
    have hp := h (a, b) List.mem_cons_self
    show toStrVec wide (some (a ++ [0]) :: some (b ++ [0]) :: (attributeMemory l ++ rest)) = _
    unfold toStrVec
    rw [toStr_append wide a [] hp.1, Outcome.ok_bind, toStr_append wide b [] hp.2, Outcome.ok_bind,
      ih (fun p hp => h p (List.mem_cons_of_mem _ hp)), Outcome.ok_bind]
    rfl

/-- **C98, no further.** Character data is read behind its end just if it is shorter than the length given for it. -/
theorem C98_behind (wide : Bool) (mem : List Nat) (n : Nat) : toStrN wide mem n = .ub ↔ mem.length < n := by
  induction n generalizing mem with
  | zero => exact ⟨(fun h => by cases mem <;> cases h), (fun h => absurd h (Nat.not_lt_zero _))⟩
  | succ n ih =>
    cases mem with
    | nil => exact ⟨fun _ => Nat.succ_pos n, fun _ => rfl⟩
    | cons c mem =>
      rw [List.length_cons, Nat.succ_lt_succ_iff, ← ih mem]
      show (toStrN wide mem n >>= fun s => Outcome.ok (toUtf8 wide c ++ s)) = .ub ↔ _
      cases toStrN wide mem n with
      | ub => exact ⟨fun _ => rfl, fun _ => rfl⟩
      | ok s => exact ⟨(fun h => nomatch h), (fun h => nomatch h)⟩
      | throws => exact ⟨(fun h => nomatch h), (fun h => nomatch h)⟩

/-- A name without a value, which the XML parser never gives, makes what lies behind the NULL at the end be read, up to the
next NULL. -/
theorem C98_odd (wide : Bool) (l : List (List Nat × List Nat)) (a : List Nat) (ha : 0 ∉ a) (h : ∀ p ∈ l, 0 ∉ p.1 ∧ 0 ∉ p.2) :
    toStrVec wide [some (a ++ [0]), none] = .ub ∧
    toStrVec wide (some (a ++ [0]) :: none :: attributeMemory l) =
      .ok (a.flatMap (toUtf8 wide) :: [] :: l.flatMap fun p => [p.1.flatMap (toUtf8 wide), p.2.flatMap (toUtf8 wide)]) := by
  constructor
  · unfold toStrVec
    rw [toStr_append wide a [] ha]
    rfl
  · unfold toStrVec
    rw [toStr_append wide a [] ha, Outcome.ok_bind, ← List.append_nil (attributeMemory l), C98_attributes wide l [] h]
    rfl

/-- A text with characters of one, two and three bytes. -/
example : toStr true (utf16 "aé€".toList ++ [0]) = .ok [97, 195, 169, 226, 130, 172] := by decide +kernel

/-- **C98 fails: characters of other planes.** Of the two halves of such a character the first is dropped and the second is not, which
gives three bytes that are not UTF-8. -/
theorem C98_astral_violated : toStr true (utf16 ['😀'] ++ [0]) = .ok [0xed, 0xb8, 0x80] ∧
    ByteArray.validateUTF8 ⟨#[0xed, 0xb8, 0x80]⟩ = false ∧ utf8 ['😀'] = [0xf0, 0x9f, 0x98, 0x80] := by
  refine ⟨?_, ?_, ?_⟩ <;> decide +kernel

end Kml.XmlChar
