import Verif.Model.Color32Obj
import Verif.Props.Color32
/-! C02: colours as values: how they are made and compared. -/
namespace Kml.Color32

/-- A new colour is opaque white. -/
theorem C02_fresh : ∀ k < 4, chan k fresh = 255 := by decide

/-- A colour made of four channels has these, and is the one that setting the channels of any colour gives. -/
theorem C02_made (a b g r : BitVec 8) : (∀ c, make4 a b g r = setAbgr4 c a b g r) ∧
    chan 0 (make4 a b g r) = r.toNat ∧ chan 1 (make4 a b g r) = g.toNat ∧ chan 2 (make4 a b g r) = b.toNat ∧
    chan 3 (make4 a b g r) = a.toNat := by
  have h : (make4 a b g r).toNat = a.toNat * 256 ^ 3 + b.toNat * 256 ^ 2 + g.toNat * 256 + r.toNat := by
    have a1 : (a.zeroExtend 32 <<< 24) &&& 0xff00ffff#32 = a.zeroExtend 32 <<< 24 := by
      ext i hi; interval_cases i <;> simp
    have a2 : (a.zeroExtend 32 <<< 24) &&& 0xffff00ff#32 = a.zeroExtend 32 <<< 24 := by
      ext i hi; interval_cases i <;> simp
    have a3 : (a.zeroExtend 32 <<< 24) &&& 0xffffff00#32 = a.zeroExtend 32 <<< 24 := by
      ext i hi; interval_cases i <;> simp
    have b2 : (b.zeroExtend 32 <<< 16) &&& 0xffff00ff#32 = b.zeroExtend 32 <<< 16 := by
      ext i hi; interval_cases i <;> simp
    have b3 : (b.zeroExtend 32 <<< 16) &&& 0xffffff00#32 = b.zeroExtend 32 <<< 16 := by
      ext i hi; interval_cases i <;> simp
    have g3 : (g.zeroExtend 32 <<< 8) &&& 0xffffff00#32 = g.zeroExtend 32 <<< 8 := by
      ext i hi; interval_cases i <;> simp
    have dist : ∀ x y m : BitVec 32, (x ||| y) &&& m = (x &&& m) ||| (y &&& m) := by
      intro x y m
      ext i hi
      simp only [BitVec.getElem_and, BitVec.getElem_or, Bool.and_or_distrib_right]
    have e : make4 a b g r = setAbgr4 0 a b g r := by
      unfold make4 setAbgr4 setRed setGreen setBlue setAlpha
      rw [show (0 : Color) &&& 0x00ffffff#32 = 0#32 from by decide, BitVec.zero_or]
      simp only [dist, a1, a2, a3, b2, b3, g3]
    rw [e, C02_set_four]
  refine ⟨fun c => BitVec.eq_of_toNat_eq (h.trans (C02_set_four c a b g r).symm), ?_⟩
  have := a.isLt; have := b.isLt; have := g.isLt; have := r.isLt
  simp only [chan, h]
  refine ⟨?_, ?_, ?_, ?_⟩ <;> omega

/-- A signed number gives the colour of the same 32 bits. -/
theorem C02_signed (i : Int) (h : -2147483648 ≤ i) (h' : i < 2147483648) :
    ((ofSigned i).toNat : Int) = if i < 0 then i + 4294967296 else i := by
  unfold ofSigned
  rw [BitVec.toNat_ofInt]
  split <;> omega

/-- What a text gives does not depend on the colour there was, so that the constructor from a text, which reads the
colour before there is one, gives the same every time. -/
theorem C02_whatever (old old' : Color) (s : Str) : setFromString old s = setFromString old' s := by
  have key : ∀ (r g b a : BitVec 8) (c d : Color),
      setAlpha (setBlue (setGreen (setRed c r) g) b) a = setAlpha (setBlue (setGreen (setRed d r) g) b) a := by
    intro r g b a c d
    apply chan_ext
    intro k hk
    have hA := fun x => (C02_setters x a).2.2.2
    have hB := fun x => (C02_setters x b).2.2.1
    have hG := fun x => (C02_setters x g).2.1
    have hR := fun x => (C02_setters x r).1
    rw [hA _ k hk, hA _ k hk, hB _ k hk, hB _ k hk, hG _ k hk, hG _ k hk, hR _ k hk, hR _ k hk]
    obtain rfl | rfl | rfl | rfl : k = 0 ∨ k = 1 ∨ k = 2 ∨ k = 3 := by omega
    all_goals rfl
  unfold setFromString
  dsimp only
  cases charAt s (skipSpace s) with
  | throws => rfl
  | ub => rfl
  | ok c =>
    simp only [Outcome.ok_bind]
    cases parseLoop s _ _ 0#32 with
    | throws => rfl
    | ub => rfl
    | ok out => exact congrArg Outcome.ok (key _ _ _ _ old old')

/-- Colours are equal exactly if all channels are; `!=` is the contrary, and `>` is `<` the other way round. -/
theorem C02_equal (c d : Color) : (equal c d = true ↔ ∀ k < 4, chan k c = chan k d) ∧
    (differs c d = true ↔ ∃ k < 4, chan k c ≠ chan k d) ∧ greater c d = less d c := by
  have h : equal c d = true ↔ ∀ k < 4, chan k c = chan k d := by
    unfold equal
    rw [beq_iff_eq]
    exact ⟨fun h _ _ => by rw [h], chan_ext⟩
  refine ⟨h, ?_, rfl⟩
  unfold differs
  rw [Bool.not_eq_true', ← Bool.not_eq_true, h]
  simp only [not_forall, exists_prop]

/-- The order of colours is that of the alpha channels, then of the blue, the green and the red ones; of two colours one
is less, or they are equal. -/
theorem C02_order (c d : Color) : (less c d = true ↔ chan 3 c < chan 3 d ∨ chan 3 c = chan 3 d ∧ (chan 2 c < chan 2 d ∨
    chan 2 c = chan 2 d ∧ (chan 1 c < chan 1 d ∨ chan 1 c = chan 1 d ∧ chan 0 c < chan 0 d))) ∧
    (less c d = true ∨ equal c d = true ∨ greater c d = true) := by
  have num : ∀ x : Color, x.toNat = chan 3 x * 16777216 + chan 2 x * 65536 + chan 1 x * 256 + chan 0 x ∧
      chan 2 x < 256 ∧ chan 1 x < 256 ∧ chan 0 x < 256 := by
    intro x
    have hx := x.isLt
    simp only [chan]
    omega
  have hc := num c
  have hd := num d
  constructor
  · unfold less
    rw [BitVec.ult_iff_lt, BitVec.lt_def]
    omega
  · unfold less equal greater
    rw [BitVec.ult_iff_lt, BitVec.lt_def, BitVec.ult_iff_lt, BitVec.lt_def, beq_iff_eq]
    rcases Nat.lt_trichotomy c.toNat d.toNat with h | h | h
    · exact .inl h
    · exact .inr (.inl (BitVec.eq_of_toNat_eq h))
    · exact .inr (.inr h)

example : less (make4 1 0 0 255) (make4 1 0 1 0) = true ∧ less (make4 2 0 0 0) (make4 1 9 9 9) = false ∧
    ofSigned (-1) = fresh := by decide

end Kml.Color32
