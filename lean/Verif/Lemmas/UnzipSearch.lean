import Verif.Lemmas.Unzip
/-! Lemmas about the search for the end record. -/
namespace Kml.Unzip
open Kml.Zip

theorem val_lt (c : Char) : val c < 256 := Nat.mod_lt _ (by decide)

theorem number_cons (c : Char) (s : Str) : number (c :: s) = val c + 256 * number s := rfl

theorem bytes_four (b : Str) (i : Nat) (h : i + 4 ≤ b.length) :
    bytes b i 4 = [b[i], b[i + 1], b[i + 2], b[i + 3]] := by
  unfold bytes
  rw [List.drop_eq_getElem_cons (by omega), List.drop_eq_getElem_cons (by omega),
    List.drop_eq_getElem_cons (by omega), List.drop_eq_getElem_cons (by omega)]
  rfl

theorem byteAt_in (b : Str) (i : Nat) (h : i < b.length) : byteAt b i = .ok (val b[i]) := by
  unfold byteAt
  rw [List.getElem?_eq_getElem h]

theorem signature_eq (b : Str) (i : Nat) (h : i + 4 ≤ b.length) :
    signature b i = .ok (decide (number (bytes b i 4) = 0x06054b50)) := by
  rw [bytes_four b i h]
  unfold signature
  rw [byteAt_in b i (by omega), byteAt_in b (i + 1) (by omega), byteAt_in b (i + 2) (by omega),
    byteAt_in b (i + 3) (by omega)]
  simp only [Outcome.ok_bind]
  have h0 := val_lt b[i]
  have h1 := val_lt b[i + 1]
  have h2 := val_lt b[i + 2]
  have h3 := val_lt b[i + 3]
  have hnum : number [b[i], b[i + 1], b[i + 2], b[i + 3]] =
      val b[i] + 256 * (val b[i + 1] + 256 * (val b[i + 2] + 256 * (val b[i + 3] + 256 * 0))) := rfl
  generalize number [b[i], b[i + 1], b[i + 2], b[i + 3]] = w at *
  by_cases c0 : val b[i] = 0x50
  · rw [if_neg (by simp [c0])]
    by_cases c1 : val b[i + 1] = 0x4b
    · rw [if_neg (by simp [c1])]
      by_cases c2 : val b[i + 2] = 0x05
      · rw [if_neg (by simp [c2])]
        congr 1
        apply decide_eq_decide.2
        omega
      · rw [if_pos (by simp [c2])]
        congr 1
        symm
        rw [decide_eq_false_iff_not]
        omega
    · rw [if_pos (by simp [c1])]
      congr 1
      symm
      rw [decide_eq_false_iff_not]
      omega
  · rw [if_pos (by simp [c0])]
    congr 1
    symm
    rw [decide_eq_false_iff_not]
    omega

theorem scan_spec (b : Str) : ∀ (n : Nat), n + 3 ≤ b.length ∨ n = 0 → ∃ r, scan b n = .ok r ∧
    (∀ i, r = some i → i < n ∧ number (bytes b i 4) = 0x06054b50 ∧
      ∀ j, i < j → j < n → number (bytes b j 4) ≠ 0x06054b50) ∧
    (r = none → ∀ j, j < n → number (bytes b j 4) ≠ 0x06054b50)
  | 0, _ => ⟨none, rfl, by simp, by simp⟩
  | n + 1, h => by
      have h : n + 4 ≤ b.length := by omega
      obtain ⟨r, hr, h1, h2⟩ := scan_spec b n (by omega)
      rw [scan, signature_eq b n h, Outcome.ok_bind]
      by_cases hs : number (bytes b n 4) = 0x06054b50
      · refine ⟨some n, by simp [hs], ?_, by simp⟩
        intro i hi
        cases hi
        exact ⟨by omega, hs, fun j h3 h4 => by omega⟩
      · refine ⟨r, by simp [hs, hr], ?_, ?_⟩
        · intro i hi
          obtain ⟨a1, a2, a3⟩ := h1 i hi
          refine ⟨by omega, a2, fun j h3 h4 => ?_⟩
          by_cases e : j = n
          · subst e; exact hs
          · exact a3 j h3 (by omega)
        · intro hn j hj
          by_cases e : j = n
          · subst e; exact hs
          · exact h2 hn j (by omega)

theorem bytes_bytes (d : Str) (p n i k : Nat) (h : i + k ≤ n) : bytes (bytes d p n) i k = bytes d (p + i) k := by
  unfold bytes
  rw [List.drop_take, List.drop_drop, List.take_take, Nat.min_eq_left (by omega)]

/-- What the search answers. -/
def Found (d : Str) (p : Nat) : Prop :=
  (p ≠ 0 → MarkAt d p ∧ d.length ≤ p + 0xffff ∧ ∀ q, p < q → ¬ MarkAt d q) ∧
  (p = 0 → d.length ≤ 2147483647 → ∀ q, 0 < q → d.length ≤ q + 0xffff → ¬ MarkAt d q)

theorem searchLoop_spec (d : Str) (m : Nat) (hm : m = min d.length 0xffff) : ∀ (fuel back : Nat),
    m ≤ fuel * 0x400 + back → (m ≤ 4 ∨ back ≤ m) → 4 ≤ back →
    (back = 4 ∨ ∀ q, 0 < q → d.length ≤ q + back → ¬ MarkAt d q) →
    ∃ p, searchLoop d m fuel back = .ok p ∧ Found d p := by
  have done : ∀ back, m ≤ back → (back = 4 ∨ ∀ q, 0 < q → d.length ≤ q + back → ¬ MarkAt d q) → Found d 0 := by
    intro back hb hc
    refine ⟨fun h => absurd rfl h, fun _ _ q h0 hq hmk => ?_⟩
    rcases hc with rfl | hc
    · have := hmk.2
      omega
    · have := hmk.2
      exact hc q h0 (by omega) hmk
  intro fuel
  induction fuel with
  | zero => intro back hf _ _ hc; exact ⟨0, rfl, done back (by omega) hc⟩
  | succ fuel ih =>
      intro back hf hbm hb4 hc
      rw [searchLoop]
      by_cases hlt : back < m
      · rw [if_pos hlt]
        dsimp only
        have hb' : (if back + 0x400 > m then m else back + 0x400) = min m (back + 0x400) := by split <;> omega
        rw [hb']
        generalize hbk : min m (back + 0x400) = back' at *
        have hn : (if 0x404 < d.length - (d.length - back') then 0x404 else d.length - (d.length - back')) =
            min 0x404 back' := by split <;> omega
        rw [hn, read_eq _ _ _ _ (by omega), Outcome.ok_bind]
        dsimp only
        by_cases hbig : d.length - back' ≥ 2147483647
        · simp only [hbig, if_true]
          rw [if_pos (by simp; omega)]
          refine ⟨0, rfl, fun h => absurd rfl h, fun _ hl => ?_⟩
          omega
        · simp only [hbig, if_false]
          have hlen : (bytes d (d.length - back') (min 0x404 back')).length = min 0x404 back' := by
            rw [bytes_length]; omega
          rw [if_neg (by omega)]
          obtain ⟨r, hr, h1, h2⟩ := scan_spec (bytes d (d.length - back') (min 0x404 back')) (min 0x404 back' - 3)
            (by omega)
          rw [hr, Outcome.ok_bind]
          have hfuel : m ≤ fuel * 0x400 + back' := by
            rw [Nat.succ_mul] at hf
            rcases Nat.le_total m (back + 0x400) with e | e
            · rw [Nat.min_eq_left e] at hbk
              rw [← hbk]
              exact Nat.le_add_left _ _
            · rw [Nat.min_eq_right e] at hbk
              rw [← hbk, Nat.add_comm back, ← Nat.add_assoc]
              exact hf
          have next : (∀ q, 0 < q → d.length ≤ q + back' → ¬ MarkAt d q) →
              ∃ p, searchLoop d m fuel back' = .ok p ∧ Found d p := fun hq =>
            ih back' hfuel (by omega) (by omega) (Or.inr hq)
          have trans : ∀ i, i < min 0x404 back' - 3 →
              bytes (bytes d (d.length - back') (min 0x404 back')) i 4 = bytes d (d.length - back' + i) 4 :=
            fun i hi => bytes_bytes d _ _ _ _ (by omega)
          have above : ∀ q, 0 < q → d.length - back' + (min 0x404 back' - 3) ≤ q → ¬ MarkAt d q := by
            intro q h0 hq hmk
            have := hmk.2
            rcases hc with rfl | hc
            · omega
            · exact hc q h0 (by omega) hmk
          cases r with
          | none =>
              dsimp only
              apply next
              intro q h0 hq hmk
              by_cases hab : d.length - back' + (min 0x404 back' - 3) ≤ q
              · exact above q h0 hab hmk
              · obtain ⟨i, rfl⟩ : ∃ i, q = d.length - back' + i := ⟨q - (d.length - back'), by omega⟩
                have := h2 rfl i (by omega)
                rw [trans i (by omega)] at this
                exact this hmk.1
          | some i =>
              obtain ⟨a1, a2, a3⟩ := h1 i rfl
              rw [trans i a1] at a2
              dsimp only
              by_cases hz : d.length - back' + i = 0
              · rw [if_neg (by omega)]
                apply next
                intro q h0 hq hmk
                by_cases hab : d.length - back' + (min 0x404 back' - 3) ≤ q
                · exact above q h0 hab hmk
                · have := a3 q (by omega) (by omega)
                  rw [trans q (by omega)] at this
                  have e : d.length - back' + q = q := by omega
                  rw [e] at this
                  exact this hmk.1
              · rw [if_pos (by omega)]
                refine ⟨_, rfl, fun _ => ⟨⟨a2, by omega⟩, by omega, ?_⟩, fun h => absurd h hz⟩
                intro q hq hmk
                by_cases hab : d.length - back' + (min 0x404 back' - 3) ≤ q
                · exact above q (by omega) hab hmk
                · obtain ⟨j, rfl⟩ : ∃ j, q = d.length - back' + j := ⟨q - (d.length - back'), by omega⟩
                  have := a3 j (by omega) (by omega)
                  rw [trans j (by omega)] at this
                  exact this hmk.1
      · rw [if_neg hlt]
        exact ⟨0, rfl, done back (by omega) hc⟩

theorem search_spec (d : Str) : ∃ p, search d = .ok p ∧ Found d p := by
  unfold search
  dsimp only
  have hm : (if 0xffff > d.length then d.length else 0xffff) = min d.length 0xffff := by split <;> omega
  rw [hm]
  exact searchLoop_spec d _ rfl _ 4 (by omega) (by omega) (by omega) (Or.inl rfl)

end Kml.Unzip
