import Verif.Model.Unzip
import Verif.Spec.Zip
/-! Lemmas about the reader of archives: what is read at each place, in closed form. -/
namespace Kml.Unzip
open Kml.Zip

/-- How far the memory stream can be read. -/
def lim (d : Str) : Nat := min d.length 2147483647

theorem bytes_length (d : Str) (p n : Nat) : (bytes d p n).length = min n (d.length - p) := by
  simp [bytes]

theorem read_eq (d : Str) (pos n room : Nat) (h : n ≤ room) :
    read d pos n room = .ok (if pos ≥ 2147483647 then [] else bytes d pos n,
      pos + (if pos ≥ 2147483647 then [] else bytes d pos n).length) := by
  unfold read
  by_cases h1 : pos ≥ 2147483647
  · simp [h1]
  · rw [if_neg h1]
    dsimp only
    simp only [h1, if_false]
    have hn : (if pos + n > d.length then d.length - pos else n) = min n (d.length - pos) := by
      split <;> omega
    rw [hn]
    have hb : (d.drop pos).take (min n (d.length - pos)) = bytes d pos n := by
      unfold bytes
      rw [List.take_eq_take_iff]
      simp
    unfold memcpy
    by_cases h2 : min n (d.length - pos) = 0
    · rw [if_pos h2]
      have : bytes d pos n = [] := by
        apply List.eq_nil_of_length_eq_zero
        rw [bytes_length, h2]
      simp [this, h2]
    · rw [if_neg h2, if_pos (by omega), hb]
      simp [bytes_length]

theorem getByte_in (d : Str) (pos : Nat) (h : pos < lim d) :
    ∃ c, d[pos]? = some c ∧ getByte d pos = .ok (some (val c), pos + 1) := by
  unfold lim at h
  have hl : pos < d.length := by omega
  refine ⟨d[pos], List.getElem?_eq_getElem hl, ?_⟩
  unfold getByte
  rw [read_eq _ _ _ _ (Nat.le_refl 1), if_neg (by omega)]
  have : bytes d pos 1 = [d[pos]] := by
    unfold bytes
    rw [List.drop_eq_getElem_cons hl]; rfl
  rw [this]; rfl

theorem getByte_out (d : Str) (pos : Nat) (h : ¬ pos < lim d) : getByte d pos = .ok (none, pos) := by
  unfold lim at h
  unfold getByte
  rw [read_eq _ _ _ _ (Nat.le_refl 1)]
  by_cases h1 : pos ≥ 2147483647
  · simp [h1]
  · have : bytes d pos 1 = [] := by
      unfold bytes
      rw [List.drop_eq_nil_of_le (by omega)]; rfl
    simp [h1, this]

theorem number_bytes_succ (d : Str) (pos k : Nat) (c : Char) (h : d[pos]? = some c) :
    number (bytes d pos (k + 1)) = val c + 256 * number (bytes d (pos + 1) k) := by
  obtain ⟨hl, rfl⟩ := List.getElem?_eq_some_iff.1 h
  unfold bytes
  rw [List.drop_eq_getElem_cons hl]
  rfl

theorem getLE_in (d : Str) : ∀ (k pos : Nat), pos + k ≤ lim d →
    getLE d k pos = .ok (some (number (bytes d pos k)), pos + k)
  | 0, pos, _ => by simp [getLE, bytes, number]
  | k + 1, pos, h => by
      obtain ⟨c, hc, hg⟩ := getByte_in d pos (by omega)
      rw [getLE, hg, Outcome.ok_bind]
      dsimp only
      rw [getLE_in d k (pos + 1) (by omega), Outcome.ok_bind, number_bytes_succ d pos k c hc]
      simp only [Option.map_some]
      rw [Nat.add_right_comm, Nat.add_assoc]

theorem getLE_out (d : Str) : ∀ (k pos : Nat), ¬ pos + k ≤ lim d → 0 < k →
    ∃ p, pos ≤ p ∧ getLE d k pos = .ok (none, p)
  | k + 1, pos, h, _ => by
      by_cases h1 : pos < lim d
      · obtain ⟨c, hc, hg⟩ := getByte_in d pos h1
        obtain ⟨p, hle, hp⟩ := getLE_out d k (pos + 1) (by omega) (by omega)
        refine ⟨p, by omega, ?_⟩
        rw [getLE, hg, Outcome.ok_bind]
        dsimp only
        rw [hp]; rfl
      · refine ⟨pos, Nat.le_refl _, ?_⟩
        rw [getLE, getByte_out d pos h1]; rfl

/-- The values of a row of fields. -/
def vals (d : Str) : List Nat → Nat → List Nat
  | [], _ => []
  | k :: ks, pos => number (bytes d pos k) :: vals d ks (pos + k)

theorem fields_in (d : Str) : ∀ (ks : List Nat) (pos : Nat), pos + ks.sum ≤ lim d →
    fields d ks pos = .ok (vals d ks pos, true, pos + ks.sum)
  | [], pos, _ => by simp [fields, vals]
  | k :: ks, pos, h => by
      rw [List.sum_cons] at h
      rw [fields, getLE_in d k pos (by omega), Outcome.ok_bind]
      dsimp only
      rw [fields_in d ks (pos + k) (by omega), Outcome.ok_bind, List.sum_cons]
      simp [vals, Nat.add_assoc]

theorem fields_out (d : Str) : ∀ (ks : List Nat) (pos : Nat), ¬ pos + ks.sum ≤ lim d → (∀ k ∈ ks, 0 < k) → ks ≠ [] →
    ∃ vs p, fields d ks pos = .ok (vs, false, p)
  | [], _, _, _, h => absurd rfl h
  | k :: ks, pos, h, hk, _ => by
      rw [List.sum_cons] at h
      rw [fields]
      by_cases h1 : pos + k ≤ lim d
      · rw [getLE_in d k pos h1, Outcome.ok_bind]
        have hks : ks ≠ [] := by
          intro e; subst e; simp at h; omega
        obtain ⟨vs, p, hp⟩ := fields_out d ks (pos + k) (by omega)
          (fun x hx => hk x (List.mem_cons_of_mem _ hx)) hks
        dsimp only
        rw [hp, Outcome.ok_bind]
        exact ⟨_, _, rfl⟩
      · obtain ⟨p, hle, hp⟩ := getLE_out d k pos h1 (hk k (List.mem_cons_self ..))
        rw [hp, Outcome.ok_bind]
        dsimp only
        have hsafe : ∃ r, fields d ks p = .ok r := by
          by_cases h2 : p + ks.sum ≤ lim d
          · exact ⟨_, fields_in d ks p h2⟩
          · by_cases h3 : ks = []
            · subst h3; exact ⟨_, rfl⟩
            · obtain ⟨vs, q, hq⟩ := fields_out d ks p h2 (fun x hx => hk x (List.mem_cons_of_mem _ hx)) h3
              exact ⟨_, hq⟩
        obtain ⟨r, hr⟩ := hsafe
        rw [hr, Outcome.ok_bind]
        exact ⟨_, _, rfl⟩

theorem fields_safe (d : Str) (ks : List Nat) (pos : Nat) (hk : ∀ k ∈ ks, 0 < k) : ∃ r, fields d ks pos = .ok r := by
  by_cases h : pos + ks.sum ≤ lim d
  · exact ⟨_, fields_in d ks pos h⟩
  · by_cases h3 : ks = []
    · subst h3; exact ⟨_, rfl⟩
    · obtain ⟨vs, q, hq⟩ := fields_out d ks pos h hk h3
      exact ⟨_, hq⟩

theorem getLE_safe (d : Str) (k pos : Nat) : ∃ r, getLE d k pos = .ok r := by
  by_cases h : pos + k ≤ lim d
  · exact ⟨_, getLE_in d k pos h⟩
  · rcases Nat.eq_zero_or_pos k with rfl | h3
    · exact ⟨_, rfl⟩
    · obtain ⟨p, _, hp⟩ := getLE_out d k pos h h3
      exact ⟨_, hp⟩

/-- What the directory entry at a place says. -/
def infoAt (d : Str) (p : Nat) : Info :=
  { flag := number (bytes d (p + 8) 2), method := number (bytes d (p + 10) 2), crc := number (bytes d (p + 16) 4),
    csize := number (bytes d (p + 20) 4), usize := number (bytes d (p + 24) 4),
    nameLen := number (bytes d (p + 28) 2), extraLen := number (bytes d (p + 30) 2),
    commentLen := number (bytes d (p + 32) 2), offset := number (bytes d (p + 42) 4) }

/-- A directory entry can be read at a place. -/
def EntryAt (d : Str) (p : Nat) : Prop := p + 46 ≤ lim d ∧ number (bytes d p 4) = 0x02014b50

instance (d : Str) (p : Nat) : Decidable (EntryAt d p) := by unfold EntryAt; infer_instance

theorem infoOf_vals (d : Str) (p : Nat) :
    infoOf (vals d [2, 2, 2, 2, 4, 4, 4, 4, 2, 2, 2, 2, 2, 4, 4] (p + 4)) = infoAt d p := by
  simp [vals, infoAt, infoOf]

/-- `n` bytes can be read at a place. -/
def Reads (d : Str) (pos n : Nat) : Prop := n = 0 ∨ (pos < 2147483647 ∧ pos + n ≤ d.length)

instance (d : Str) (pos n : Nat) : Decidable (Reads d pos n) := by unfold Reads; infer_instance

theorem readName_eq (d : Str) (nameLen pos room : Nat) (h0 : 0 < room) :
    readName d nameLen pos room = .ok
      (if Reads d pos (min nameLen room) then
        some (if nameLen < room then bytes d pos nameLen ++ ['\x00'] else bytes d pos room) else none) := by
  unfold readName
  dsimp only
  have hn : (if nameLen < room then nameLen else room) = min nameLen room := by split <;> omega
  rw [hn]
  by_cases h1 : 0 < nameLen
  · rw [if_pos ⟨h1, h0⟩, read_eq _ _ _ _ (by omega), Outcome.ok_bind]
    dsimp only
    by_cases h2 : Reads d pos (min nameLen room)
    · rw [if_pos h2]
      unfold Reads at h2
      have h3 : ¬ pos ≥ 2147483647 := by omega
      simp only [h3, if_false]
      rw [if_neg (by rw [bytes_length]; omega)]
      split
      · rw [Nat.min_eq_left (by omega)]
      · rw [Nat.min_eq_right (by omega)]
    · rw [if_neg h2]
      unfold Reads at h2
      by_cases h3 : pos ≥ 2147483647
      · simp only [h3, if_true]
        rw [if_pos (by simp; omega)]
      · simp only [h3, if_false]
        rw [if_pos (by rw [bytes_length]; omega)]
  · rw [if_neg (by omega)]
    have : nameLen = 0 := by omega
    subst this
    have hr : Reads d pos 0 := Or.inl rfl
    simp [hr, h0, bytes]

/-- What is written into a buffer of `room` bytes for the name of the entry at a place, or nothing if the data end
before. -/
def nameAt (d : Str) (p room : Nat) : Option Str :=
  if Reads d (p + 46) (min (infoAt d p).nameLen room) then
    some (if (infoAt d p).nameLen < room then bytes d (p + 46) (infoAt d p).nameLen ++ ['\x00']
      else bytes d (p + 46) room)
  else none

theorem fileInfo_out (d : Str) (p : Nat) (room : Option Nat) (h : ¬ EntryAt d p) : fileInfo d p room = .ok none := by
  unfold fileInfo
  by_cases h1 : p + 46 ≤ lim d
  · rw [getLE_in d 4 p (by omega), Outcome.ok_bind]
    dsimp only
    rw [fields_in d _ (p + 4) (by simp; omega), Outcome.ok_bind]
    have h2 : number (bytes d p 4) ≠ 0x02014b50 := fun e => h ⟨h1, e⟩
    rw [if_neg (by simp [h2])]
  · obtain ⟨r, hr⟩ := getLE_safe d 4 p
    rw [hr, Outcome.ok_bind]
    by_cases h4 : p + 4 ≤ lim d
    · rw [getLE_in d 4 p h4] at hr
      cases hr
      dsimp only
      obtain ⟨vs, q, hq⟩ := fields_out d [2, 2, 2, 2, 4, 4, 4, 4, 2, 2, 2, 2, 2, 4, 4] (p + 4) (by simp; omega)
        (by decide) (by decide)
      rw [hq, Outcome.ok_bind]
      simp
    · obtain ⟨q, _, hq⟩ := getLE_out d 4 p h4 (by omega)
      rw [hq] at hr
      cases hr
      dsimp only
      obtain ⟨r, hr⟩ := fields_safe d [2, 2, 2, 2, 4, 4, 4, 4, 2, 2, 2, 2, 2, 4, 4] q (by decide)
      rw [hr, Outcome.ok_bind]
      simp

theorem fileInfo_in (d : Str) (p : Nat) (room : Option Nat) (h : EntryAt d p) (h0 : ∀ r, room = some r → 0 < r) :
    fileInfo d p room = .ok (match room with
      | none => some (infoAt d p, [])
      | some r => (nameAt d p r).map fun b => (infoAt d p, b)) := by
  obtain ⟨h1, h2⟩ := h
  unfold fileInfo
  rw [getLE_in d 4 p (by omega), Outcome.ok_bind]
  dsimp only
  rw [fields_in d _ (p + 4) (by simp; omega), Outcome.ok_bind]
  dsimp only
  rw [if_pos ⟨by rw [h2], rfl⟩, infoOf_vals]
  cases room with
  | none => rfl
  | some r =>
      have hs : p + 4 + [2, 2, 2, 2, 4, 4, 4, 4, 2, 2, 2, 2, 2, 4, 4].sum = p + 46 := by simp
      dsimp only
      rw [hs, readName_eq d _ _ _ (h0 r rfl)]
      rfl

theorem fileInfo_none (d : Str) (p : Nat) :
    fileInfo d p none = .ok (if EntryAt d p then some (infoAt d p, []) else none) := by
  split
  · rename_i h; exact fileInfo_in d p none h (by simp)
  · rename_i h; exact fileInfo_out d p none h

theorem fileInfo_some (d : Str) (p room : Nat) (h0 : 0 < room) :
    fileInfo d p (some room) =
      .ok (if EntryAt d p then (nameAt d p room).map (fun b => (infoAt d p, b)) else none) := by
  split
  · rename_i h; exact fileInfo_in d p (some room) h (by simpa using h0)
  · rename_i h; exact fileInfo_out d p (some room) h

end Kml.Unzip
