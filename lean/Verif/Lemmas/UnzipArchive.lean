import Verif.Lemmas.UnzipSafe
/-! Lemmas about reading archives laid out as the format says. -/
namespace Kml.Unzip
open Kml.Zip

theorem le_length : ∀ (k v : Nat), (le k v).length = k
  | 0, _ => rfl
  | k + 1, v => by rw [le, List.length_cons, le_length k]

theorem ofNat_toNat (n : Nat) (h : n < 256) : (Char.ofNat n).toNat = n := by
  unfold Char.ofNat
  rw [dif_pos (Or.inl (by omega))]
  simp [Char.toNat, Char.ofNatAux]

theorem number_le : ∀ (k v : Nat), v < 256 ^ k → number (le k v) = v
  | 0, v, h => by simp at h; subst h; rfl
  | k + 1, v, h => by
      rw [le, number, number_le k (v / 256) (by rw [Nat.pow_succ] at h; omega),
        ofNat_toNat _ (Nat.mod_lt _ (by decide))]
      omega

theorem bytes_at (a x b : Str) (n : Nat) (hn : n = x.length) : bytes (a ++ (x ++ b)) a.length n = x := by
  subst hn
  unfold bytes
  simp

theorem row_cons (f : Nat × Nat) (fs : List (Nat × Nat)) : row (f :: fs) = le f.1 f.2 ++ row fs := by
  simp [row]

theorem row_length : ∀ (fs : List (Nat × Nat)), (row fs).length = (fs.map Prod.fst).sum
  | [] => rfl
  | f :: fs => by rw [row_cons, List.length_append, le_length, row_length fs]; simp

theorem vals_row : ∀ (fs : List (Nat × Nat)) (a b : Str), (∀ f ∈ fs, f.2 < 256 ^ f.1) →
    vals (a ++ (row fs ++ b)) (fs.map Prod.fst) a.length = fs.map Prod.snd
  | [], _, _, _ => rfl
  | f :: fs, a, b, h => by
      rw [row_cons, List.map_cons, List.map_cons, vals]
      have h1 := h f (List.mem_cons_self ..)
      have e : a ++ (le f.1 f.2 ++ row fs ++ b) = a ++ (le f.1 f.2 ++ (row fs ++ b)) := by simp
      have e2 : a ++ (le f.1 f.2 ++ (row fs ++ b)) = (a ++ le f.1 f.2) ++ (row fs ++ b) := by simp
      have el : a.length + f.1 = (a ++ le f.1 f.2).length := by rw [List.length_append, le_length]
      rw [e, bytes_at a (le f.1 f.2) (row fs ++ b) f.1 (le_length _ _).symm, number_le _ _ h1, e2, el,
        vals_row fs (a ++ le f.1 f.2) b (fun x hx => h x (List.mem_cons_of_mem _ hx))]

/-- What the directory says of a member. -/
def infoOfMember (m : Member) (offset : Nat) : Info :=
  { flag := m.flags, method := m.method, crc := m.crc, csize := m.packed.length, usize := m.size,
    nameLen := m.name.length, extraLen := m.dirExtra.length, commentLen := m.comment.length, offset := offset }

theorem dirEntry_length (m : Member) (off : Nat) :
    (dirEntry m off).length = 46 + m.name.length + m.dirExtra.length + m.comment.length := by
  unfold dirEntry
  rw [List.length_append, row_length]
  simp
  omega

theorem record_length (m : Member) :
    (record m).length = 30 + m.name.length + m.extra.length + m.packed.length + m.after.length := by
  unfold record
  rw [List.length_append, row_length]
  simp
  omega

theorem entry_vals (m : Member) (off : Nat) (a b : Str) (hf : m.Fits) (ho : off < 4294967296)
    (hp : m.packed.length < 4294967296) :
    vals (a ++ (dirEntry m off ++ b)) [4, 2, 2, 2, 2, 4, 4, 4, 4, 2, 2, 2, 2, 2, 4, 4] a.length =
      [0x02014b50, m.version, m.needed, m.flags, m.method, m.time, m.crc, m.packed.length, m.size, m.name.length,
        m.dirExtra.length, m.comment.length, 0, m.internal, m.external, off] := by
  have e : a ++ (dirEntry m off ++ b) = a ++ (row [(4, 0x02014b50), (2, m.version), (2, m.needed), (2, m.flags),
      (2, m.method), (4, m.time), (4, m.crc), (4, m.packed.length), (4, m.size), (2, m.name.length),
      (2, m.dirExtra.length), (2, m.comment.length), (2, 0), (2, m.internal), (4, m.external), (4, off)] ++
      ((m.name ++ (m.dirExtra ++ m.comment)) ++ b)) := by
    unfold dirEntry
    simp only [List.append_assoc]
  rw [e]
  have := vals_row [(4, 0x02014b50), (2, m.version), (2, m.needed), (2, m.flags),
      (2, m.method), (4, m.time), (4, m.crc), (4, m.packed.length), (4, m.size), (2, m.name.length),
      (2, m.dirExtra.length), (2, m.comment.length), (2, 0), (2, m.internal), (4, m.external), (4, off)] a
      ((m.name ++ (m.dirExtra ++ m.comment)) ++ b) (by
        intro f hfm
        have := hf.name; have := hf.dirExtra; have := hf.comment; have := hf.method; have := hf.size
        have := hf.crc; have := hf.flags; have := hf.time; have := hf.version; have := hf.needed
        have := hf.internal; have := hf.external
        simp only [List.mem_cons, List.not_mem_nil, or_false] at hfm
        rcases hfm with rfl | rfl | rfl | rfl | rfl | rfl | rfl | rfl | rfl | rfl | rfl | rfl | rfl | rfl | rfl | rfl <;>
          first | (simp; done) | simpa using ‹_›)
  exact this

theorem entry_here (m : Member) (off : Nat) (a b : Str) (hf : m.Fits) (ho : off < 4294967296)
    (hl : (a ++ (dirEntry m off ++ b)).length ≤ 2147483647) (hp : m.packed.length < 4294967296) :
    EntryAt (a ++ (dirEntry m off ++ b)) a.length ∧
    infoAt (a ++ (dirEntry m off ++ b)) a.length = infoOfMember m off := by
  have hv := entry_vals m off a b hf ho hp
  have hlen := dirEntry_length m off
  have htot : (a ++ (dirEntry m off ++ b)).length = a.length + ((dirEntry m off).length + b.length) := by simp
  rw [vals] at hv
  have h1 := (List.cons.inj hv).1
  have h2 := (List.cons.inj hv).2
  refine ⟨⟨by unfold lim; omega, h1⟩, ?_⟩
  rw [← infoOf_vals, h2]
  rfl

theorem nameAt_here (m : Member) (off : Nat) (a b : Str) (room : Nat) (hr : 0 < room)
    (hl : (a ++ (dirEntry m off ++ b)).length ≤ 2147483647)
    (hi : infoAt (a ++ (dirEntry m off ++ b)) a.length = infoOfMember m off) :
    nameAt (a ++ (dirEntry m off ++ b)) a.length room =
      some (if m.name.length < room then m.name ++ ['\x00'] else m.name.take room) := by
  have hlen := dirEntry_length m off
  have htot : (a ++ (dirEntry m off ++ b)).length = a.length + ((dirEntry m off).length + b.length) := by simp
  unfold nameAt
  rw [hi]
  have hn : (infoOfMember m off).nameLen = m.name.length := rfl
  rw [hn]
  have hreads : Reads (a ++ (dirEntry m off ++ b)) (a.length + 46) (min m.name.length room) := by
    unfold Reads
    rw [htot]
    rcases Nat.eq_zero_or_pos m.name.length with h | h
    · left; omega
    · right; omega
  rw [if_pos hreads]
  have hb : ∀ k, k ≤ m.name.length → bytes (a ++ (dirEntry m off ++ b)) (a.length + 46) k = m.name.take k := by
    intro k hk
    unfold bytes dirEntry
    rw [← List.drop_drop, List.drop_left]
    have e46 : 46 = (row [(4, 0x02014b50), (2, m.version), (2, m.needed), (2, m.flags),
      (2, m.method), (4, m.time), (4, m.crc), (4, m.packed.length), (4, m.size), (2, m.name.length),
      (2, m.dirExtra.length), (2, m.comment.length), (2, 0), (2, m.internal), (4, m.external), (4, off)]).length := by
      rw [row_length]; simp
    rw [List.append_assoc]
    conv => lhs; arg 2; arg 1; rw [e46]
    rw [List.drop_left, List.append_assoc, List.take_append_of_le_length hk]
  congr 1
  split
  · rw [hb _ (Nat.le_refl _), List.take_length]
  · rw [hb _ (by omega)]

theorem nextPos_here (m : Member) (off : Nat) (a b : Str)
    (hi : infoAt (a ++ (dirEntry m off ++ b)) a.length = infoOfMember m off) :
    nextPos (a ++ (dirEntry m off ++ b)) a.length = (a ++ dirEntry m off).length := by
  unfold nextPos
  rw [hi, List.length_append, dirEntry_length]
  simp [infoOfMember]
  omega

/-- The reader stands at the first of the entries that are left. -/
structure Before (d : Str) (u : Unz) (a : Str) (off : Nat) (ms : List Member) (e : Str) : Prop where
  data : d = a ++ (directory off ms ++ e)
  size : d.length ≤ 2147483647
  fits : ∀ m ∈ ms, m.Fits
  packed : off + (body ms).length < 4294967296
  pos : u.pos = a.length
  before : u.before = 0
  count : u.num + ms.length = u.entries
  few : u.entries ≠ 0xffff
  stands : Stands d u

theorem body_cons (m : Member) (ms : List Member) : body (m :: ms) = record m ++ body ms := by simp [body]

theorem Before.entry {d : Str} {u : Unz} {a : Str} {off : Nat} {m : Member} {ms : List Member} {e : Str}
    (h : Before d u a off (m :: ms) e) :
    d = a ++ (dirEntry m off ++ (directory (off + (record m).length) ms ++ e)) ∧
    EntryAt d (u.pos + u.before) ∧ infoAt d (u.pos + u.before) = infoOfMember m off ∧ u.cur = some (infoOfMember m off) := by
  have hd : d = a ++ (dirEntry m off ++ (directory (off + (record m).length) ms ++ e)) := by
    rw [h.data, directory]; simp
  have hb := h.packed
  rw [body_cons, List.length_append] at hb
  have hrl := record_length m
  have hp : u.pos + u.before = a.length := by rw [h.pos, h.before]; rfl
  have := entry_here m off a (directory (off + (record m).length) ms ++ e) (h.fits m (List.mem_cons_self ..))
    (by omega) (by rw [← hd]; exact h.size) (by omega)
  rw [← hd, ← hp] at this
  refine ⟨hd, this.1, this.2, ?_⟩
  have hs := h.stands
  unfold Stands at hs
  rw [hs, if_pos this.1, this.2]

theorem Before.next {d : Str} {u : Unz} {a : Str} {off : Nat} {m : Member} {ms : List Member} {e : Str}
    (h : Before d u a off (m :: ms) e) :
    (ms = [] ∧ goToNext d u = .ok (false, u)) ∨
    (ms ≠ [] ∧ ∃ v, goToNext d u = .ok (true, v) ∧
      Before d v (a ++ dirEntry m off) (off + (record m).length) ms e) := by
  obtain ⟨hd, he, hi, hc⟩ := h.entry
  have hp : u.pos + u.before = a.length := by rw [h.pos, h.before]; rfl
  have hcount := h.count
  rw [List.length_cons] at hcount
  rw [goToNext_eq d u h.stands he]
  cases ms with
  | nil =>
      left
      rw [if_pos ⟨h.few, by simpa using hcount⟩]
      exact ⟨rfl, rfl⟩
  | cons m2 ms =>
      right
      refine ⟨by simp, ?_⟩
      rw [List.length_cons] at hcount
      rw [if_neg (by omega)]
      have hnp : nextPos d (u.pos + u.before) = (a ++ dirEntry m off).length := by
        rw [hp]
        rw [hp] at hi
        rw [hd] at hi ⊢
        exact nextPos_here m off a _ hi
      have hd2 : d = (a ++ dirEntry m off) ++ (dirEntry m2 (off + (record m).length) ++
          (directory (off + (record m).length + (record m2).length) ms ++ e)) := by
        rw [hd, directory]; simp
      have hb := h.packed
      rw [body_cons, body_cons, List.length_append, List.length_append] at hb
      have hrl := record_length m2
      have hn := entry_here m2 (off + (record m).length) (a ++ dirEntry m off)
        (directory (off + (record m).length + (record m2).length) ms ++ e)
        (h.fits m2 (by simp)) (by omega) (by rw [← hd2]; exact h.size) (by omega)
      rw [← hd2] at hn
      rw [hnp, decide_eq_true hn.1, if_pos hn.1]
      refine ⟨_, rfl, ?_⟩
      refine ⟨by rw [hd]; simp, h.size, fun x hx => h.fits x (List.mem_cons_of_mem _ hx), ?_, ?_, ?_, ?_, h.few, ?_⟩
      · rw [body_cons, List.length_append]; omega
      · dsimp only; rw [h.before]; rfl
      · exact h.before
      · dsimp only; rw [List.length_cons]; omega
      · unfold Stands
        dsimp only
        rw [h.before, Nat.sub_zero, Nat.add_zero, if_pos hn.1]

theorem takeWhile_nul (s : Str) (h : '\x00' ∉ s) : (s.takeWhile fun c => c ≠ '\x00') = s := by
  induction s with
  | nil => rfl
  | cons c s ih =>
      rw [List.mem_cons] at h
      have hc : c ≠ '\x00' := fun e => h (Or.inl e.symm)
      rw [List.takeWhile_cons]
      simp only [ne_eq, hc, not_false_eq_true, decide_true, if_true]
      rw [ih (fun e => h (Or.inr e))]

theorem turn_here {d : Str} {u : Unz} {a : Str} {off : Nat} {m : Member} {ms : List Member} {e : Str}
    (h : Before d u a off (m :: ms) e) (hz : '\x00' ∉ m.name) :
    turn d (u.pos + u.before) = if m.name.length < 1024 then .ok [m.name] else .ub := by
  obtain ⟨hd, he, hi, hc⟩ := h.entry
  have hp : u.pos + u.before = a.length := by rw [h.pos, h.before]; rfl
  unfold turn
  rw [if_pos he]
  have hn : nameAt d (u.pos + u.before) 1024 =
      some (if m.name.length < 1024 then m.name ++ ['\x00'] else m.name.take 1024) := by
    rw [hp]
    rw [hp] at hi
    have hl := h.size
    rw [hd] at hi hl ⊢
    exact nameAt_here m off a _ 1024 (by decide) hl hi
  rw [hn]
  dsimp only
  split
  · rw [cstring_nul, Outcome.ok_bind, takeWhile_nul _ hz]
  · unfold cstring
    rw [if_neg (fun e => hz (List.mem_of_mem_take e))]
    rfl

theorem tocLoop_here : ∀ (ms : List Member) (d : Str) (u : Unz) (a : Str) (off : Nat) (e : Str) (fuel : Nat),
    ms ≠ [] → Before d u a off ms e → (∀ m ∈ ms, '\x00' ∉ m.name ∧ m.name.length < 1024) → ms.length ≤ fuel →
    tocLoop d fuel u = .ok (ms.map Member.name)
  | [], _, _, _, _, _, _, h, _, _, _ => absurd rfl h
  | m :: ms, d, u, a, off, e, 0, _, _, _, hf => by simp at hf
  | m :: ms, d, u, a, off, e, fuel + 1, _, h, hn, hf => by
      rw [tocLoop_succ, turn_here h (hn m (List.mem_cons_self ..)).1, if_pos (hn m (List.mem_cons_self ..)).2,
        Outcome.ok_bind]
      rcases h.next with ⟨rfl, hg⟩ | ⟨hne, v, hg, hv⟩
      · rw [hg]; rfl
      · rw [hg, Outcome.ok_bind]
        dsimp only
        rw [if_pos rfl, tocLoop_here ms d v _ _ e fuel hne hv (fun x hx => hn x (List.mem_cons_of_mem _ hx))
          (by simp at hf; omega)]
        rfl

theorem tocLoop_long : ∀ (ms : List Member) (d : Str) (u : Unz) (a : Str) (off : Nat) (e : Str) (fuel : Nat),
    Before d u a off ms e → (∀ m ∈ ms, '\x00' ∉ m.name) → (∃ m ∈ ms, 1024 ≤ m.name.length) → ms.length ≤ fuel →
    tocLoop d fuel u = .ub
  | [], _, _, _, _, _, _, _, _, h, _ => by simp at h
  | m :: ms, d, u, a, off, e, 0, _, _, _, hf => by simp at hf
  | m :: ms, d, u, a, off, e, fuel + 1, h, hn, hx, hf => by
      rw [tocLoop_succ, turn_here h (hn m (List.mem_cons_self ..))]
      by_cases hs : m.name.length < 1024
      · rw [if_pos hs, Outcome.ok_bind]
        have hx' : ∃ m ∈ ms, 1024 ≤ m.name.length := by
          obtain ⟨x, hm, hl⟩ := hx
          rcases List.mem_cons.1 hm with rfl | hm
          · omega
          · exact ⟨x, hm, hl⟩
        rcases h.next with ⟨rfl, hg⟩ | ⟨hne, v, hg, hv⟩
        · simp at hx'
        · rw [hg, Outcome.ok_bind]
          dsimp only
          rw [if_pos rfl, tocLoop_long ms d v _ _ e fuel hv (fun x hx => hn x (List.mem_cons_of_mem _ hx)) hx'
            (by simp at hf; omega)]
          rfl
      · rw [if_neg hs]
        rfl

end Kml.Unzip
