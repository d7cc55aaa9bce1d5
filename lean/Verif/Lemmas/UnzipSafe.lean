import Verif.Lemmas.UnzipSearch
/-! Lemmas about reading archives of any bytes: the loops end and stay within their buffers. -/
namespace Kml.Unzip
open Kml.Zip

/-- The reader stands at a place of the directory and knows what is there. -/
def Stands (d : Str) (u : Unz) : Prop :=
  u.cur = if EntryAt d (u.pos + u.before) then some (infoAt d (u.pos + u.before)) else none

theorem goToFirst_eq (d : Str) (u : Unz) :
    goToFirst d u = .ok (decide (EntryAt d (u.offsetDir + u.before)),
      { u with pos := u.offsetDir, num := 0,
               cur := if EntryAt d (u.offsetDir + u.before) then some (infoAt d (u.offsetDir + u.before)) else none }) := by
  unfold goToFirst
  rw [fileInfo_none, Outcome.ok_bind]
  split
  · rename_i h; simp [h]
  · rename_i h; simp [h]

/-- Where the next entry is, after the one the reader stands at. -/
def nextPos (d : Str) (p : Nat) : Nat :=
  p + 0x2e + (infoAt d p).nameLen + (infoAt d p).extraLen + (infoAt d p).commentLen

theorem goToNext_eq (d : Str) (u : Unz) (hs : Stands d u) (he : EntryAt d (u.pos + u.before)) :
    goToNext d u =
      if u.entries ≠ 0xffff ∧ u.num + 1 = u.entries then .ok (false, u)
      else .ok (decide (EntryAt d (nextPos d (u.pos + u.before))),
        { u with pos := nextPos d (u.pos + u.before) - u.before, num := u.num + 1,
                 cur := if EntryAt d (nextPos d (u.pos + u.before))
                   then some (infoAt d (nextPos d (u.pos + u.before))) else none }) := by
  unfold Stands at hs
  rw [if_pos he] at hs
  unfold goToNext
  rw [hs]
  dsimp only
  split
  · rfl
  · rw [fileInfo_none, Outcome.ok_bind]
    have hp : u.pos + 0x2e + (infoAt d (u.pos + u.before)).nameLen + (infoAt d (u.pos + u.before)).extraLen +
        (infoAt d (u.pos + u.before)).commentLen = nextPos d (u.pos + u.before) - u.before := by
      unfold nextPos; omega
    have hq : nextPos d (u.pos + u.before) - u.before + u.before = nextPos d (u.pos + u.before) := by
      unfold nextPos; omega
    rw [hp, hq]
    split
    · rename_i h; simp [h]
    · rename_i h; simp [h]

theorem goToNext_none (d : Str) (u : Unz) (hs : Stands d u) (he : ¬ EntryAt d (u.pos + u.before)) :
    goToNext d u = .ok (false, u) := by
  unfold Stands at hs
  rw [if_neg he] at hs
  unfold goToNext
  rw [hs]

/-- What a step forward leads to. -/
theorem goToNext_cases (d : Str) (u : Unz) (hs : Stands d u) : ∃ v, goToNext d u = .ok (false, v) ∨
    (goToNext d u = .ok (true, v) ∧ Stands d v ∧ EntryAt d (u.pos + u.before) ∧ EntryAt d (v.pos + v.before) ∧
      u.pos + u.before + 46 ≤ v.pos + v.before ∧ v.before = u.before ∧ v.entries = u.entries) := by
  by_cases he : EntryAt d (u.pos + u.before)
  · rw [goToNext_eq d u hs he]
    split
    · exact ⟨u, Or.inl rfl⟩
    · have hq : nextPos d (u.pos + u.before) - u.before + u.before = nextPos d (u.pos + u.before) := by
        unfold nextPos; omega
      by_cases h : EntryAt d (nextPos d (u.pos + u.before))
      · rw [decide_eq_true h]
        refine ⟨_, Or.inr ⟨rfl, ?_, he, ?_, ?_, rfl, rfl⟩⟩
        · unfold Stands
          dsimp only
          rw [hq]
        · dsimp only
          rw [hq]
          exact h
        · dsimp only
          unfold nextPos; omega
      · rw [decide_eq_false h]
        exact ⟨_, Or.inl rfl⟩
  · exact ⟨u, Or.inl (goToNext_none d u hs he)⟩

theorem cstring_nul (b : Str) : cstring (b ++ ['\x00']) = .ok (b.takeWhile fun c => c ≠ '\x00') := by
  unfold cstring
  rw [if_pos (by simp)]
  congr 1
  induction b with
  | nil => simp
  | cons c b ih =>
      by_cases h : c = '\x00'
      · simp [h]
      · rw [List.cons_append, List.takeWhile_cons, List.takeWhile_cons]
        simp only [ne_eq, h, not_false_eq_true, decide_true, if_true] at ih ⊢
        rw [ih]

/-- The names a turn of the constructor's loop adds. -/
def turn (d : Str) (p : Nat) : Outcome (List Str) :=
  if EntryAt d p then
    match nameAt d p 1024 with
    | some b => cstring b >>= fun n => .ok [n]
    | none => .ok []
  else .ok []

theorem tocLoop_succ (d : Str) (fuel : Nat) (u : Unz) : tocLoop d (fuel + 1) u =
    (turn d (u.pos + u.before) >>= fun names => goToNext d u >>= fun g =>
      if g.1 then tocLoop d fuel g.2 >>= fun rest => .ok (names ++ rest) else .ok names) := by
  rw [tocLoop, fileInfo_some _ _ _ (by decide), Outcome.ok_bind]
  unfold turn
  by_cases h : EntryAt d (u.pos + u.before)
  · simp only [h, if_true]
    cases nameAt d (u.pos + u.before) 1024 <;> rfl
  · simp only [h, if_false]

theorem turn_short (d : Str) (p : Nat) (h : EntryAt d p → (infoAt d p).nameLen < 1024) :
    ∃ t, turn d p = .ok t := by
  unfold turn
  by_cases he : EntryAt d p
  · rw [if_pos he]
    unfold nameAt
    rw [if_pos (h he)]
    split
    · rename_i b hb
      split at hb
      · cases hb
        rw [cstring_nul]
        exact ⟨_, rfl⟩
      · cases hb
    · exact ⟨_, rfl⟩
  · rw [if_neg he]; exact ⟨_, rfl⟩

theorem turn_length (d : Str) (p : Nat) (t : List Str) (h : turn d p = .ok t) :
    t = [] ∨ (EntryAt d p ∧ t.length = 1) := by
  unfold turn at h
  split at h
  · rename_i he
    split at h
    · rename_i b _
      unfold cstring at h
      split at h
      · cases h; exact Or.inr ⟨he, rfl⟩
      · cases h
    · cases h; exact Or.inl rfl
  · cases h; exact Or.inl rfl

theorem turn_not_throws (d : Str) (p : Nat) : turn d p ≠ .throws := by
  unfold turn
  split
  · split
    · unfold cstring
      split
      · intro h; cases h
      · intro h; cases h
    · intro h; cases h
  · intro h; cases h

theorem tocLoop_safe (d : Str) (h : ∀ p, EntryAt d p → (infoAt d p).nameLen < 1024) : ∀ (fuel : Nat) (u : Unz),
    Stands d u → ∃ t, tocLoop d fuel u = .ok t
  | 0, _, _ => ⟨_, rfl⟩
  | fuel + 1, u, hs => by
      rw [tocLoop_succ]
      obtain ⟨t, ht⟩ := turn_short d (u.pos + u.before) (h _)
      rw [ht, Outcome.ok_bind]
      obtain ⟨v, hv | ⟨hv, hsv, _⟩⟩ := goToNext_cases d u hs
      · rw [hv, Outcome.ok_bind]; exact ⟨_, rfl⟩
      · rw [hv, Outcome.ok_bind]
        obtain ⟨t', ht'⟩ := tocLoop_safe d h fuel v hsv
        dsimp only
        rw [if_pos rfl, ht']
        exact ⟨_, rfl⟩

theorem lim_le (d : Str) : lim d ≤ d.length := Nat.min_le_left _ _

theorem tocLoop_bound (d : Str) : ∀ (fuel : Nat) (u : Unz) (t : List Str), Stands d u →
    tocLoop d fuel u = .ok t → t = [] ∨ 46 * t.length + (u.pos + u.before) ≤ d.length
  | 0, _, t, _, h => by cases h; exact Or.inl rfl
  | fuel + 1, u, t, hs, h => by
      rw [tocLoop_succ] at h
      cases ht : turn d (u.pos + u.before) with
      | throws => rw [ht] at h; cases h
      | ub => rw [ht] at h; cases h
      | ok names =>
          rw [ht, Outcome.ok_bind] at h
          have hn := turn_length _ _ _ ht
          have hlim := lim_le d
          obtain ⟨v, hv | ⟨hv, hsv, he, hev, hle, _⟩⟩ := goToNext_cases d u hs
          · rw [hv, Outcome.ok_bind] at h
            cases h
            rcases hn with rfl | ⟨he, h1⟩
            · exact Or.inl rfl
            · right
              have := he.1
              omega
          · rw [hv, Outcome.ok_bind] at h
            dsimp only at h
            rw [if_pos rfl] at h
            cases hr : tocLoop d fuel v with
            | throws => rw [hr] at h; cases h
            | ub => rw [hr] at h; cases h
            | ok rest =>
                rw [hr, Outcome.ok_bind] at h
                cases h
                right
                rw [List.length_append]
                have h1 : names.length ≤ 1 := by
                  rcases hn with rfl | ⟨_, h1⟩
                  · simp
                  · omega
                have := he.1
                rcases tocLoop_bound d fuel v rest hsv hr with rfl | hb
                · simp; omega
                · omega

theorem tocLoop_fuel (d : Str) : ∀ (f g : Nat) (u : Unz), Stands d u →
    d.length < f + (u.pos + u.before) → d.length < g + (u.pos + u.before) → tocLoop d f u = tocLoop d g u
  | 0, 0, _, _, _, _ => rfl
  | 0, g + 1, u, hs, hf, _ => by
      have he : ¬ EntryAt d (u.pos + u.before) := by
        intro e; have := e.1; have := lim_le d; omega
      rw [tocLoop_succ, goToNext_none d u hs he]
      unfold turn
      rw [if_neg he]
      rfl
  | f + 1, 0, u, hs, _, hg => by
      have he : ¬ EntryAt d (u.pos + u.before) := by
        intro e; have := e.1; have := lim_le d; omega
      rw [tocLoop_succ, goToNext_none d u hs he]
      unfold turn
      rw [if_neg he]
      rfl
  | f + 1, g + 1, u, hs, hf, hg => by
      rw [tocLoop_succ, tocLoop_succ]
      obtain ⟨v, hv | ⟨hv, hsv, _, _, hle, _⟩⟩ := goToNext_cases d u hs
      · rw [hv]; rfl
      · rw [hv]
        simp only [Outcome.ok_bind, if_true]
        rw [tocLoop_fuel d f g v hsv (by omega) (by omega)]

theorem attach_cases (d : Str) : ∃ r, attach d = .ok r ∧ ∀ u, r = some u → Stands d u := by
  unfold attach
  obtain ⟨c, hc, _⟩ := search_spec d
  obtain ⟨m, hm⟩ := getLE_safe d 4 c
  obtain ⟨f, hf⟩ := fields_safe d [2, 2, 2, 2, 4, 4, 2] m.2 (by decide)
  rw [hc, Outcome.ok_bind, hm, Outcome.ok_bind, hf, Outcome.ok_bind]
  split
  · rw [goToFirst_eq, Outcome.ok_bind]
    refine ⟨_, rfl, ?_⟩
    intro u hu
    cases hu
    rfl
  · exact ⟨none, rfl, by simp⟩

theorem sameName_safe (cc : Bool) : ∀ (b p : Str), (p.length < b.length ∨ '\x00' ∈ b) →
    ∃ r, sameName cc b p = .ok r
  | [], p, h => by simp at h
  | c :: b, [], _ => ⟨_, rfl⟩
  | c :: b, p :: ps, h => by
      rw [sameName]
      split
      · split
        · exact ⟨_, rfl⟩
        · rename_i hc
          apply sameName_safe cc b ps
          rcases h with h | h
          · simp at h; exact Or.inl h
          · rw [List.mem_cons] at h
            rcases h with h | h
            · exact absurd h.symm hc
            · exact Or.inr h
      · exact ⟨_, rfl⟩

theorem nameAt_fits (d : Str) (p : Nat) (b path : Str) (h : nameAt d p 256 = some b) (hl : path.length < 256) :
    path.length < b.length ∨ '\x00' ∈ b := by
  unfold nameAt at h
  split at h
  · rename_i hr
    cases h
    split
    · right; simp
    · left
      rw [bytes_length]
      unfold Reads at hr
      omega
  · cases h

theorem locateLoop_safe (cc : Bool) (d path : Str) (hl : path.length < 256) : ∀ (fuel : Nat) (u : Unz),
    Stands d u → ∃ r, locateLoop cc d path fuel u = .ok r ∧ ∀ v, r = some v → Stands d v
  | 0, _, _ => ⟨none, rfl, by simp⟩
  | fuel + 1, u, hs => by
      rw [locateLoop, fileInfo_some _ _ _ (by decide), Outcome.ok_bind]
      by_cases he : EntryAt d (u.pos + u.before)
      · rw [if_pos he]
        cases hn : nameAt d (u.pos + u.before) 256 with
        | none => exact ⟨none, rfl, by simp⟩
        | some b =>
            obtain ⟨s, hsame⟩ := sameName_safe cc b path (nameAt_fits d _ b path hn hl)
            simp only [Option.map_some]
            rw [hsame, Outcome.ok_bind]
            split
            · exact ⟨some u, rfl, fun v hv => by cases hv; exact hs⟩
            · obtain ⟨v, hv | ⟨hv, hsv, _⟩⟩ := goToNext_cases d u hs
              · rw [hv, Outcome.ok_bind]
                exact ⟨none, rfl, by simp⟩
              · rw [hv, Outcome.ok_bind]
                dsimp only
                rw [if_pos rfl]
                exact locateLoop_safe cc d path hl fuel v hsv
      · rw [if_neg he]; exact ⟨none, rfl, by simp⟩

theorem locateLoop_fuel (cc : Bool) (d path : Str) : ∀ (f g : Nat) (u : Unz), Stands d u →
    d.length < f + (u.pos + u.before) → d.length < g + (u.pos + u.before) →
    locateLoop cc d path f u = locateLoop cc d path g u
  | 0, 0, _, _, _, _ => rfl
  | 0, g + 1, u, hs, hf, _ => by
      have he : ¬ EntryAt d (u.pos + u.before) := by
        intro e; have := e.1; have := lim_le d; omega
      rw [locateLoop, locateLoop, fileInfo_out d _ _ he]
      rfl
  | f + 1, 0, u, hs, _, hg => by
      have he : ¬ EntryAt d (u.pos + u.before) := by
        intro e; have := e.1; have := lim_le d; omega
      rw [locateLoop, locateLoop, fileInfo_out d _ _ he]
      rfl
  | f + 1, g + 1, u, hs, hf, hg => by
      rw [locateLoop, locateLoop]
      obtain ⟨v, hv | ⟨hv, hsv, _, _, hle, _⟩⟩ := goToNext_cases d u hs
      · rw [hv]; rfl
      · rw [hv]
        simp only [Outcome.ok_bind, if_true]
        rw [locateLoop_fuel cc d path f g v hsv (by omega) (by omega)]

theorem locate_safe (cc : Bool) (d : Str) (u : Unz) (path : Str) :
    ∃ r, locate cc d u path = .ok r ∧ ∀ v, r = some v → Stands d v := by
  unfold locate
  split
  · exact ⟨none, rfl, by simp⟩
  · split
    · exact ⟨none, rfl, by simp⟩
    · rw [goToFirst_eq, Outcome.ok_bind]
      dsimp only
      split
      · exact locateLoop_safe cc d path (by omega) _ _ rfl
      · exact ⟨none, rfl, by simp⟩

theorem localHeader_safe (d : Str) (before : Nat) (c : Info) : ∃ r, localHeader d before c = .ok r := by
  unfold localHeader
  obtain ⟨m, hm⟩ := getLE_safe d 4 (c.offset + before)
  obtain ⟨f, hf⟩ := fields_safe d [2, 2, 2, 4, 4, 4, 4, 2, 2] m.2 (by decide)
  rw [hm, Outcome.ok_bind, hf, Outcome.ok_bind]
  split
  · exact ⟨_, rfl⟩
  · exact ⟨_, rfl⟩

/-- zlib keeps to its contract: it takes no more than is on offer, writes no more than there is room for, answers
`Z_OK` only if it did something, and answers a negative number for every error. -/
def Inflate.Lawful (inf : Inflate) : Prop :=
  ∀ st inp room, 0 < room →
    (inf.step st inp room).2.1 ≤ inp.length ∧ (inf.step st inp room).2.2.1.length ≤ room ∧
    ((inf.step st inp room).1 = 0 → 0 < (inf.step st inp room).2.1 + (inf.step st inp room).2.2.1.length) ∧
    ((inf.step st inp room).1 ≠ 0 → (inf.step st inp room).1 ≠ 1 → (inf.step st inp room).1 < 0)

/-- One turn of refilling the buffer. -/
def refill (d : Str) (pos rest : Nat) (inp : Str) : Option (Nat × Nat × Str) :=
  if inp = [] ∧ 0 < rest then
    if Reads d pos (min rest 16384) then
      some (pos + min rest 16384, rest - min rest 16384, bytes d pos (min rest 16384))
    else none
  else some (pos, rest, inp)

theorem readLoop_succ (inf : Inflate) (d : Str) (method fuel pos rest : Nat) (inp : Str) (room : Nat) (out : Str)
    (st : inf.State) : readLoop inf d method (fuel + 1) pos rest inp room out st =
      if room = 0 then .ok (toInt out.length, out)
      else match refill d pos rest inp with
        | none => .ok (-1, out)
        | some (pos, rest, inp) =>
            if method = 0 then
              if inp = [] ∧ rest = 0 then .ok (toInt out.length, out)
              else readLoop inf d method fuel pos rest (inp.drop (min room inp.length)) (room - min room inp.length)
                (out ++ inp.take (min room inp.length)) st
            else if (inf.step st inp room).2.1 ≤ inp.length ∧ (inf.step st inp room).2.2.1.length ≤ room then
              if (inf.step st inp room).1 = 1 then
                .ok (toInt (out ++ (inf.step st inp room).2.2.1).length, out ++ (inf.step st inp room).2.2.1)
              else if (inf.step st inp room).1 ≠ 0 then
                .ok ((inf.step st inp room).1, out ++ (inf.step st inp room).2.2.1)
              else readLoop inf d method fuel pos rest (inp.drop (inf.step st inp room).2.1)
                (room - (inf.step st inp room).2.2.1.length) (out ++ (inf.step st inp room).2.2.1)
                (inf.step st inp room).2.2.2
            else .ub := by
  rw [readLoop]
  by_cases h0 : room = 0
  · rw [if_pos h0, if_pos h0]
  · rw [if_neg h0, if_neg h0]
    have hr : (if inp = [] ∧ 0 < rest then
          read d pos (if rest < 16384 then rest else 16384) 16384 >>= fun r =>
            if r.1.length ≠ (if rest < 16384 then rest else 16384) then .ok none
            else .ok (some (pos + (if rest < 16384 then rest else 16384), rest - (if rest < 16384 then rest else 16384), r.1))
         else .ok (some (pos, rest, inp))) = Outcome.ok (refill d pos rest inp) := by
      unfold refill
      split
      · rename_i hc
        have hn : (if rest < 16384 then rest else 16384) = min rest 16384 := by split <;> omega
        rw [hn, read_eq _ _ _ _ (by omega), Outcome.ok_bind]
        dsimp only
        by_cases h2 : Reads d pos (min rest 16384)
        · rw [if_pos h2]
          unfold Reads at h2
          have h3 : ¬ pos ≥ 2147483647 := by omega
          simp only [h3, if_false]
          rw [if_neg (by rw [bytes_length]; omega)]
        · rw [if_neg h2]
          unfold Reads at h2
          by_cases h3 : pos ≥ 2147483647
          · simp only [h3, if_true]
            rw [if_pos (by simp; omega)]
          · simp only [h3, if_false]
            rw [if_pos (by rw [bytes_length]; omega)]
      · rfl
    dsimp only
    rw [hr, Outcome.ok_bind]
    have hm : ∀ (inp : Str), (if room < inp.length then room else inp.length) = min room inp.length := by
      intro inp; split <;> omega
    cases refill d pos rest inp with
    | none => rfl
    | some x =>
        obtain ⟨pos, rest, inp⟩ := x
        dsimp only
        rw [hm]

theorem refill_spec (d : Str) (pos rest : Nat) (inp : Str) (p r : Nat) (i : Str)
    (h : refill d pos rest inp = some (p, r, i)) :
    r + i.length = rest + inp.length ∧ (i = [] → r = 0) := by
  unfold refill at h
  split at h
  · rename_i hc
    split at h
    · rename_i hr
      cases h
      unfold Reads at hr
      obtain ⟨rfl, h0⟩ := hc
      have : (bytes d pos (min rest 16384)).length = min rest 16384 := by rw [bytes_length]; omega
      refine ⟨by simp [this]; omega, fun h => ?_⟩
      rw [h] at this
      simp at this
      omega
    · cases h
  · rename_i hc
    cases h
    refine ⟨rfl, fun h => ?_⟩
    subst h
    simp at hc
    exact hc

/-- What the reading of a file answers: an error, or the number of bytes written. -/
def Answer (r : Int × Str) (most : Nat) : Prop := (r.1 < 0 ∨ r.1 = toInt r.2.length) ∧ r.2.length ≤ most

theorem readLoop_safe (inf : Inflate) (hl : inf.Lawful) (d : Str) (method : Nat) :
    ∀ (fuel pos rest : Nat) (inp : Str) (room : Nat) (out : Str) (st : inf.State),
    room + rest + inp.length < fuel →
    ∃ r, readLoop inf d method fuel pos rest inp room out st = .ok r ∧ Answer r (out.length + room)
  | 0, _, _, _, _, _, _, h => by omega
  | fuel + 1, pos, rest, inp, room, out, st, hf => by
      rw [readLoop_succ]
      by_cases h0 : room = 0
      · rw [if_pos h0]
        exact ⟨_, rfl, Or.inr rfl, by dsimp only; omega⟩
      · rw [if_neg h0]
        cases hr : refill d pos rest inp with
        | none => exact ⟨_, rfl, Or.inl (by dsimp only; omega), by dsimp only; omega⟩
        | some x =>
            obtain ⟨p, r, i⟩ := x
            obtain ⟨h1, h2⟩ := refill_spec d pos rest inp p r i hr
            dsimp only
            by_cases hm : method = 0
            · rw [if_pos hm]
              by_cases hc : i = [] ∧ r = 0
              · rw [if_pos hc]
                exact ⟨_, rfl, Or.inr rfl, by dsimp only; omega⟩
              · rw [if_neg hc]
                have hi : 0 < i.length := by
                  rw [List.length_pos_iff]
                  intro e
                  exact hc ⟨e, h2 e⟩
                obtain ⟨q, hq, ha1, ha2⟩ := readLoop_safe inf hl d method fuel p r (i.drop (min room i.length))
                  (room - min room i.length) (out ++ i.take (min room i.length)) st (by simp; omega)
                exact ⟨q, hq, ha1, by simp at ha2; omega⟩
            · rw [if_neg hm]
              obtain ⟨a1, a2, a3, a4⟩ := hl st i room (by omega)
              rw [if_pos ⟨a1, a2⟩]
              split
              · exact ⟨_, rfl, Or.inr rfl, by simp; omega⟩
              · split
                · rename_i n1 n0
                  exact ⟨_, rfl, Or.inl (a4 n0 n1), by simp; omega⟩
                · rename_i n1 n0
                  have := a3 (by omega)
                  obtain ⟨q, hq, ha1, ha2⟩ := readLoop_safe inf hl d method fuel p r
                    (i.drop (inf.step st i room).2.1) (room - (inf.step st i room).2.2.1.length)
                    (out ++ (inf.step st i room).2.2.1) (inf.step st i room).2.2.2 (by simp; omega)
                  exact ⟨q, hq, ha1, by simp at ha2; omega⟩

theorem readLoop_fuel (inf : Inflate) (hl : inf.Lawful) (d : Str) (method : Nat) :
    ∀ (f g pos rest : Nat) (inp : Str) (room : Nat) (out : Str) (st : inf.State),
    room + rest + inp.length < f → room + rest + inp.length < g →
    readLoop inf d method f pos rest inp room out st = readLoop inf d method g pos rest inp room out st
  | 0, _, _, _, _, _, _, _, h, _ => by omega
  | _, 0, _, _, _, _, _, _, _, h => by omega
  | f + 1, g + 1, pos, rest, inp, room, out, st, hf, hg => by
      rw [readLoop_succ, readLoop_succ]
      by_cases h0 : room = 0
      · rw [if_pos h0, if_pos h0]
      · rw [if_neg h0, if_neg h0]
        cases hr : refill d pos rest inp with
        | none => rfl
        | some x =>
            obtain ⟨p, r, i⟩ := x
            obtain ⟨h1, h2⟩ := refill_spec d pos rest inp p r i hr
            dsimp only
            by_cases hm : method = 0
            · rw [if_pos hm, if_pos hm]
              by_cases hc : i = [] ∧ r = 0
              · rw [if_pos hc, if_pos hc]
              · rw [if_neg hc, if_neg hc]
                have hi : 0 < i.length := by
                  rw [List.length_pos_iff]
                  intro e
                  exact hc ⟨e, h2 e⟩
                exact readLoop_fuel inf hl d method f g _ _ _ _ _ _ (by simp; omega) (by simp; omega)
            · rw [if_neg hm, if_neg hm]
              obtain ⟨a1, a2, a3, a4⟩ := hl st i room (by omega)
              have hc := And.intro a1 a2
              rw [if_pos hc, if_pos hc]
              by_cases n1 : (inf.step st i room).1 = 1
              · rw [if_pos n1, if_pos n1]
              · rw [if_neg n1, if_neg n1]
                by_cases n0 : (inf.step st i room).1 = 0
                · have := a3 n0
                  rw [if_neg (by simp [n0]), if_neg (by simp [n0])]
                  exact readLoop_fuel inf hl d method f g _ _ _ _ _ _ (by simp; omega) (by simp; omega)
                · rw [if_pos n0, if_pos n0]

theorem toInt_small (n : Nat) (h : n < 2147483648) : toInt n = (n : Int) := by
  unfold toInt
  rw [Nat.mod_eq_of_lt (by omega), if_pos h]

theorem getEntry_safe (inf : Inflate) (hl : inf.Lawful) (cc : Bool) (max : Nat) (hmax : max ≤ 2147483647)
    (d : Str) (toc : List Str) (path : Str) :
    ∃ r, getEntry inf cc max d toc path = .ok r ∧ ∀ s, r = some s → 0 < s.length ∧ s.length ≤ max := by
  unfold getEntry
  split
  · obtain ⟨u, hu, _⟩ := attach_cases d
    rw [hu, Outcome.ok_bind]
    cases u with
    | none => exact ⟨none, rfl, by simp⟩
    | some u =>
        obtain ⟨l, hlo, hst⟩ := locate_safe cc d u (path.takeWhile fun c => c ≠ '\x00')
        dsimp only
        rw [hlo, Outcome.ok_bind]
        cases l with
        | none => exact ⟨none, rfl, by simp⟩
        | some v =>
            have hs := hst v rfl
            unfold Stands at hs
            dsimp only
            by_cases he : EntryAt d (v.pos + v.before)
            · rw [if_pos he] at hs
              rw [hs]
              dsimp only
              obtain ⟨p, hp⟩ := localHeader_safe d v.before (infoAt d (v.pos + v.before))
              rw [hp, Outcome.ok_bind]
              cases p with
              | none => exact ⟨none, rfl, by simp⟩
              | some p =>
                  dsimp only
                  rw [fileInfo_none, Outcome.ok_bind, if_pos he]
                  dsimp only
                  split
                  · exact ⟨none, rfl, by simp⟩
                  · rename_i hz
                    rw [if_neg (by omega)]
                    obtain ⟨r, hr, ha, hb⟩ := readLoop_safe inf hl d (infoAt d (v.pos + v.before)).method
                      ((infoAt d (v.pos + v.before)).usize + (infoAt d (v.pos + v.before)).csize + 1) p
                      (infoAt d (v.pos + v.before)).csize [] (infoAt d (v.pos + v.before)).usize [] inf.init
                      (by simp)
                    rw [hr, Outcome.ok_bind]
                    split
                    · rename_i hi
                      rw [toInt_small _ (by omega)] at hi
                      simp only [List.length_nil, Nat.zero_add] at hb
                      rw [hi, toInt_small _ (by omega)] at ha
                      have hlen : (infoAt d (v.pos + v.before)).usize = r.2.length := by omega
                      rw [if_pos (by omega)]
                      refine ⟨_, rfl, ?_⟩
                      intro s hs
                      cases hs
                      rw [List.length_take]
                      omega
                    · exact ⟨none, rfl, by simp⟩
            · rw [if_neg he] at hs
              rw [hs]
              exact ⟨none, rfl, by simp⟩
  · exact ⟨none, rfl, by simp⟩

end Kml.Unzip
