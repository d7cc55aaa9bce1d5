import Verif.Lemmas.UnzipArchive
import Verif.Spec.Inflate
/-! Lemmas about finding and reading a file of an archive laid out as the format says. -/
namespace Kml.Unzip
open Kml.Zip

theorem end_vals (ms : List Member) (comment a : Str) (hc : ms.length < 65536) (hm : comment.length < 65536)
    (hd : (directory 0 ms).length < 4294967296) (hb : (body ms).length < 4294967296) :
    vals (a ++ endRecord ms comment) [4, 2, 2, 2, 2, 4, 4, 2] a.length =
      [0x06054b50, 0, 0, ms.length, ms.length, (directory 0 ms).length, (body ms).length, comment.length] := by
  have := vals_row [(4, 0x06054b50), (2, 0), (2, 0), (2, ms.length), (2, ms.length), (4, (directory 0 ms).length),
    (4, (body ms).length), (2, comment.length)] a comment (by
      intro f hfm
      simp only [List.mem_cons, List.not_mem_nil, or_false] at hfm
      rcases hfm with rfl | rfl | rfl | rfl | rfl | rfl | rfl | rfl <;> first | (simp; done) | simpa using ‹_›)
  exact this

theorem endRecord_length (ms : List Member) (comment : Str) : (endRecord ms comment).length = 22 + comment.length := by
  unfold endRecord
  rw [List.length_append, row_length]
  simp

theorem search_archive (ms : List Member) (comment : Str) (hs : Sound ms comment) (hne : ms ≠ []) :
    search (archive ms comment) = .ok (body ms ++ directory 0 ms).length ∧
    vals (archive ms comment) [4, 2, 2, 2, 2, 4, 4, 2] (body ms ++ directory 0 ms).length =
      [0x06054b50, 0, 0, ms.length, ms.length, (directory 0 ms).length, (body ms).length, comment.length] := by
  have hd : archive ms comment = (body ms ++ directory 0 ms) ++ endRecord ms comment := by
    unfold archive; simp
  have hlen := congrArg List.length hd
  rw [List.length_append, endRecord_length] at hlen
  have hsz := hs.size
  have hcat : (body ms ++ directory 0 ms).length = (body ms).length + (directory 0 ms).length := by simp
  have htail := hs.tail
  have hv := end_vals ms comment (body ms ++ directory 0 ms) (by have := hs.count; omega) (by omega) (by omega)
    (by omega)
  rw [← hd] at hv
  refine ⟨?_, hv⟩
  rw [vals] at hv
  have hmark : MarkAt (archive ms comment) (body ms ++ directory 0 ms).length :=
    ⟨(List.cons.inj hv).1, by omega⟩
  have hpos : 0 < (body ms ++ directory 0 ms).length := by
    cases ms with
    | nil => exact absurd rfl hne
    | cons m ms =>
        rw [body_cons, List.length_append, List.length_append, record_length]
        omega
  obtain ⟨p, hp, h1, h2⟩ := search_spec (archive ms comment)
  rw [hp]
  congr 1
  by_cases h0 : p = 0
  · exact absurd hmark (h2 h0 (by omega) _ hpos (by omega))
  · obtain ⟨a1, _, a3⟩ := h1 h0
    rcases Nat.lt_trichotomy p (body ms ++ directory 0 ms).length with h | h | h
    · exact absurd hmark (a3 _ h)
    · exact h
    · exact absurd a1 (hs.mark p h)

theorem attach_archive (ms : List Member) (comment : Str) (hs : Sound ms comment) (hne : ms ≠ []) :
    ∃ u, attach (archive ms comment) = .ok (some u) ∧ u.offsetDir = u.pos ∧ u.num = 0 ∧
      Before (archive ms comment) u (body ms) 0 ms (endRecord ms comment) := by
  obtain ⟨hsr, hv⟩ := search_archive ms comment hs hne
  have hd : archive ms comment = (body ms ++ directory 0 ms) ++ endRecord ms comment := by
    unfold archive; simp
  have hlen := congrArg List.length hd
  rw [List.length_append, endRecord_length] at hlen
  have hsz := hs.size
  have hcat : (body ms ++ directory 0 ms).length = (body ms).length + (directory 0 ms).length := by simp
  have hpos : 0 < (body ms).length := by
    cases ms with
    | nil => exact absurd rfl hne
    | cons m ms =>
        rw [body_cons, List.length_append, record_length]
        omega
  unfold attach
  rw [hsr, Outcome.ok_bind, getLE_in _ 4 _ (by unfold lim; omega), Outcome.ok_bind]
  dsimp only
  rw [fields_in _ [2, 2, 2, 2, 4, 4, 2] _ (by unfold lim; show _ + 4 + 18 ≤ _; omega), Outcome.ok_bind]
  rw [vals] at hv
  rw [(List.cons.inj hv).2]
  dsimp only
  simp only [List.getD_cons_succ, List.getD_cons_zero]
  rw [if_pos ⟨by omega, rfl, trivial, trivial, trivial, trivial, by omega⟩, goToFirst_eq, Outcome.ok_bind]
  refine ⟨_, rfl, rfl, rfl, ?_⟩
  have h0 : (body ms ++ directory 0 ms).length - ((body ms).length + (directory 0 ms).length) = 0 := by omega
  dsimp only
  rw [h0]
  refine ⟨rfl, by omega, hs.members, by omega, rfl, rfl, by simp, ?_, rfl⟩
  have := hs.count
  dsimp only
  omega

/-- The members with the places of their local headers. -/
def placed : Nat → List Member → List (Member × Nat)
  | _, [] => []
  | off, m :: ms => (m, off) :: placed (off + (record m).length) ms

theorem upper_nul (c : Char) (h : upper c = '\x00') : c = '\x00' := by
  unfold upper at h
  split at h
  · rename_i hc
    exfalso
    have h1 : 97 ≤ c.toNat := hc.1
    have h2 : c.toNat ≤ 122 := hc.2
    have := congrArg Char.toNat h
    rw [ofNat_toNat _ (by omega)] at this
    simp at this
    omega
  · exact h

theorem upper_lower (c p : Char) : upper c = upper p ↔ toLower c = toLower p := by
  have key : ∀ c : Char, (upper c).toNat = if 97 ≤ c.toNat ∧ c.toNat ≤ 122 then c.toNat - 32 else c.toNat := by
    intro c
    unfold upper
    by_cases hc : 'a' ≤ c ∧ c ≤ 'z'
    · have h1 : 97 ≤ c.toNat := hc.1
      have h2 : c.toNat ≤ 122 := hc.2
      rw [if_pos hc, if_pos ⟨h1, h2⟩, ofNat_toNat _ (by omega)]
    · rw [if_neg hc, if_neg]
      rintro ⟨h1, h2⟩
      exact hc ⟨h1, h2⟩
  have key2 : ∀ c : Char, (toLower c).toNat = if 65 ≤ c.toNat ∧ c.toNat ≤ 90 then c.toNat + 32 else c.toNat := by
    intro c
    unfold toLower
    by_cases hc : 65 ≤ c.toNat ∧ c.toNat ≤ 90
    · rw [if_pos (by simpa using hc), if_pos hc, ofNat_toNat _ (by omega)]
    · rw [if_neg (by simpa using hc), if_neg hc]
  have inj : ∀ a b : Char, a = b ↔ a.toNat = b.toNat := by
    intro a b
    constructor
    · intro h; rw [h]
    · intro h
      exact Char.ext (UInt32.toNat_inj.1 h)
  rw [inj (upper c), inj (toLower c), key, key, key2, key2]
  constructor
  · intro h
    split at h <;> split at h <;> split <;> split <;> omega
  · intro h
    split at h <;> split at h <;> split <;> split <;> omega

/-- Whether two names count as the same. -/
def alike (cc : Bool) (name path : Str) : Bool :=
  if cc then name = path else name.map toLower = path.map toLower

theorem alike_cons (cc : Bool) (c p : Char) (b ps : Str) :
    alike cc (c :: b) (p :: ps) = (sameChar cc c p && alike cc b ps) := by
  unfold alike sameChar
  cases cc
  · simp only [Bool.false_eq_true, if_false, List.map_cons, List.cons.injEq, Bool.decide_and]
    rw [decide_eq_decide.2 (upper_lower c p)]
  · simp only [if_true, List.cons.injEq, Bool.decide_and]

theorem sameName_alike (cc : Bool) : ∀ (name path : Str), '\x00' ∉ name → '\x00' ∉ path →
    sameName cc (name ++ ['\x00']) path = .ok (alike cc name path)
  | [], [], _, _ => by cases cc <;> rfl
  | [], p :: ps, _, hp => by
      rw [List.nil_append, sameName]
      have hz : p ≠ '\x00' := fun e => hp (e ▸ List.mem_cons_self ..)
      have : sameChar cc '\x00' p = false := by
        unfold sameChar
        cases cc
        · simp only [Bool.false_eq_true, if_false, decide_eq_false_iff_not]
          intro e
          exact hz (upper_nul p (e.symm.trans (by decide)))
        · simp only [if_true, decide_eq_false_iff_not]
          exact fun e => hz e.symm
      rw [this]
      unfold alike
      cases cc <;> simp
  | c :: b, [], hn, _ => by
      have hz : c ≠ '\x00' := fun e => hn (e ▸ List.mem_cons_self ..)
      rw [List.cons_append, sameName]
      unfold alike
      cases cc <;> simp [hz]
  | c :: b, p :: ps, hn, hp => by
      have hz : c ≠ '\x00' := fun e => hn (e ▸ List.mem_cons_self ..)
      rw [List.cons_append, sameName, if_neg hz, alike_cons,
        sameName_alike cc b ps (fun e => hn (List.mem_cons_of_mem _ e)) (fun e => hp (List.mem_cons_of_mem _ e))]
      cases sameChar cc c p <;> rfl

theorem alike_length (cc : Bool) (name path : Str) (h : alike cc name path = true) : name.length = path.length := by
  unfold alike at h
  cases cc
  · simp only [Bool.false_eq_true, if_false, decide_eq_true_eq] at h
    have := congrArg List.length h
    simpa using this
  · simp only [if_true, decide_eq_true_eq] at h
    rw [h]

theorem sameName_long (cc : Bool) : ∀ (b path : Str), '\x00' ∉ b → path.length < b.length →
    sameName cc b path = .ok false
  | [], _, _, h => by simp at h
  | c :: b, [], hn, _ => by
      have hz : c ≠ '\x00' := fun e => hn (e ▸ List.mem_cons_self ..)
      rw [sameName]; simp [hz]
  | c :: b, p :: ps, hn, hl => by
      have hz : c ≠ '\x00' := fun e => hn (e ▸ List.mem_cons_self ..)
      rw [sameName, if_neg hz, sameName_long cc b ps (fun e => hn (List.mem_cons_of_mem _ e)) (by simpa using hl)]
      simp

theorem sameName_buffer (cc : Bool) (name path : Str) (hn : '\x00' ∉ name) (hp : '\x00' ∉ path)
    (hl : path.length < 256) :
    sameName cc (if name.length < 256 then name ++ ['\x00'] else name.take 256) path = .ok (alike cc name path) := by
  split
  · exact sameName_alike cc name path hn hp
  · rename_i h
    rw [sameName_long cc _ path (fun e => hn (List.mem_of_mem_take e)) (by rw [List.length_take]; omega)]
    congr 1
    cases ha : alike cc name path with
    | false => rfl
    | true => have := alike_length cc name path ha; omega

/-- The reader stands at the entry of a member whose local header is at `off`. -/
def At (d : Str) (u : Unz) (m : Member) (off : Nat) : Prop :=
  u.before = 0 ∧ u.cur = some (infoOfMember m off) ∧ EntryAt d (u.pos + u.before) ∧
    infoAt d (u.pos + u.before) = infoOfMember m off

theorem locateLoop_here (cc : Bool) (path : Str) (hp : '\x00' ∉ path) (hpl : path.length < 256) :
    ∀ (ms : List Member) (d : Str) (u : Unz) (a : Str) (off : Nat) (e : Str) (fuel : Nat),
    ms ≠ [] → Before d u a off ms e → (∀ m ∈ ms, '\x00' ∉ m.name) → ms.length ≤ fuel →
    match (placed off ms).find? (fun x => alike cc x.1.name path) with
    | none => locateLoop cc d path fuel u = .ok none
    | some x => ∃ v, locateLoop cc d path fuel u = .ok (some v) ∧ At d v x.1 x.2
  | [], _, _, _, _, _, _, h, _, _, _ => absurd rfl h
  | m :: ms, d, u, a, off, e, 0, _, _, _, hf => by simp at hf
  | m :: ms, d, u, a, off, e, fuel + 1, _, h, hn, hf => by
      obtain ⟨hd, he, hi, hc⟩ := h.entry
      have hpos : u.pos + u.before = a.length := by rw [h.pos, h.before]; rfl
      have hname : nameAt d (u.pos + u.before) 256 =
          some (if m.name.length < 256 then m.name ++ ['\x00'] else m.name.take 256) := by
        have hi := hi
        rw [hpos] at hi ⊢
        have hl := h.size
        rw [hd] at hi hl ⊢
        exact nameAt_here m off a _ 256 (by decide) hl hi
      have hstep : locateLoop cc d path (fuel + 1) u = (if alike cc m.name path then .ok (some u)
            else goToNext d u >>= fun g => if g.1 then locateLoop cc d path fuel g.2 else .ok none) := by
        rw [locateLoop, fileInfo_some _ _ _ (by decide), Outcome.ok_bind, if_pos he, hname]
        simp only [Option.map_some]
        rw [sameName_buffer cc m.name path (hn m (List.mem_cons_self ..)) hp hpl, Outcome.ok_bind]
      rw [placed, hstep]
      cases ha : alike cc m.name path with
      | true =>
          rw [List.find?_cons_of_pos (p := fun x : Member × Nat => alike cc x.1.name path) (by exact ha)]
          dsimp only
          rw [if_pos rfl]
          exact ⟨u, rfl, h.before, hc, he, hi⟩
      | false =>
          rw [List.find?_cons_of_neg (p := fun x : Member × Nat => alike cc x.1.name path) (by simp [ha])]
          rw [if_neg (by simp)]
          rcases h.next with ⟨rfl, hg⟩ | ⟨hne, v, hg, hv⟩
          · rw [hg]; rfl
          · rw [hg, Outcome.ok_bind]
            dsimp only
            rw [if_pos rfl]
            exact locateLoop_here cc path hp hpl ms d v _ _ e fuel hne hv
              (fun x hx => hn x (List.mem_cons_of_mem _ hx)) (by simp at hf; omega)

theorem placed_body : ∀ (ms : List Member) (off : Nat) (x : Member × Nat), x ∈ placed off ms →
    x.1 ∈ ms ∧ ∃ a b, body ms = a ++ (record x.1 ++ b) ∧ x.2 = off + a.length
  | [], _, _, h => by cases h
  | m :: ms, off, x, h => by
      rw [placed, List.mem_cons] at h
      rcases h with rfl | h
      · exact ⟨List.mem_cons_self .., [], body ms, by rw [body_cons]; rfl, rfl⟩
      · obtain ⟨hm, a, b, hb, hx⟩ := placed_body ms _ x h
        refine ⟨List.mem_cons_of_mem _ hm, record m ++ a, b, ?_, ?_⟩
        · rw [body_cons, hb]; simp
        · rw [hx, List.length_append]; omega

theorem localHeader_here (m : Member) (a b : Str) (hf : m.Fits) (hm : m.method = 0 ∨ m.method = 8)
    (hl : (a ++ (record m ++ b)).length ≤ 2147483647) :
    localHeader (a ++ (record m ++ b)) 0 (infoOfMember m a.length) =
      .ok (some (a.length + 30 + (m.name.length + m.extra.length))) := by
  have hlen := record_length m
  have htot : (a ++ (record m ++ b)).length = a.length + ((record m).length + b.length) := by simp
  have hv : vals (a ++ (record m ++ b)) [4, 2, 2, 2, 4, 4, 4, 4, 2, 2] a.length =
      [0x04034b50, m.needed, m.flags, m.method, m.time, m.localCrc, m.localPacked, m.localSize, m.name.length,
        m.extra.length] := by
    have e : a ++ (record m ++ b) = a ++ (row [(4, 0x04034b50), (2, m.needed), (2, m.flags), (2, m.method),
        (4, m.time), (4, m.localCrc), (4, m.localPacked), (4, m.localSize), (2, m.name.length),
        (2, m.extra.length)] ++ ((m.name ++ (m.extra ++ (m.packed ++ m.after))) ++ b)) := by
      unfold record
      simp only [List.append_assoc]
    rw [e]
    exact vals_row [(4, 0x04034b50), (2, m.needed), (2, m.flags), (2, m.method),
        (4, m.time), (4, m.localCrc), (4, m.localPacked), (4, m.localSize), (2, m.name.length),
        (2, m.extra.length)] a _ (by
        intro f hfm
        have := hf.name; have := hf.extra; have := hf.method; have := hf.localSize
        have := hf.localCrc; have := hf.flags; have := hf.time; have := hf.needed; have := hf.localPacked
        simp only [List.mem_cons, List.not_mem_nil, or_false] at hfm
        rcases hfm with rfl | rfl | rfl | rfl | rfl | rfl | rfl | rfl | rfl | rfl <;>
          first | (simp; done) | simpa using ‹_›)
  rw [vals] at hv
  unfold localHeader
  have ho : (infoOfMember m a.length).offset + 0 = a.length := rfl
  rw [ho, getLE_in _ 4 _ (by unfold lim; omega), Outcome.ok_bind]
  dsimp only
  rw [fields_in _ [2, 2, 2, 4, 4, 4, 4, 2, 2] _ (by unfold lim; show _ + 4 + 26 ≤ _; omega), Outcome.ok_bind,
    (List.cons.inj hv).1, (List.cons.inj hv).2]
  dsimp only
  simp only [List.getD_cons_succ, List.getD_cons_zero]
  have hag : (m.localCrc = m.crc ∨ m.flags.testBit 3 = true) ∧
      (m.localPacked = m.packed.length ∨ m.flags.testBit 3 = true) ∧
      (m.localSize = m.size ∨ m.flags.testBit 3 = true) := by
    cases hb : m.flags.testBit 3 with
    | true => simp
    | false =>
        obtain ⟨h1, h2, h3⟩ := hf.agrees hb
        exact ⟨Or.inl h1, Or.inl h2, Or.inl h3⟩
  rw [if_pos ⟨trivial, trivial, rfl, hm, hag.1, hag.2.1, hag.2.2, rfl⟩]
  rfl

theorem readLoop_stored (inf : Inflate) (d : Str) : ∀ (fuel pos rest : Nat) (inp : Str) (room : Nat) (out : Str)
    (st : inf.State), room = inp.length + rest → pos + rest ≤ d.length → d.length ≤ 2147483647 → room < fuel →
    readLoop inf d 0 fuel pos rest inp room out st =
      .ok (toInt (out ++ (inp ++ bytes d pos rest)).length, out ++ (inp ++ bytes d pos rest))
  | 0, _, _, _, _, _, _, _, _, _, h => by omega
  | fuel + 1, pos, rest, inp, room, out, st, hr, hp, hd, hf => by
      rw [readLoop_succ]
      by_cases h0 : room = 0
      · rw [if_pos h0]
        have h1 : inp = [] := List.eq_nil_of_length_eq_zero (by omega)
        have h2 : rest = 0 := by omega
        subst h1 h2
        simp [bytes]
      · rw [if_neg h0]
        have key : ∃ p r i, refill d pos rest inp = some (p, r, i) ∧ i ≠ [] ∧ i.length + r = inp.length + rest ∧
            p + r ≤ d.length ∧ i ++ bytes d p r = inp ++ bytes d pos rest := by
          unfold refill
          by_cases hc : inp = [] ∧ 0 < rest
          · rw [if_pos hc]
            obtain ⟨rfl, hpos⟩ := hc
            have hreads : Reads d pos (min rest 16384) := by unfold Reads; omega
            rw [if_pos hreads]
            refine ⟨_, _, _, rfl, ?_, ?_, by omega, ?_⟩
            · intro e
              have := congrArg List.length e
              rw [bytes_length] at this
              simp at this
              omega
            · rw [bytes_length]; simp; omega
            · unfold bytes
              rw [List.nil_append]
              have : rest = min rest 16384 + (rest - min rest 16384) := by omega
              conv => rhs; rw [this, List.take_add, List.drop_drop]
          · rw [if_neg hc]
            refine ⟨_, _, _, rfl, ?_, rfl, hp, rfl⟩
            rintro rfl
            simp at hc
            simp at hr
            omega
        obtain ⟨p, r, i, hre, hi, hlen, hpr, hcat⟩ := key
        rw [hre]
        dsimp only
        rw [if_pos rfl, if_neg (fun h => hi h.1)]
        have hil : 0 < i.length := List.length_pos_iff.2 hi
        have hmin : min room i.length = i.length := by omega
        rw [hmin, List.drop_length, List.take_length,
          readLoop_stored inf d fuel p r [] (room - i.length) (out ++ i) st (by simp; omega) hpr hd (by omega)]
        rw [← hcat]
        simp

theorem readLoop_inflated (inf : Inflate) (d : Str) (P : inf.State → Str → Str → Prop)
    (hP : ∀ st inp out, P st inp out → out ≠ [] → ∀ k, k ≤ inp.length → (0 < k ∨ inp = []) →
      (inf.step st (inp.take k) out.length).2.1 ≤ k ∧
      ∃ rest, out = (inf.step st (inp.take k) out.length).2.2.1 ++ rest ∧
        (((inf.step st (inp.take k) out.length).1 = 1 ∧ rest = []) ∨
         ((inf.step st (inp.take k) out.length).1 = 0 ∧
          0 < (inf.step st (inp.take k) out.length).2.1 + (inf.step st (inp.take k) out.length).2.2.1.length ∧
          P (inf.step st (inp.take k) out.length).2.2.2 (inp.drop (inf.step st (inp.take k) out.length).2.1) rest))) :
    ∀ (fuel pos rest : Nat) (inp : Str) (todo : Str) (out : Str) (st : inf.State),
    P st (inp ++ bytes d pos rest) todo → pos + rest ≤ d.length → d.length ≤ 2147483647 →
    todo.length + rest + inp.length < fuel →
    readLoop inf d 8 fuel pos rest inp todo.length out st = .ok (toInt (out ++ todo).length, out ++ todo)
  | 0, _, _, _, _, _, _, _, _, _, h => by omega
  | fuel + 1, pos, rest, inp, todo, out, st, hst, hp, hd, hf => by
      rw [readLoop_succ]
      by_cases h0 : todo.length = 0
      · rw [if_pos h0]
        have h1 : todo = [] := List.eq_nil_of_length_eq_zero h0
        subst h1
        simp
      · rw [if_neg h0]
        have key : ∃ p r i, refill d pos rest inp = some (p, r, i) ∧ (i = [] → r = 0) ∧
            i.length + r = inp.length + rest ∧
            p + r ≤ d.length ∧ i ++ bytes d p r = inp ++ bytes d pos rest := by
          unfold refill
          by_cases hc : inp = [] ∧ 0 < rest
          · rw [if_pos hc]
            obtain ⟨rfl, hpos⟩ := hc
            have hreads : Reads d pos (min rest 16384) := by unfold Reads; omega
            rw [if_pos hreads]
            refine ⟨_, _, _, rfl, ?_, ?_, by omega, ?_⟩
            · intro e
              have := congrArg List.length e
              rw [bytes_length] at this
              simp at this
              omega
            · rw [bytes_length]; simp; omega
            · unfold bytes
              rw [List.nil_append]
              have : rest = min rest 16384 + (rest - min rest 16384) := by omega
              conv => rhs; rw [this, List.take_add, List.drop_drop]
          · rw [if_neg hc]
            refine ⟨_, _, _, rfl, ?_, rfl, hp, rfl⟩
            rintro rfl
            simp at hc
            exact hc
        obtain ⟨p, r, i, hre, hi, hlen, hpr, hcat⟩ := key
        rw [hre]
        dsimp only
        rw [if_neg (by decide)]
        rw [← hcat] at hst
        have htake : (i ++ bytes d p r).take i.length = i := by simp
        have hne : todo ≠ [] := fun e => h0 (by simp [e])
        have hk : 0 < i.length ∨ i ++ bytes d p r = [] := by
          by_cases e : i = []
          · right
            have := hi e
            subst e this
            simp [bytes]
          · left; exact List.length_pos_iff.2 e
        obtain ⟨b1, left, b2, b3⟩ := hP st _ todo hst hne i.length (by simp) hk
        rw [htake] at b1 b2 b3
        have hl := congrArg List.length b2
        rw [List.length_append] at hl
        rw [if_pos ⟨b1, by omega⟩]
        rcases b3 with ⟨c1, rfl⟩ | ⟨c1, c2, c3⟩
        · rw [if_pos c1]
          rw [List.append_nil] at b2
          rw [← b2]
        · rw [if_neg (by rw [c1]; decide), if_neg (by rw [c1]; decide)]
          have hroom : todo.length - (inf.step st i todo.length).2.2.1.length = left.length := by omega
          rw [List.drop_append_of_le_length b1] at c3
          rw [hroom, readLoop_inflated inf d P hP fuel p r _ left _ _ c3 hpr hd
            (by rw [List.length_drop]; omega)]
          rw [List.append_assoc, ← b2]

end Kml.Unzip
