import Verif.Lemmas.UnzipEntry
/-! Lemmas about `GetEntry` on archives laid out as the format says, and about what makes an archive sound. -/
namespace Kml.Unzip
open Kml.Zip

theorem body_length (ms : List Member) (comment : Str) :
    ms.length ≤ (archive ms comment).length := by
  have : ∀ ms : List Member, ms.length ≤ (body ms).length := by
    intro ms
    induction ms with
    | nil => simp
    | cons m ms ih => rw [body_cons, List.length_append, List.length_cons, record_length]; omega
  have h1 := this ms
  unfold archive
  rw [List.length_append]
  omega

theorem contents_archive (ms : List Member) (comment : Str) (hs : Sound ms comment) (hne : ms ≠ [])
    (hn : ∀ m ∈ ms, '\x00' ∉ m.name ∧ m.name.length < 1024) :
    contents (archive ms comment) = .ok (ms.map Member.name) := by
  obtain ⟨u, hu, _, _, hb⟩ := attach_archive ms comment hs hne
  have hl := body_length ms comment
  unfold contents
  rw [hu, Outcome.ok_bind]
  exact tocLoop_here ms _ u _ _ _ _ hne hb hn (by omega)

theorem contents_long (ms : List Member) (comment : Str) (hs : Sound ms comment) (hne : ms ≠ [])
    (hn : ∀ m ∈ ms, '\x00' ∉ m.name) (hx : ∃ m ∈ ms, 1024 ≤ m.name.length) :
    contents (archive ms comment) = .ub := by
  obtain ⟨u, hu, _, _, hb⟩ := attach_archive ms comment hs hne
  have hl := body_length ms comment
  unfold contents
  rw [hu, Outcome.ok_bind]
  exact tocLoop_long ms _ u _ _ _ _ hb hn hx (by omega)

theorem isZipData_archive (ms : List Member) (comment : Str) (hne : ms ≠ []) :
    isZipData (archive ms comment) = true := by
  cases ms with
  | nil => exact absurd rfl hne
  | cons m ms =>
      unfold isZipData archive
      rw [body_cons]
      unfold record
      rw [row_cons]
      have : le (4, 0x04034b50).1 (4, 0x04034b50).2 = ['P', 'K', '\x03', '\x04'] := by decide
      rw [this]
      simp

/-- A member is read back. -/
theorem readLoop_here (inf : Inflate) (m : Member) (content a b : Str) (hf : m.Holds inf content)
    (hl : (a ++ (record m ++ b)).length ≤ 2147483647) :
    readLoop inf (a ++ (record m ++ b)) m.method (m.size + m.packed.length + 1)
      (a.length + 30 + (m.name.length + m.extra.length)) m.packed.length [] m.size [] inf.init =
      .ok (toInt content.length, content) := by
  obtain ⟨hsize, hc⟩ := hf
  have hlen := record_length m
  have htot : (a ++ (record m ++ b)).length = a.length + ((record m).length + b.length) := by simp
  have hbytes : bytes (a ++ (record m ++ b)) (a.length + 30 + (m.name.length + m.extra.length)) m.packed.length =
      m.packed := by
    have e : a ++ (record m ++ b) = (a ++ (row [(4, 0x04034b50), (2, m.needed), (2, m.flags), (2, m.method),
        (4, m.time), (4, m.localCrc), (4, m.localPacked), (4, m.localSize), (2, m.name.length),
        (2, m.extra.length)] ++ (m.name ++ m.extra))) ++ (m.packed ++ (m.after ++ b)) := by
      unfold record
      simp only [List.append_assoc]
    have el : a.length + 30 + (m.name.length + m.extra.length) =
        (a ++ (row [(4, 0x04034b50), (2, m.needed), (2, m.flags), (2, m.method),
        (4, m.time), (4, m.localCrc), (4, m.localPacked), (4, m.localSize), (2, m.name.length),
        (2, m.extra.length)] ++ (m.name ++ m.extra))).length := by
      rw [List.length_append, List.length_append, row_length]
      simp
      omega
    rw [e, el]
    exact bytes_at _ _ _ _ rfl
  rcases hc with ⟨hm, hp⟩ | ⟨hm, P, hP0, hP⟩
  · rw [hm, readLoop_stored inf _ _ _ _ [] _ [] _ (by simp [hsize, hp]) (by rw [htot]; omega) hl (by omega), hbytes, hp]
    rfl
  · rw [hm, hsize, readLoop_inflated inf _ P hP _ _ _ [] content [] _ (by rw [hbytes]; exact hP0) (by rw [htot]; omega) hl
      (by simp)]
    rfl

theorem getEntry_archive (inf : Inflate) (cc : Bool) (max : Nat) (ms : List Member)
    (comment : Str) (hs : Sound ms comment) (hne : ms ≠ []) (hn : ∀ m ∈ ms, '\x00' ∉ m.name)
    (content : Member → Str) (hc : ∀ m ∈ ms, m.Holds inf (content m))
    (toc : List Str) (path : Str) (hpt : path ∈ toc) (hp : '\x00' ∉ path) :
    getEntry inf cc max (archive ms comment) toc path = .ok
      (if path.length ≥ 256 then none
       else match ms.find? (fun m => alike cc m.name path) with
        | none => none
        | some m => if (content m).length = 0 ∨ (content m).length > max then none else some (content m)) := by
  obtain ⟨u, hu, hoff, hnum, hb⟩ := attach_archive ms comment hs hne
  have hl := body_length ms comment
  unfold getEntry
  rw [if_pos hpt, hu, Outcome.ok_bind]
  dsimp only
  rw [takeWhile_nul _ hp]
  unfold locate
  by_cases hlong : path.length ≥ 256
  · rw [if_pos hlong, if_pos hlong]; rfl
  · rw [if_neg hlong, if_neg hlong]
    have hent : ∃ m0, u.cur = some m0 ∧ EntryAt (archive ms comment) (u.pos + u.before) := by
      cases ms with
      | nil => exact absurd rfl hne
      | cons m ms =>
          obtain ⟨_, h1, _, h2⟩ := hb.entry
          exact ⟨_, h2, h1⟩
    obtain ⟨m0, hcur, he⟩ := hent
    rw [hcur]
    rw [if_neg (by simp), goToFirst_eq, Outcome.ok_bind, hoff]
    dsimp only
    rw [decide_eq_true he, if_pos rfl, if_pos he]
    have hsame : (⟨u.entries, u.before, u.pos, u.pos, 0,
        some (infoAt (archive ms comment) (u.pos + u.before))⟩ : Unz) = u := by
      have hst := hb.stands
      unfold Stands at hst
      rw [if_pos he] at hst
      cases u
      simp only at hnum hst hoff ⊢
      rw [hnum, hst, hoff]
    rw [hsame]
    have hloc := locateLoop_here cc path hp (by omega) ms (archive ms comment) u (body ms) 0 (endRecord ms comment)
      ((archive ms comment).length + 1) hne hb hn (by omega)
    have hfind : ∀ (ms : List Member) (off : Nat), ms.find? (fun m => alike cc m.name path) =
        ((placed off ms).find? (fun x => alike cc x.1.name path)).map Prod.fst := by
      intro ms
      induction ms with
      | nil => intro off; rfl
      | cons m ms ih =>
          intro off
          rw [placed]
          cases ha : alike cc m.name path with
          | true =>
              rw [List.find?_cons_of_pos (p := fun x : Member × Nat => alike cc x.1.name path) (by exact ha),
                List.find?_cons_of_pos (p := fun m : Member => alike cc m.name path) ha]
              rfl
          | false =>
              rw [List.find?_cons_of_neg (p := fun x : Member × Nat => alike cc x.1.name path) (by simp [ha]),
                List.find?_cons_of_neg (p := fun m : Member => alike cc m.name path) (by simp [ha]), ih]
    rw [hfind ms 0]
    cases hx : (placed 0 ms).find? (fun x => alike cc x.1.name path) with
    | none =>
        rw [hx] at hloc
        dsimp only at hloc
        rw [hloc]
        rfl
    | some x =>
        rw [hx] at hloc
        dsimp only at hloc
        obtain ⟨v, hv, hv0, hvc, hve, hvi⟩ := hloc
        rw [hv, Outcome.ok_bind]
        obtain ⟨hmem, a, b, hbody, hxo⟩ := placed_body ms 0 x (List.mem_of_find?_eq_some hx)
        obtain ⟨m, off⟩ := x
        dsimp only at *
        rw [Nat.zero_add] at hxo
        subst hxo
        have hh := hc m hmem
        have hmeth : m.method = 0 ∨ m.method = 8 := by
          rcases hh.2 with ⟨h, _⟩ | ⟨h, _⟩
          · exact Or.inl h
          · exact Or.inr h
        have hd : archive ms comment = a ++ (record m ++ (b ++ (directory 0 ms ++ endRecord ms comment))) := by
          unfold archive; rw [hbody]; simp
        have hsz := hs.size
        rw [hvc]
        dsimp only
        have hlh := localHeader_here m a (b ++ (directory 0 ms ++ endRecord ms comment)) (hs.members m hmem) hmeth
          (by rw [← hd]; omega)
        rw [← hd] at hlh
        rw [fileInfo_none, if_pos hve, hvi, hv0, hlh, Outcome.ok_bind]
        dsimp only
        rw [Outcome.ok_bind]
        have hus : (infoOfMember m a.length).usize = m.size := rfl
        have hcs : (infoOfMember m a.length).csize = m.packed.length := rfl
        have hms : (infoOfMember m a.length).method = m.method := rfl
        dsimp only
        rw [hus, hcs, hms, if_neg (Nat.lt_irrefl _)]
        simp only [Option.map_some]
        rw [← hh.1]
        by_cases hz : m.size = 0 ∨ m.size > max
        · rw [if_pos hz, if_pos hz]
        · rw [if_neg hz, if_neg hz]
          have hr := readLoop_here inf m (content m) a (b ++ (directory 0 ms ++ endRecord ms comment)) hh
            (by rw [← hd]; omega)
          rw [← hd] at hr
          rw [hr, Outcome.ok_bind]
          dsimp only
          rw [← hh.1, if_pos rfl, if_pos (by rw [hh.1]; exact Nat.le_refl _), hh.1, List.take_length]

/-- The mark of an end record begins with a `P`. -/
theorem mark_first (d : Str) (p : Nat) (h : MarkAt d p) : ∃ c, d[p]? = some c ∧ val c = 0x50 := by
  obtain ⟨h1, h2⟩ := h
  rw [bytes_four d p h2] at h1
  refine ⟨d[p], List.getElem?_eq_getElem (by omega), ?_⟩
  have hn : number [d[p], d[p + 1], d[p + 2], d[p + 3]] =
      val d[p] + 256 * (val d[p + 1] + 256 * (val d[p + 2] + 256 * (val d[p + 3] + 256 * 0))) := rfl
  rw [hn] at h1
  have := val_lt d[p]
  omega

/-- There is no later mark if no later byte of the end record is a `P`. -/
theorem mark_absent (ms : List Member) (comment : Str)
    (h : ∀ c ∈ (endRecord ms comment).drop 1, val c ≠ 0x50) (p : Nat)
    (hp : (body ms ++ directory 0 ms).length < p) : ¬ MarkAt (archive ms comment) p := by
  intro hm
  obtain ⟨c, hc, hv⟩ := mark_first _ p hm
  have hd : archive ms comment = (body ms ++ directory 0 ms) ++ endRecord ms comment := by
    unfold archive; simp
  rw [hd, List.getElem?_append_right (by omega)] at hc
  refine h c ?_ hv
  apply List.mem_of_getElem? (i := p - (body ms ++ directory 0 ms).length - 1)
  rw [List.getElem?_drop, ← hc]
  congr 1
  omega

end Kml.Unzip
