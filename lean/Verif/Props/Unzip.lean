import Verif.Lemmas.UnzipGet
/-! C102: reading archives, byte by byte. -/
namespace Kml.Unzip
open Kml.Zip

/-- Somewhere in the data is a directory entry whose name has 1024 bytes or more. -/
def LongName (d : Str) : Prop :=
  ∃ p, p + 46 ≤ d.length ∧ number (bytes d p 4) = 0x02014b50 ∧ 1024 ≤ number (bytes d (p + 28) 2)

/-- C102: whatever the bytes, opening them stays within its buffers, unless a name has 1024 bytes or more. -/
theorem C102_open_partial (d : Str) (h : ¬ LongName d) : (openFromString d).Safe := by
  unfold openFromString
  split
  · obtain ⟨u, hu, hs⟩ := attach_cases d
    have hn : ∀ p, EntryAt d p → (infoAt d p).nameLen < 1024 := by
      intro p he
      have h1 := he.1
      have h2 := lim_le d
      by_cases hl : (infoAt d p).nameLen < 1024
      · exact hl
      · exact absurd ⟨p, by omega, he.2, Nat.not_lt.1 hl⟩ h
    have hc : ∃ t, contents d = .ok t := by
      unfold contents
      rw [hu, Outcome.ok_bind]
      cases u with
      | none => exact ⟨_, rfl⟩
      | some u => exact tocLoop_safe d hn _ u (hs u rfl)
    obtain ⟨t, ht⟩ := hc
    rw [ht]
    exact ⟨_, rfl⟩
  · exact ⟨_, rfl⟩

/-- C102: the table of contents is never longer than the data allow, 46 bytes for each name. -/
theorem C102_bound (d : Str) (t : List Str) (h : openFromString d = .ok (some t)) : 46 * t.length ≤ d.length := by
  unfold openFromString at h
  split at h
  · cases hc : contents d with
    | throws => rw [hc] at h; cases h
    | ub => rw [hc] at h; cases h
    | ok t' =>
        rw [hc, Outcome.ok_bind] at h
        cases h
        unfold contents at hc
        obtain ⟨u, hu, hs⟩ := attach_cases d
        rw [hu, Outcome.ok_bind] at hc
        cases u with
        | none => cases hc; simp
        | some u =>
            rcases tocLoop_bound d _ u t (hs u rfl) hc with rfl | hb
            · simp
            · omega
  · cases h

/-- C102: the loops that walk through the directory end by themselves: more turns than there are bytes change
nothing. -/
theorem C102_terminates (d : Str) (u : Unz) (hu : attach d = .ok (some u)) (cc : Bool) (path : Str) (turns : Nat)
    (h : d.length < turns) :
    tocLoop d turns u = tocLoop d (d.length + 1) u ∧
    ∀ v, goToFirst d u = .ok (true, v) →
      locateLoop cc d path turns v = locateLoop cc d path (d.length + 1) v := by
  obtain ⟨r, hr, hs⟩ := attach_cases d
  rw [hr] at hu
  cases hu
  refine ⟨tocLoop_fuel d _ _ u (hs u rfl) (by omega) (by omega), ?_⟩
  intro v hv
  rw [goToFirst_eq] at hv
  have hv2 := congrArg Prod.snd (Outcome.ok.inj hv)
  dsimp only at hv2
  subst hv2
  exact locateLoop_fuel cc d path _ _ _ rfl (by omega) (by omega)

/-- C102: so does the loop that reads a file, if the decompressor keeps to its contract: it takes no more turns
than there are bytes to read and to write. -/
theorem C102_reading_terminates (inf : Inflate) (hl : inf.Lawful) (d : Str) (method pos rest room turns : Nat)
    (h : room + rest < turns) :
    readLoop inf d method turns pos rest [] room [] inf.init =
      readLoop inf d method (room + rest + 1) pos rest [] room [] inf.init :=
  readLoop_fuel inf hl d method _ _ _ _ _ _ _ _ (by simpa using h) (by simp)

/-- C102: whatever the bytes, the table of contents and the path, `GetEntry` stays within its buffers and answers
false or at most `max` bytes, as long as `max` is below 2 GB (as it is unless it is changed). -/
theorem C102_entry_partial (inf : Inflate) (hl : inf.Lawful) (caseCounts : Bool) (max : Nat)
    (hmax : max ≤ 2147483647) (d : Str) (toc : List Str) (path : Str) :
    ∃ r, getEntry inf caseCounts max d toc path = .ok r ∧ ∀ s, r = some s → 0 < s.length ∧ s.length ≤ max :=
  getEntry_safe inf hl caseCounts max hmax d toc path

/-- C102: the end record that is used is the last one whose mark is in the last 65535 bytes, and if there is none
there the archive is taken for one without files. -/
theorem C102_end_record (d : Str) (hd : d.length ≤ 2147483647) : ∃ p, search d = .ok p ∧
    (p ≠ 0 → MarkAt d p ∧ d.length ≤ p + 65535 ∧ ∀ q, p < q → ¬ MarkAt d q) ∧
    (p = 0 → (∀ q, 0 < q → d.length ≤ q + 65535 → ¬ MarkAt d q) ∧ contents d = .ok []) := by
  obtain ⟨p, hp, h1, h2⟩ := search_spec d
  refine ⟨p, hp, h1, fun h0 => ⟨h2 h0 hd, ?_⟩⟩
  unfold contents attach
  obtain ⟨m, hm⟩ := getLE_safe d 4 p
  obtain ⟨f, hf⟩ := fields_safe d [2, 2, 2, 2, 4, 4, 2] m.2 (by decide)
  rw [hp, Outcome.ok_bind, hm, Outcome.ok_bind, hf, Outcome.ok_bind, if_neg (fun h => h.1 h0)]
  rfl

/-- A member that needs no more than a name, the packed bytes, the method, the size and the CRC. -/
def simple (name packed : Str) (method size crc : Nat) : Member :=
  { name := name, packed := packed, method := method, size := size, crc := crc, flags := 0, time := 0, version := 20,
    needed := 20, internal := 0, external := 0, extra := [], dirExtra := [], comment := [], localCrc := crc,
    localPacked := packed.length, localSize := size, after := [] }

theorem simple_fits (name packed : Str) (method size crc : Nat) (h1 : name.length < 65536) (h2 : method < 65536)
    (h3 : size < 4294967296) (h4 : crc < 4294967296) (h5 : packed.length < 4294967296) :
    (simple name packed method size crc).Fits := by
  refine ⟨h1, ?_, ?_, ?_, h2, h3, h4, ?_, ?_, ?_, ?_, ?_, ?_, h4, h5, h3, fun _ => ⟨rfl, rfl, rfl⟩⟩ <;> simp [simple]

theorem simple_sound (name packed : Str) (method size crc : Nat) (comment : Str) (h1 : name.length < 65536)
    (h2 : method < 65536) (h3 : size < 4294967296) (h4 : crc < 4294967296)
    (h5 : 98 + 2 * name.length + packed.length + comment.length < 2147483647) (h6 : comment.length + 22 ≤ 65535)
    (h7 : ∀ c ∈ (row [(2, 0), (2, 0), (2, 1), (2, 1), (4, 46 + name.length),
      (4, 30 + name.length + packed.length), (2, comment.length)]) ++ comment, val c ≠ 0x50) :
    Sound [simple name packed method size crc] comment := by
  have hb : (body [simple name packed method size crc]).length = 30 + name.length + packed.length := by
    rw [body_cons, List.length_append, record_length]
    simp [simple, body]
  have hd : (directory 0 [simple name packed method size crc]).length = 46 + name.length := by
    rw [directory, directory, List.length_append, dirEntry_length]
    simp [simple]
  refine ⟨?_, by simp, ?_, h6, ?_⟩
  · intro m hm
    rw [List.mem_singleton] at hm
    subst hm
    exact simple_fits name packed method size crc h1 h2 h3 h4 (by omega)
  · unfold archive
    rw [List.length_append, List.length_append, endRecord_length, hb, hd]
    omega
  · apply mark_absent
    intro c hc
    unfold endRecord at hc
    rw [hb, hd, row_cons] at hc
    have hcom : (row [(2, 0), (2, 0), (2, [simple name packed method size crc].length),
        (2, [simple name packed method size crc].length), (4, 46 + name.length),
        (4, 30 + name.length + packed.length), (2, comment.length)]) =
        row [(2, 0), (2, 0), (2, 1), (2, 1), (4, 46 + name.length),
        (4, 30 + name.length + packed.length), (2, comment.length)] := rfl
    rw [hcom, List.append_assoc] at hc
    have h4 : le (4, 0x06054b50).1 (4, 0x06054b50).2 = ['P', 'K', '\x05', '\x06'] := by decide
    rw [h4] at hc
    have hdrop : ∀ s : Str, (['P', 'K', '\x05', '\x06'] ++ s).drop 1 = 'K' :: '\x05' :: '\x06' :: s := fun _ => rfl
    rw [hdrop] at hc
    simp only [List.mem_cons] at hc
    rcases hc with rfl | rfl | rfl | hc
    · decide
    · decide
    · decide
    · exact h7 c hc

/-- The hypotheses are met: an archive with two files, and one whose directory is damaged. -/
def two : Str := archive [simple ['a'] ['b'] 0 1 0, simple ['d', '/', 'e'] ['f', 'g'] 0 2 0] ['o', 'k']

example : ¬ LongName two := by
  rintro ⟨p, h1, h2, h3⟩
  have hl : two.length = 187 := by decide +kernel
  have hall : ∀ p < 150, number (bytes two p 4) = 0x02014b50 → number (bytes two (p + 28) 2) < 1024 := by
    decide +kernel
  have := hall p (by omega) h2
  omega

example : openFromString two = .ok (some [['a'], ['d', '/', 'e']]) := by decide +kernel

example : ∃ u, attach two = .ok (some u) := ⟨⟨2, 0, 67, 67, 0, some ⟨0, 0, 0, 1, 1, 1, 0, 0, 0⟩⟩, by decide +kernel⟩

/-- The first directory entry claims a name of two bytes: the names that can still be found are given. -/
example : openFromString (two.take 95 ++ ['\x02'] ++ two.drop 96) = .ok (some [['a', 'P']]) := by decide +kernel

/-- C102 is false for names of 1024 bytes: the buffer then holds no NUL and reading it runs past its end.  This is
so for every archive with such a name. -/
theorem C102_open_violated :
    (∀ ms comment, Sound ms comment → (∀ m ∈ ms, '\x00' ∉ m.name) → (∃ m ∈ ms, 1024 ≤ m.name.length) →
      openFromString (archive ms comment) = .ub) ∧
    ∃ d, openFromString d = .ub := by
  have hall : ∀ ms comment, Sound ms comment → (∀ m ∈ ms, '\x00' ∉ m.name) → (∃ m ∈ ms, 1024 ≤ m.name.length) →
      openFromString (archive ms comment) = .ub := by
    intro ms comment hs hn hx
    have hne : ms ≠ [] := by
      rintro rfl
      obtain ⟨m, hm, _⟩ := hx
      cases hm
    unfold openFromString
    rw [if_pos (isZipData_archive ms comment hne), contents_long ms comment hs hne hn hx]
    rfl
  refine ⟨hall, archive [simple (List.replicate 1024 'a') [] 0 0 0] [], hall _ _ ?_ ?_ ?_⟩
  · apply simple_sound
    · rw [List.length_replicate]; decide
    · decide
    · decide
    · decide
    · rw [List.length_replicate]; decide
    · decide
    · rw [List.length_replicate]
      decide
  · intro m hm
    rw [List.mem_singleton] at hm
    subst hm
    intro h
    exact absurd (List.eq_of_mem_replicate h) (by decide)
  · refine ⟨_, List.mem_singleton.2 rfl, ?_⟩
    show 1024 ≤ (List.replicate 1024 'a').length
    rw [List.length_replicate]
    exact Nat.le_refl _

/-- A decompressor for which every stream is damaged (`Z_DATA_ERROR`). -/
def refuses : Inflate := { State := Unit, init := (), step := fun _ _ _ => (-3, 0, [], ()) }

example : refuses.Lawful := by
  intro st inp room _
  refine ⟨Nat.zero_le _, Nat.zero_le _, fun h => ?_, fun _ _ => ?_⟩
  · exact absurd (show (-3 : Int) = 0 from h) (by decide)
  · show (-3 : Int) < 0
    decide

/-- The damaged archive of `C102_limit_violated`: one deflated file that claims 4294967293 bytes. -/
def claims : Str := archive [simple ['a'] ['b'] 8 4294967293 0] []

/-- C102 is false when the limit has been raised to 4 GB: a damaged file that claims 4294967293 bytes is taken for
a success, because the error -3 is what that number becomes as an `int`, and bytes that were never written are
given out. -/
theorem C102_limit_violated : getEntry refuses true 4294967295 claims [['a']] ['a'] = .ub := by
  decide +kernel

end Kml.Unzip
