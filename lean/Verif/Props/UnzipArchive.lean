import Verif.Props.Unzip
/-! C103 and C104: well-formed archives are read as what they are, and damaged ones may be as well. -/
namespace Kml.Unzip
open Kml.Zip

/-- The entries of an archive, for the model that does not look at bytes. -/
def entries (ms : List Member) (content : Member → Str) : List ZipFile.Entry := ms.map fun m => (m.name, content m)

/-- C103: a well-formed archive is opened, and its table of contents has the names of its files in order. -/
theorem C103_names (ms : List Member) (comment : Str) (hs : Sound ms comment) (hne : ms ≠ [])
    (hn : ∀ m ∈ ms, '\x00' ∉ m.name ∧ m.name.length < 1024) :
    openFromString (archive ms comment) = .ok (some (ms.map Member.name)) := by
  unfold openFromString
  rw [if_pos (isZipData_archive ms comment hne), contents_archive ms comment hs hne hn]
  rfl

/-- C103: each file of a well-formed archive is read back, stored or deflated: `GetEntry` gives the content of the
first file of that name, if the name has fewer than 256 bytes and the content is neither empty nor larger than the
limit. -/
theorem C103_content_partial (inf : Inflate) (max : Nat) (ms : List Member) (comment : Str) (hs : Sound ms comment)
    (hn : ∀ m ∈ ms, '\x00' ∉ m.name ∧ m.name.length < 1024)
    (content : Member → Str) (hc : ∀ m ∈ ms, m.Holds inf (content m)) (before after : List Member) (m : Member)
    (hm : ms = before ++ m :: after) (hfirst : ∀ x ∈ before, x.name ≠ m.name) (hlen : m.name.length < 256)
    (hsize : 0 < (content m).length) (hmax : (content m).length ≤ max) :
    ∃ toc, openFromString (archive ms comment) = .ok (some toc) ∧
      getEntry inf true max (archive ms comment) toc m.name = .ok (some (content m)) := by
  have hne : ms ≠ [] := by subst hm; simp
  have hmem : m ∈ ms := by subst hm; simp
  refine ⟨_, C103_names ms comment hs hne hn, ?_⟩
  rw [getEntry_archive inf true max ms comment hs hne (fun x hx => (hn x hx).1) content hc _ m.name
    (List.mem_map.2 ⟨m, hmem, rfl⟩) (hn m hmem).1, if_neg (by omega)]
  have hfind : ms.find? (fun x => alike true x.name m.name) = some m := by
    subst hm
    rw [List.find?_append]
    have : before.find? (fun x => alike true x.name m.name) = none := by
      rw [List.find?_eq_none]
      intro x hx
      simp [alike, hfirst x hx]
    rw [this, Option.none_or, List.find?_cons_of_pos (p := fun x : Member => alike true x.name m.name) (by simp [alike])]
  rw [hfind]
  dsimp only
  rw [if_neg (by omega)]

/-- C103: so on well-formed archives the reader of bytes does what the model that takes an archive for a list of
files does, whatever the path, whether or not letter case counts, and whatever the limit. -/
theorem C103_refines (inf : Inflate) (caseCounts : Bool) (max : Nat) (ms : List Member) (comment : Str)
    (hs : Sound ms comment) (hne : ms ≠ []) (hn : ∀ m ∈ ms, '\x00' ∉ m.name ∧ m.name.length < 1024)
    (content : Member → Str) (hc : ∀ m ∈ ms, m.Holds inf (content m)) :
    openFromString (archive ms comment) =
      .ok ((ZipFile.openArchive (entries ms content)).map ZipFile.getToc) ∧
    ∀ path, getEntry inf caseCounts max (archive ms comment) (ZipFile.getToc (entries ms content)) path =
      .ok (ZipFile.getEntry caseCounts max (entries ms content) path) := by
  have htoc : ZipFile.getToc (entries ms content) = ms.map Member.name := by
    simp [ZipFile.getToc, entries, List.map_map]
  constructor
  · rw [C103_names ms comment hs hne hn]
    unfold ZipFile.openArchive
    rw [if_neg (by simp [entries, hne]), Option.map_some, htoc]
  · intro path
    by_cases hp : path ∈ ms.map Member.name
    · have hz : '\x00' ∉ path := by
        obtain ⟨m, hm, rfl⟩ := List.mem_map.1 hp
        exact (hn m hm).1
      rw [htoc, getEntry_archive inf caseCounts max ms comment hs hne (fun x hx => (hn x hx).1) content hc _ path hp hz]
      have hin : ZipFile.isInToc (entries ms content) path = true := by
        unfold ZipFile.isInToc
        rw [htoc, List.any_eq_true]
        exact ⟨path, hp, by simp⟩
      unfold ZipFile.getEntry
      rw [if_pos hin]
      unfold ZipFile.locate
      by_cases hl : path.length ≥ 256
      · rw [if_pos hl, if_pos hl]
      · rw [if_neg hl, if_neg hl]
        have hf : (entries ms content).find?
            (fun e => if caseCounts then decide (e.1 = path) else decide (e.1.map toLower = path.map toLower)) =
            (ms.find? (fun m => alike caseCounts m.name path)).map (fun m => (m.name, content m)) := by
          unfold entries
          rw [List.find?_map]
          rfl
        have hf' : (entries ms content).find?
            (fun e => if caseCounts = true then decide (e.1 = path) else decide (e.1.map toLower = path.map toLower)) =
            (ms.find? (fun m => alike caseCounts m.name path)).map (fun m => (m.name, content m)) := hf
        rw [hf']
        cases ms.find? (fun m => alike caseCounts m.name path) with
        | none => rfl
        | some m =>
            simp only [Option.map_some]
            congr 1
            by_cases hc : (content m).length = 0 ∨ (content m).length > max
            · rw [if_pos hc, if_pos (by simpa using hc)]
            · rw [if_neg hc, if_neg (by simpa using hc)]
    · unfold getEntry ZipFile.getEntry
      have hin : ZipFile.isInToc (entries ms content) path = false := by
        unfold ZipFile.isInToc
        rw [htoc, List.any_eq_false]
        intro n hn' e
        exact hp (by have := of_decide_eq_true e; exact this ▸ hn')
      rw [htoc, if_neg hp, hin]
      rfl

/-- C103 needs the comment of the archive to be short: an archive is taken for one without files if no mark of an
end record is in its last 65535 bytes, which is so for a comment of 65514 bytes though the format allows 65535. -/
theorem C103_comment_violated : ∃ ms comment, (∀ m ∈ ms, m.Fits) ∧ comment.length ≤ 65535 ∧ ms ≠ [] ∧
    openFromString (archive ms comment) = .ok (some []) := by
  refine ⟨[simple ['a'] ['b'] 0 1 0], List.replicate 65514 'x', ?_, ?_, by simp, ?_⟩
  · intro m hm
    rw [List.mem_singleton] at hm
    subst hm
    exact simple_fits _ _ _ _ _ (by decide) (by decide) (by decide) (by decide) (by decide)
  · rw [List.length_replicate]; decide
  · unfold openFromString
    rw [if_pos (isZipData_archive _ _ (by simp))]
    have hb : (body [simple ['a'] ['b'] 0 1 0]).length = 32 := by decide
    have hd : (directory 0 [simple ['a'] ['b'] 0 1 0]).length = 47 := by decide
    have habs : ∀ p, (body [simple ['a'] ['b'] 0 1 0] ++ directory 0 [simple ['a'] ['b'] 0 1 0]).length < p →
        ¬ MarkAt (archive [simple ['a'] ['b'] 0 1 0] (List.replicate 65514 'x')) p := by
      apply mark_absent
      intro c hc
      unfold endRecord at hc
      rw [hb, hd, List.length_replicate] at hc
      have hdrop : (row [(4, 0x06054b50), (2, 0), (2, 0), (2, [simple ['a'] ['b'] 0 1 0].length),
          (2, [simple ['a'] ['b'] 0 1 0].length), (4, 47), (4, 32), (2, 65514)] ++ List.replicate 65514 'x').drop 1 =
          (row [(4, 0x06054b50), (2, 0), (2, 0), (2, 1), (2, 1), (4, 47), (4, 32), (2, 65514)]).drop 1 ++
            List.replicate 65514 'x' := by
        rw [List.drop_append_of_le_length (by decide)]
        rfl
      rw [hdrop, List.mem_append] at hc
      rcases hc with hc | hc
      · revert hc
        revert c
        decide
      · rw [List.eq_of_mem_replicate hc]
        decide
    have hlen : (archive [simple ['a'] ['b'] 0 1 0] (List.replicate 65514 'x')).length = 65615 := by
      unfold archive
      rw [List.length_append, List.length_append, endRecord_length, hb, hd, List.length_replicate]
    obtain ⟨p, _, h1, h2⟩ := C102_end_record (archive [simple ['a'] ['b'] 0 1 0] (List.replicate 65514 'x'))
      (by rw [hlen]; decide)
    have hp : p = 0 := by
      by_cases h0 : p = 0
      · exact h0
      · obtain ⟨a1, a2, _⟩ := h1 h0
        rw [hlen] at a2
        exact absurd a1 (habs p (by rw [List.length_append, hb, hd]; omega))
    rw [(h2 hp).2]
    rfl

/-- A decompressor for streams that are their own content, one byte at a time. -/
def copies : Inflate :=
  { State := Unit, init := (),
    step := fun _ inp room => match inp with
      | [] => (-5, 0, [], ())
      | c :: _ => if room = 0 then (-5, 0, [], ()) else (0, 1, [c], ()) }

/-- The hypotheses are met: an archive with a stored file and a comment, and one with a deflated file. -/
example : Sound [simple ['a', '.', 'k', 'm', 'l'] ['h', 'i'] 0 2 0] ['o', 'k'] :=
  simple_sound _ _ _ _ _ _ (by decide) (by decide) (by decide) (by decide) (by decide) (by decide) (by decide)

example : Member.Holds copies (simple ['a'] ['h', 'i'] 8 2 0) ['h', 'i'] := by
  refine ⟨rfl, Or.inr ⟨rfl, fun _ inp out => inp = out, rfl, ?_⟩⟩
  rintro st inp _ rfl hne k hk hpos
  cases inp with
  | nil => exact absurd rfl hne
  | cons c s =>
      obtain ⟨k, rfl⟩ : ∃ j, k = j + 1 := ⟨k - 1, by
        rcases hpos with h | h
        · omega
        · cases h⟩
      refine ⟨?_, s, ?_, Or.inr ⟨?_, ?_, ?_⟩⟩ <;> simp [copies]

/-- C104: what `GetEntry` gives has the length that a directory entry in the data claims. -/
theorem C104_length_partial (inf : Inflate) (hl : inf.Lawful) (caseCounts : Bool) (max : Nat)
    (d : Str) (toc : List Str) (path s : Str)
    (h : getEntry inf caseCounts max d toc path = .ok (some s)) :
    ∃ p, p + 46 ≤ d.length ∧ number (bytes d p 4) = 0x02014b50 ∧ s.length = number (bytes d (p + 24) 4) := by
  unfold getEntry at h
  split at h
  · obtain ⟨u, hu, _⟩ := attach_cases d
    rw [hu, Outcome.ok_bind] at h
    cases u with
    | none => cases h
    | some u =>
        obtain ⟨l, hlo, hst⟩ := locate_safe caseCounts d u (path.takeWhile fun c => c ≠ '\x00')
        dsimp only at h
        rw [hlo, Outcome.ok_bind] at h
        cases l with
        | none => cases h
        | some v =>
            have hs := hst v rfl
            unfold Stands at hs
            dsimp only at h
            by_cases he : EntryAt d (v.pos + v.before)
            · rw [if_pos he] at hs
              rw [hs] at h
              dsimp only at h
              obtain ⟨p, hp⟩ := localHeader_safe d v.before (infoAt d (v.pos + v.before))
              rw [hp, Outcome.ok_bind] at h
              cases p with
              | none => cases h
              | some p =>
                  dsimp only at h
                  rw [fileInfo_none, Outcome.ok_bind, if_pos he] at h
                  dsimp only at h
                  split at h
                  · cases h
                  · obtain ⟨r, hr, ha, hb⟩ := readLoop_safe inf hl d (infoAt d (v.pos + v.before)).method
                      ((infoAt d (v.pos + v.before)).usize + (infoAt d (v.pos + v.before)).csize + 1) p
                      (infoAt d (v.pos + v.before)).csize [] (infoAt d (v.pos + v.before)).usize [] inf.init
                      (by simp)
                    rw [if_neg (by omega), hr, Outcome.ok_bind] at h
                    split at h
                    · split at h
                      · rename_i hle
                        cases h
                        refine ⟨v.pos + v.before, ?_, he.2, ?_⟩
                        · have := he.1; have := lim_le d; omega
                        · rw [List.length_take]
                          show min (infoAt d (v.pos + v.before)).usize r.2.length = (infoAt d (v.pos + v.before)).usize
                          omega
                      · cases h
                    · cases h
            · rw [if_neg he] at hs
              rw [hs] at h
              cases h
  · cases h

example : crc32 ['1', '2', '3', '4', '5', '6', '7', '8', '9'] = 0xcbf43926 := by decide +kernel

/-- C104 is false: a file whose bytes were changed after its CRC was computed is given out as if it were whole.
The archive claims the CRC of "abc" for the bytes "abd". -/
theorem C104_crc_violated : ∃ m, m.crc = crc32 ['a', 'b', 'c'] ∧ m.crc ≠ crc32 m.packed ∧
    getEntry refuses true 2147483647 (archive [m] []) [m.name] m.name = .ok (some ['a', 'b', 'd']) := by
  refine ⟨simple ['a'] ['a', 'b', 'd'] 0 3 0x352441c2, ?_, ?_, ?_⟩ <;> decide +kernel

/-- C104 is false: the bytes of an encrypted file (bit 0 of its flags) are given out as its content. -/
theorem C104_encrypted_violated : ∃ m, m.flags.testBit 0 = true ∧
    getEntry refuses true 2147483647 (archive [m] []) [m.name] m.name = .ok (some m.packed) := by
  refine ⟨{ simple ['a'] ['?', '!', '%'] 0 3 0 with flags := 1 }, ?_, ?_⟩ <;> decide +kernel

end Kml.Unzip
