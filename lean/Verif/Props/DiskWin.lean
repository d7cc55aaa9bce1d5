import Verif.Model.DiskWin
/-! # C116 Names of files on Windows

`ReadFileToString` and `WriteStringToFile` (C106) open, for a string, the file whose name its bytes mean in the code page of the
system.  `Exists` and `Delete` are to be about the same file. -/
namespace Kml.DiskWin
open Kml.Disk (Node)

/-- A path: not empty, without zeros. -/
def IsPath (path : List UInt8) : Prop := path ≠ [] ∧ 0 ∉ path

/-- Only characters of ASCII. -/
def Ascii (path : List UInt8) : Prop := ∀ b ∈ path, b < 0x80

/-- A code page has ASCII in it, as all that are used on Windows have. -/
structure CodePage.HasAscii (cp : CodePage) : Prop where
  decode : ∀ s, Ascii s → cp.decode s = s.map UInt8.toUInt16
  encode : ∀ s, Ascii s → cp.encode (s.map UInt8.toUInt16) = s

theorem str2wstr_ascii {s : List UInt8} (h : Ascii s) : str2wstr s = s.map UInt8.toUInt16 := by
  unfold str2wstr
  refine List.map_congr_left fun b hb => ?_
  unfold widen
  rw [if_pos (h b hb)]

theorem takeWhile_all {α : Type} {p : α → Bool} {l : List α} (h : ∀ x ∈ l, p x = true) : l.takeWhile p = l := by
  have := List.takeWhile_append_of_pos (p := p) (l₁ := l) (l₂ := []) h
  simpa using this

/-- What holds of each of the 256 bytes holds of all. -/
theorem all_bytes {P : UInt8 → Prop} (h : ∀ i : Fin 256, P (UInt8.ofNat i.val)) (b : UInt8) : P b := by
  have := h ⟨b.toNat, b.toNat_lt⟩
  simpa using this

theorem widen_ne_zero {b : UInt8} (h : b ≠ 0) : widen b ≠ 0 := by
  refine all_bytes (P := fun b => b ≠ 0 → widen b ≠ 0) ?_ b h
  decide +kernel

theorem widen_low (b : UInt8) : (widen b).toUInt8 = b := by
  refine all_bytes (P := fun b => (widen b).toUInt8 = b) ?_ b
  decide +kernel

theorem str2wstr_inj : ∀ {a b : List UInt8}, str2wstr a = str2wstr b → a = b
  | [], [], _ => rfl
  | x :: xs, y :: ys, h => by
    obtain ⟨h1, h2⟩ := List.cons.inj h
    rw [← widen_low x, h1, widen_low y, str2wstr_inj h2]

theorem cstrW_path {s : List UInt8} (h : 0 ∉ s) : cstrW (str2wstr s) = str2wstr s := by
  refine takeWhile_all fun x hx => ?_
  obtain ⟨b, hb, rfl⟩ := List.mem_map.1 hx
  have : b ≠ 0 := fun e => h (e ▸ hb)
  simpa using widen_ne_zero this

theorem name_ascii {cp : CodePage} (hc : cp.HasAscii) {path : List UInt8} (hp : IsPath path) (ha : Ascii path) :
    cstrW (str2wstr path) = cp.decode path := by
  rw [cstrW_path hp.2, str2wstr_ascii ha, hc.decode path ha]

/-- **C116, existing.** A path exists just if the file that would be read is there.  Missing from the full property: paths with other
characters than those of ASCII, for which it is false (`C116_exists_violated`). -/
theorem C116_exists_partial (cp : CodePage) (hc : cp.HasAscii) (d : Disk) (path : List UInt8) (hp : IsPath path) (ha : Ascii path) :
    fileExists d path = true ↔ ∃ data, d.node (cp.decode path) = some (.file data) := by
  unfold fileExists
  rw [if_neg hp.1, name_ascii hc hp ha]
  split
  · next data h => exact ⟨fun _ => ⟨data, h⟩, fun _ => rfl⟩
  · next h => exact ⟨(fun e => nomatch e), fun ⟨data, e⟩ => absurd e (h data)⟩

/-- **C116, removing.** The file that would be read is removed just if it is there and may be; then nothing else changes, and else
nothing at all.  Missing: as above (`C116_other_violated`). -/
theorem C116_removed_partial (cp : CodePage) (hc : cp.HasAscii) (d : Disk) (path : List UInt8) (hp : IsPath path) (ha : Ascii path) :
    ((delete d path).1 = true ↔ d.writable (cp.decode path) = true ∧ ∃ data, d.node (cp.decode path) = some (.file data)) ∧
    ((delete d path).1 = false → (delete d path).2 = d) ∧
    ((delete d path).1 = true → (delete d path).2.node (cp.decode path) = none ∧
      ∀ p, p ≠ cp.decode path → (delete d path).2.node p = d.node p) := by
  unfold delete
  rw [if_neg hp.1, name_ascii hc hp ha]
  split
  · next data h =>
    by_cases hw : d.writable (cp.decode path) = true
    · rw [if_pos hw]
      exact ⟨⟨fun _ => ⟨hw, data, h⟩, fun _ => rfl⟩, (fun e => nomatch e), fun _ => ⟨if_pos rfl, fun p hne => if_neg hne⟩⟩
    · rw [if_neg hw]
      exact ⟨⟨(fun e => nomatch e), fun e => absurd e.1 hw⟩, fun _ => rfl, (fun e => nomatch e)⟩
  · next h =>
    exact ⟨⟨(fun e => nomatch e), fun ⟨_, data, e⟩ => absurd e (h data)⟩, fun _ => rfl, (fun e => nomatch e)⟩

/-- **C116, no path.** -/
theorem C116_nothing (d : Disk) : fileExists d [] = false ∧ delete d [] = (false, d) := ⟨rfl, rfl⟩

/-- **C116, no other file of another path.** Different paths of any bytes are never taken for the same file: what is removed under one
is not what another one is about. -/
theorem C116_apart (d : Disk) (path other : List UInt8) (hp : IsPath path) (ho : IsPath other) (hne : other ≠ path) :
    fileExists (delete d path).2 other = fileExists d other := by
  have hw : str2wstr other ≠ str2wstr path := fun e => hne (str2wstr_inj e)
  have hnode : (delete d path).2.node (str2wstr other) = d.node (str2wstr other) := by
    unfold delete
    rw [if_neg hp.1, cstrW_path hp.2]
    split
    · split
      · exact if_neg hw
      · rfl
    · rfl
  unfold fileExists
  rw [if_neg ho.1, if_neg ho.1, cstrW_path ho.2, hnode]

/-- **C116, temporary files.** A new temporary file is made where nothing was, and is empty; the path given is its path; and when it is
destroyed the disk is as it was.  Missing from the full property: temporary directories with other characters than those of
ASCII (`C116_temp_violated`, `C116_long_violated`). -/
theorem C116_temp_partial (cp : CodePage) (hc : cp.HasAscii) (junk : Wide → List UInt8) (d d' : Disk) (dir : Option Wide)
    (choose : Wide → Option Wide) (path name : List UInt8) (hn : dir.bind choose = some (name.map UInt8.toUInt16)) (hp : IsPath name)
    (ha : Ascii name) (h : createNewTempFile cp junk d dir choose = some (path, d')) :
    path = name ∧ d.node (cp.decode path) = none ∧ d'.node (cp.decode path) = some (.file []) ∧
    (∀ p, p ≠ cp.decode path → d'.node p = d.node p) ∧
    (d.writable (cp.decode path) = true → ∀ p, (destroy d' path).node p = d.node p) := by
  unfold createNewTempFile at h
  rw [hn] at h
  dsimp only at h
  split at h
  · next hnone =>
    have hpath : cstrB (wstr2str cp junk (name.map UInt8.toUInt16)) = name := by
      unfold wstr2str
      rw [hc.encode name ha, List.length_map, if_pos (Nat.le_refl _), Nat.sub_self]
      unfold cstrB
      rw [List.replicate_zero, List.append_nil, List.takeWhile_append_of_pos (fun x hx => ?_)]
      · simp
      · have : x ≠ 0 := fun e => hp.2 (e ▸ hx)
        simpa using this
    rw [hpath] at h
    obtain ⟨h1, h2⟩ := Prod.mk.inj (Option.some.inj h)
    subst h1
    subst h2
    rw [hc.decode name ha]
    refine ⟨rfl, hnone, if_pos rfl, fun p hne => if_neg hne, fun hw p => ?_⟩
    have hname := name_ascii hc hp ha
    rw [hc.decode name ha] at hname
    have hput : (d.put (name.map UInt8.toUInt16) (some (.file []))).node (name.map UInt8.toUInt16) = some (.file []) := if_pos rfl
    have hex : fileExists (d.put (name.map UInt8.toUInt16) (some (.file []))) name = true := by
      unfold fileExists
      rw [if_neg hp.1, hname, hput]
    unfold destroy
    rw [if_pos hex]
    unfold delete
    rw [if_neg hp.1, hname, hput]
    dsimp only
    rw [if_pos (show (d.put (name.map UInt8.toUInt16) (some (.file []))).writable (name.map UInt8.toUInt16) = true from hw)]
    unfold Disk.put
    dsimp only
    split
    · next e => rw [e, hnone]
    · rfl
  · cases h

/-! ### Cases -/

/-- The first 256 characters, one byte each. -/
def latin : CodePage := ⟨fun s => s.map UInt8.toUInt16, fun w => w.map fun c => if c < 0x100 then c.toUInt8 else 0x3f⟩

theorem latin_ascii : latin.HasAscii := by
  refine ⟨fun s _ => rfl, fun s _ => ?_⟩
  show (s.map UInt8.toUInt16).map (fun c => if c < 0x100 then c.toUInt8 else 0x3f) = s
  rw [List.map_map]
  have : ∀ b : UInt8, ((fun c : UInt16 => if c < 0x100 then c.toUInt8 else 0x3f) ∘ UInt8.toUInt16) b = b :=
    all_bytes (by decide +kernel)
  rw [show ((fun c : UInt16 => if c < 0x100 then c.toUInt8 else 0x3f) ∘ UInt8.toUInt16) = id from funext this, List.map_id]

/-- A disk with one file. -/
def oneFile (path : Wide) : Disk := ⟨fun p => if p = path then some (.file []) else none, fun _ => true⟩

/-- The name of a temporary file in a directory. -/
def chosen : Wide → Option Wide := fun dir => some (dir ++ [0x5c, 0x6c])

example : IsPath [0x61, 0x2e] ∧ Ascii [0x61, 0x2e] ∧ fileExists (oneFile [0x61, 0x2e]) [0x61, 0x2e] = true ∧
    (delete (oneFile [0x61, 0x2e]) [0x61, 0x2e]).1 = true := by
  refine ⟨⟨by decide, by decide⟩, by unfold Ascii; decide, by decide, by decide⟩

example : (some [0x43]).bind chosen = some ([0x43, 0x5c, 0x6c].map UInt8.toUInt16) ∧
    (createNewTempFile latin (fun _ => []) (oneFile []) (some [0x43]) chosen).map Prod.fst = some [0x43, 0x5c, 0x6c] := by decide

/-- **C116 fails: other characters.** The byte of `é` in the code page of Western Europe: the file can be read, but it does not exist and
is not removed. -/
theorem C116_exists_violated : (oneFile [0xe9]).node (latin.decode [0xe9]) = some (.file []) ∧
    fileExists (oneFile [0xe9]) [0xe9] = false ∧ (delete (oneFile [0xe9]) [0xe9]).1 = false := by decide

/-- **C116 fails: another file.** With the same byte a file with another name, the arrow `U+FFE9`, is removed, while there is no file of
that path. -/
theorem C116_other_violated : (oneFile [0xffe9]).node (latin.decode [0xe9]) = none ∧ (delete (oneFile [0xffe9]) [0xe9]).1 = true ∧
    (oneFile [0xffe9]).node [0xffe9] = some (.file []) ∧ (delete (oneFile [0xffe9]) [0xe9]).2.node [0xffe9] = none := by decide

/-- **C116 fails: temporary files stay.** If the temporary directory has such a character in its name, as that of a user of that name has,
the file is not removed when its object is destroyed. -/
theorem C116_temp_violated : ∃ path d', createNewTempFile latin (fun _ => []) (oneFile []) (some [0xe9]) chosen = some (path, d') ∧
    (oneFile []).node (latin.decode path) = none ∧ (destroy d' path).node (latin.decode path) = some (.file []) :=
  ⟨_, _, rfl, by decide, by decide⟩

/-- A code page in which a character takes two bytes. -/
def double : CodePage := ⟨fun _ => [], fun w => w.flatMap fun c => if c < 0x80 then [c.toUInt8] else [0x83, c.toUInt8]⟩

/-- **C116 fails: code pages of several bytes.** If a character of the temporary directory takes two bytes, the buffer is too small: success is
answered and a file is made, but the path is whatever was left in the buffer, here nothing. -/
theorem C116_long_violated : ∃ d', createNewTempFile double (fun _ => []) (oneFile []) (some [0x30a2]) chosen = some ([], d') ∧
    d'.node [0x30a2, 0x5c, 0x6c] = some (.file []) := ⟨_, rfl, by decide⟩

end Kml.DiskWin
