import Verif.Model.UriFile
import Verif.Spec.UriFile
/-! Property C99: file names and URIs. -/
namespace Kml.UriFile
open Kml

theorem char_ofNat_eq {n : Nat} {c : Char} (h : n = c.toNat) : Char.ofNat n = c := by
  rw [h]; exact Char.ofNat_toNat c

/-- Facts about all bytes, as a table. -/
theorem bytes_table : ∀ n < 256, unreserved (Char.ofNat n) = true ∨
    (hexValue (hexLetter (n / 16 % 16)) = some (n / 16) ∧ hexValue (hexLetter (n % 16)) = some (n % 16) ∧
      hexLetter (n / 16 % 16) ∈ "0123456789ABCDEF".toList ∧ hexLetter (n % 16) ∈ "0123456789ABCDEF".toList) := by
  decide +kernel

theorem unreserved_table : ∀ n < 256, unreserved (Char.ofNat n) = true →
    Char.ofNat n ≠ '%' ∧ Char.ofNat n ≠ '/' ∧ Char.ofNat n ≠ ':' ∧ Char.ofNat n ≠ '\\' ∧
    ((Char.ofNat n).isAlphanum = true ∨ Char.ofNat n ∈ ['-', '.', '_', '~', '/']) := by
  decide +kernel

theorem escape_cases (c : Char) (h : c.toNat < 256) :
    (unreserved c = true ∧ c ≠ '%' ∧ c ≠ '/' ∧ c ≠ ':' ∧ c ≠ '\\' ∧ PathChar c ∧ escapeChar c = [c]) ∨
    (∃ a b, escapeChar c = ['%', a, b] ∧ hexValue a = some (c.toNat / 16) ∧ hexValue b = some (c.toNat % 16) ∧
      a ∈ "0123456789ABCDEF".toList ∧ b ∈ "0123456789ABCDEF".toList) := by
  have h1 := bytes_table c.toNat h
  have h2 := unreserved_table c.toNat h
  rw [Char.ofNat_toNat] at h1 h2
  by_cases hu : unreserved c = true
  · left
    obtain ⟨a1, a2, a3, a4, a5⟩ := h2 hu
    exact ⟨hu, a1, a2, a3, a4, a5, by unfold escapeChar; rw [if_pos hu]⟩
  · right
    rcases h1 with h1 | ⟨a1, a2, a3, a4⟩
    · exact absurd h1 hu
    · exact ⟨_, _, by unfold escapeChar; rw [if_neg hu], a1, a2, a3, a4⟩

theorem unescape_plain {c : Char} (h : c ≠ '%') (s : Str) : unescape (c :: s) = c :: unescape s := by
  match s with
  | [] => simp [unescape]
  | [b] => simp [unescape]
  | b :: d :: s => rw [unescape, if_neg h]

theorem unescape_hex {a b : Char} {l r : Nat} (ha : hexValue a = some l) (hb : hexValue b = some r) (s : Str) :
    unescape ('%' :: a :: b :: s) = Char.ofNat (16 * l + r) :: unescape s := by
  rw [unescape, if_pos rfl, ha, hb]

theorem unescape_escape (c : Char) (h : c.toNat < 256) (s : Str) : unescape (escapeChar c ++ s) = c :: unescape s := by
  rcases escape_cases c h with ⟨_, h1, _, _, _, _, he⟩ | ⟨a, b, he, ha, hb, _⟩
  · rw [he]; exact unescape_plain h1 s
  · rw [he]
    show unescape ('%' :: a :: b :: s) = _
    rw [unescape_hex ha hb, char_ofNat_eq (c := c) (by omega)]

/-- Unescaping undoes the escaping of the parts between separators. -/
theorem unescape_parts (sep out : Char) (ho : out ≠ '%') (f : Str) (h : ∀ c ∈ f, c.toNat < 256) (rest : Str) :
    unescape ((f.flatMap fun c => if c = sep then [out] else escapeChar c) ++ rest) =
      f.map (fun c => if c = sep then out else c) ++ unescape rest := by
  induction f with
  | nil => rfl
  | cons c f ih =>
    have ih := ih (fun c hc => h c (List.mem_cons_of_mem _ hc))
    rw [List.flatMap_cons, List.append_assoc, List.map_cons, List.cons_append]
    by_cases hc : c = sep
    · rw [if_pos hc, if_pos hc, List.singleton_append, unescape_plain ho, ih]
    · rw [if_neg hc, if_neg hc, unescape_escape c (h c List.mem_cons_self), ih]

theorem unescape_length : ∀ s : Str, (unescape s).length ≤ s.length
  | [] => by simp [unescape]
  | [a] => by simp [unescape]
  | [a, b] => by simp [unescape]
  | a :: b :: c :: s => by
    have h1 := unescape_length (b :: c :: s)
    have h2 := unescape_length (c :: s)
    have h3 := unescape_length s
    simp only [List.length_cons] at h1 h2 ⊢
    rw [unescape]
    split
    · split
      · simp only [List.length_cons]; omega
      · split
        · simp only [List.length_cons]; omega
        · simp only [List.length_cons]; omega
    · simp only [List.length_cons]; omega

theorem escape_length (c : Char) : (escapeChar c).length ≤ 3 := by
  unfold escapeChar; split <;> simp

theorem parts_length (sep out : Char) (f : Str) :
    (f.flatMap fun c => if c = sep then [out] else escapeChar c).length ≤ 3 * f.length := by
  induction f with
  | nil => simp
  | cons c f ih =>
    rw [List.flatMap_cons, List.length_append, List.length_cons]
    have : (if c = sep then [out] else escapeChar c).length ≤ 3 := by
      split
      · simp
      · exact escape_length c
    omega

theorem takeWhile_length (p : Char → Bool) (s : Str) : (s.takeWhile p).length ≤ s.length :=
  (List.takeWhile_sublist p).length_le

theorem fromUnix_length (f : Str) : (fromUnix f).length ≤ 7 + 3 * f.length := by
  unfold fromUnix
  have := parts_length '/' '/' f
  rw [List.length_append]
  have h7 : (if f.head? = some '/' then chars! "file://" else ([] : Str)).length ≤ 7 := by split <;> decide
  omega

theorem fromWindows_length (f : Str) : (fromWindows f).length ≤ 8 + 3 * f.length := by
  unfold fromWindows
  split
  · have h1 := parts_length '\\' '/' (f.dropWhile (· ≠ '\\'))
    have h2 : (f.takeWhile (· ≠ '\\')).length + (f.dropWhile (· ≠ '\\')).length = f.length := by
      rw [← List.length_append, List.takeWhile_append_dropWhile]
    rw [List.length_append, List.length_append]
    have h3 : (chars! "file:///" : Str).length = 8 := by decide
    omega
  · have h1 := parts_length '\\' '/' f
    omega

theorem cstr_of_not_mem {s : Str} (h : '\x00' ∉ s) : cstr s = s := by
  unfold cstr
  induction s with
  | nil => rfl
  | cons c f ih =>
    have hc : c ≠ '\x00' := fun e => h (e ▸ List.mem_cons_self)
    rw [List.takeWhile_cons_of_pos (p := fun x : Char => decide (x ≠ '\x00')) (decide_eq_true hc),
      ih (fun hm => h (List.mem_cons_of_mem _ hm))]

theorem cstr_name {f : Str} (h : IsName f) : cstr f = f := cstr_of_not_mem fun hm => (h _ hm).2 rfl

theorem toUnix_length (u : Str) : (toUnix u).length ≤ u.length := by
  unfold toUnix
  refine Nat.le_trans (unescape_length _) ?_
  split
  · rw [List.length_drop]; omega
  · exact Nat.le_refl _

theorem toWindows_length (u : Str) : (toWindows u).length ≤ u.length := by
  unfold toWindows
  rw [List.length_map]
  refine Nat.le_trans (unescape_length _) ?_
  split
  · rw [List.length_drop]; omega
  · exact Nat.le_refl _

theorem fill_ok {size : Nat} {text : Str} (h1 : size ≤ 2 ^ 31 - 1) (h2 : text.length + 1 ≤ size) : fill size text = .ok (cstr text) := by
  unfold fill
  rw [if_neg (show ¬ 2 ^ 31 - 1 < size by omega), if_neg (show ¬ size < text.length + 1 by omega)]

/-- Between separators there are no colons after escaping. -/
theorem parts_colon (sep out : Char) (ho : out ≠ ':') (f : Str) (hf : ∀ c ∈ f, c.toNat < 256) :
    ':' ∉ (f.flatMap fun c => if c = sep then [out] else escapeChar c) := by
  intro hm
  obtain ⟨c, hc, hm⟩ := List.mem_flatMap.1 hm
  by_cases h : c = sep
  · rw [if_pos h] at hm
    exact ho (List.mem_singleton.1 hm).symm
  · rw [if_neg h] at hm
    rcases escape_cases c (hf c hc) with ⟨_, _, _, h3, _, _, he⟩ | ⟨a, b, he, _, _, ha, hb⟩
    · rw [he] at hm
      exact h3 (List.mem_singleton.1 hm).symm
    · rw [he] at hm
      have hne : ':' ∉ "0123456789ABCDEF".toList := by decide
      rcases List.mem_cons.1 hm with h | hm
      · revert h; decide
      rcases List.mem_cons.1 hm with h | hm
      · exact hne (h ▸ ha)
      · exact hne (List.mem_singleton.1 hm ▸ hb)

theorem not_prefix {p s : Str} (hp : ':' ∈ p) (hs : ':' ∉ s) : p.isPrefixOf s = false := by
  cases h : p.isPrefixOf s with
  | false => rfl
  | true =>
    obtain ⟨t, ht⟩ := List.isPrefixOf_iff_prefix.1 h
    exact absurd (ht ▸ (List.mem_append_left t hp)) hs

theorem map_other {sep out : Char} {f : Str} (h : sep = out ∨ sep ∉ f) : f.map (fun c => if c = sep then out else c) = f := by
  induction f with
  | nil => rfl
  | cons c f ih =>
    have ih := ih (h.imp id fun h hm => h (List.mem_cons_of_mem _ hm))
    rw [List.map_cons, ih]
    by_cases hc : c = sep
    · rcases h with h | h
      · rw [if_pos hc, hc, h]
      · exact absurd (hc ▸ List.mem_cons_self) h
    · rw [if_neg hc]

theorem unescape_unix (f : Str) (h : ∀ c ∈ f, c.toNat < 256) :
    unescape (f.flatMap fun c => if c = '/' then ['/'] else escapeChar c) = f := by
  have hu := unescape_parts '/' '/' (by decide) f h []
  rw [List.append_nil, map_other (.inl rfl), show unescape [] = [] from rfl, List.append_nil] at hu
  exact hu

theorem toUnix_fromUnix (f : Str) (h : ∀ c ∈ f, c.toNat < 256) : toUnix (fromUnix f) = f := by
  unfold fromUnix toUnix
  by_cases hs : f.head? = some '/'
  · rw [if_pos hs, if_pos (List.isPrefixOf_iff_prefix.2 (List.prefix_append _ _))]
    rw [show (7 : Nat) = (chars! "file://").length from rfl, List.drop_left, unescape_unix f h]
  · rw [if_neg hs, List.nil_append, not_prefix (by decide) (parts_colon _ _ (by decide) f h), if_neg (by decide), unescape_unix f h]

theorem unescape_raw {d : Str} (h : '%' ∉ d) (s : Str) : unescape (d ++ s) = d ++ unescape s := by
  induction d with
  | nil => rfl
  | cons c d ih =>
    rw [List.cons_append, unescape_plain (fun e => h (e ▸ List.mem_cons_self)), ih (fun hm => h (List.mem_cons_of_mem _ hm)),
      List.cons_append]

theorem map_back {f : Str} (h : '/' ∉ f) :
    (f.map fun c => if c = '\\' then '/' else c).map (fun c => if c = '/' then '\\' else c) = f := by
  induction f with
  | nil => rfl
  | cons c f ih =>
    have h1 : c ≠ '/' := fun e => h (e ▸ List.mem_cons_self)
    rw [List.map_cons, List.map_cons, ih (fun hm => h (List.mem_cons_of_mem _ hm))]
    by_cases hc : c = '\\'
    · rw [if_pos hc, if_pos rfl, hc]
    · rw [if_neg hc, if_neg h1]

theorem toWindows_fromWindows (f : Str) (h : ∀ c ∈ f, c.toNat < 256) (hs : '/' ∉ f)
    (hd : f[1]? = some ':' → '%' ∉ f.takeWhile (· ≠ '\\')) : toWindows (fromWindows f) = f := by
  unfold fromWindows toWindows
  by_cases ha : f[1]? = some ':'
  · have hdrop : ∀ c ∈ f.dropWhile (· ≠ '\\'), c ∈ f := fun c hc => (List.dropWhile_sublist _).subset hc
    have htake : ∀ c ∈ f.takeWhile (· ≠ '\\'), c ∈ f := fun c hc => (List.takeWhile_sublist _).subset hc
    have hu := unescape_parts '\\' '/' (by decide) (f.dropWhile (· ≠ '\\')) (fun c hc => h c (hdrop c hc)) []
    rw [List.append_nil, show unescape [] = [] from rfl, List.append_nil] at hu
    rw [if_pos ha, List.append_assoc, if_pos (List.isPrefixOf_iff_prefix.2 (List.prefix_append _ _))]
    rw [show (8 : Nat) = (chars! "file:///").length from rfl, List.drop_left, unescape_raw (hd ha), hu, List.map_append,
      map_back (fun hm => hs (hdrop _ hm)), map_other (.inr fun hm => hs (htake _ hm)), List.takeWhile_append_dropWhile]
  · have hu := unescape_parts '\\' '/' (by decide) f h []
    rw [List.append_nil, show unescape [] = [] from rfl, List.append_nil] at hu
    rw [if_neg ha, not_prefix (by decide) (parts_colon _ _ (by decide) f h), if_neg (by decide), hu, map_back hs]

theorem toWindows_fromUnix (f : Str) (h : ∀ c ∈ f, c.toNat < 256) (hs : '/' ∉ f) : toWindows (fromUnix f) = f := by
  unfold fromUnix toWindows
  have h0 : f.head? ≠ some '/' := fun e => hs (List.mem_of_mem_head? e)
  rw [if_neg h0, List.nil_append, not_prefix (by decide) (parts_colon _ _ (by decide) f h), if_neg (by decide), unescape_unix f h,
    map_other (.inr hs)]

theorem isPath_parts (sep : Char) (f : Str) (h : ∀ c ∈ f, c.toNat < 256) :
    IsPath (f.flatMap fun c => if c = sep then ['/'] else escapeChar c) := by
  induction f with
  | nil => exact .nil
  | cons c f ih =>
    have ih := ih (fun c hc => h c (List.mem_cons_of_mem _ hc))
    rw [List.flatMap_cons]
    by_cases hc : c = sep
    · rw [if_pos hc]
      exact .char (.inr (by decide)) ih
    · rw [if_neg hc]
      rcases escape_cases c (h c List.mem_cons_self) with ⟨_, _, _, _, _, hp, he⟩ | ⟨a, b, he, _, _, ha, hb⟩
      · rw [he]; exact .char hp ih
      · rw [he]; exact .escape ha hb ih

theorem not_zero_of_path {s : Str} (h : IsPath s) : '\x00' ∉ s := by
  induction h with
  | nil => exact List.not_mem_nil
  | char hp _ ih =>
    intro hm
    rcases List.mem_cons.1 hm with hm | hm
    · subst hm
      rcases hp with hp | hp
      · revert hp; decide
      · revert hp; decide
    · exact ih hm
  | escape ha hb _ ih =>
    intro hm
    rcases List.mem_cons.1 hm with hm | hm
    · revert hm; decide
    rcases List.mem_cons.1 hm with hm | hm
    · subst hm; revert ha; decide
    rcases List.mem_cons.1 hm with hm | hm
    · subst hm; revert hb; decide
    · exact ih hm

theorem fromUnix_zero {f : Str} (h : ∀ c ∈ f, c.toNat < 256) : '\x00' ∉ fromUnix f := by
  unfold fromUnix
  intro hm
  rcases List.mem_append.1 hm with hm | hm
  · revert hm; split <;> decide
  · exact not_zero_of_path (isPath_parts '/' f h) hm

theorem fromWindows_zero {f : Str} (h : IsName f) : '\x00' ∉ fromWindows f := by
  unfold fromWindows
  split
  · intro hm
    rcases List.mem_append.1 hm with hm | hm
    · rcases List.mem_append.1 hm with hm | hm
      · revert hm; decide
      · exact (h _ ((List.takeWhile_sublist _).subset hm)).2 rfl
    · exact not_zero_of_path (isPath_parts '\\' _ (fun c hc => (h c ((List.dropWhile_sublist _).subset hc)).1)) hm
  · exact not_zero_of_path (isPath_parts '\\' f (fun c hc => (h c hc).1))

theorem cstr_length (s : Str) : (cstr s).length ≤ s.length := takeWhile_length _ _

/-- The limits of the texts' sizes: below them no size in the code overflows an `int`. -/
def sizeLimit : Nat := 700000000

theorem unix_ok {f : Str} (h : f.length ≤ sizeLimit) : unixFilenameToUri f = .ok (cstr (fromUnix (cstr f))) := by
  unfold sizeLimit at h
  have h1 := fromUnix_length (cstr f)
  have h2 := cstr_length f
  exact fill_ok (by omega) (by omega)

theorem windows_ok {f : Str} (h : f.length ≤ sizeLimit) : windowsFilenameToUri f = .ok (cstr (fromWindows (cstr f))) := by
  unfold sizeLimit at h
  have h1 := fromWindows_length (cstr f)
  have h2 := cstr_length f
  exact fill_ok (by omega) (by omega)

theorem toUnix_ok {u : Str} (h : u.length < 2 ^ 31 - 1) : uriToUnixFilename u = .ok (cstr (toUnix (cstr u))) := by
  have h1 := toUnix_length (cstr u)
  have h2 := cstr_length u
  unfold uriToUnixFilename
  rw [if_neg (show ¬ 2 ^ 31 - 1 < u.length + 1 by omega)]
  exact fill_ok (by omega) (by omega)

theorem toWindows_ok {u : Str} (h : u.length < 2 ^ 31 - 1) : uriToWindowsFilename u = .ok (cstr (toWindows (cstr u))) := by
  have h1 := toWindows_length (cstr u)
  have h2 := cstr_length u
  unfold uriToWindowsFilename
  rw [if_neg (show ¬ 2 ^ 31 - 1 < u.length + 1 by omega)]
  exact fill_ok (by omega) (by omega)

/-- **C99, memory.** On every text, of any characters and with zeros in it, that is not longer than 700 million bytes, the four
conversions and the two that choose among them keep within the buffers they allocate. -/
theorem C99_safe (s : Str) (h : s.length ≤ sizeLimit) : (unixFilenameToUri s).Safe ∧ (windowsFilenameToUri s).Safe ∧
    (uriToUnixFilename s).Safe ∧ (uriToWindowsFilename s).Safe ∧ (filenameToUri s).Safe ∧ ∀ w, (uriToFilename w s).Safe := by
  have hs : s.length < 2 ^ 31 - 1 := by unfold sizeLimit at h; omega
  refine ⟨⟨_, unix_ok h⟩, ⟨_, windows_ok h⟩, ⟨_, toUnix_ok hs⟩, ⟨_, toWindows_ok hs⟩, ?_, ?_⟩
  · unfold filenameToUri
    split
    · exact ⟨_, windows_ok h⟩
    · exact ⟨_, unix_ok h⟩
  · intro w
    unfold uriToFilename
    cases w
    · exact ⟨_, toUnix_ok hs⟩
    · exact ⟨_, toWindows_ok hs⟩

/-- **C99, Unix.** Every name of a file, of any bytes, without backslashes: its URI is a path of RFC 3986, behind `file://` exactly if
the name is absolute, and the name of that URI is the same again.

Missing from the full property: names with backslashes, for which it is false (`C99_backslash_violated`). -/
theorem C99_unix_partial (f : Str) (hf : IsName f) (hb : '\\' ∉ f) (h : f.length ≤ sizeLimit) :
    ∃ u path, filenameToUri f = .ok u ∧ uriToFilename false u = .ok f ∧ IsPath path ∧
      u = (if f.head? = some '/' then "file://".toList else []) ++ path := by
  have hc : ∀ c ∈ f, c.toNat < 256 := fun c hc => (hf c hc).1
  have hl := fromUnix_length f
  have hu : unixFilenameToUri f = .ok (fromUnix f) := by
    rw [unix_ok h, cstr_name hf, cstr_of_not_mem (fromUnix_zero hc)]
  refine ⟨fromUnix f, _, ?_, ?_, isPath_parts '/' f hc, rfl⟩
  · unfold filenameToUri
    rw [if_neg hb, hu]
  · show uriToUnixFilename (fromUnix f) = _
    unfold sizeLimit at h
    rw [toUnix_ok (by omega), cstr_of_not_mem (fromUnix_zero hc), toUnix_fromUnix f hc, cstr_name hf]

/-- **C99, Windows.** Every name of a file without slashes, whose drive has no percent sign: the name of its URI is the same again.

Missing from the full property: other drives, for which it is false (`C99_drive_violated`). -/
theorem C99_windows_partial (f : Str) (hf : IsName f) (hs : '/' ∉ f)
    (hd : f[1]? = some ':' → '%' ∉ f.takeWhile (· ≠ '\\')) (h : f.length ≤ sizeLimit) :
    ∃ u, filenameToUri f = .ok u ∧ uriToFilename true u = .ok f := by
  have hc : ∀ c ∈ f, c.toNat < 256 := fun c hc => (hf c hc).1
  have h1 := fromUnix_length f
  have h2 := fromWindows_length f
  have hl := h
  unfold sizeLimit at hl
  by_cases hb : '\\' ∈ f
  · refine ⟨fromWindows f, ?_, ?_⟩
    · unfold filenameToUri
      rw [if_pos hb, windows_ok h, cstr_name hf, cstr_of_not_mem (fromWindows_zero hf)]
    · show uriToWindowsFilename (fromWindows f) = _
      rw [toWindows_ok (by omega), cstr_of_not_mem (fromWindows_zero hf), toWindows_fromWindows f hc hs hd, cstr_name hf]
  · refine ⟨fromUnix f, ?_, ?_⟩
    · unfold filenameToUri
      rw [if_neg hb, unix_ok h, cstr_name hf, cstr_of_not_mem (fromUnix_zero hc)]
    · show uriToWindowsFilename (fromUnix f) = _
      rw [toWindows_ok (by omega), cstr_of_not_mem (fromUnix_zero hc), toWindows_fromUnix f hc hs, cstr_name hf]

/-- A name that meets the hypotheses, with a blank, a percent sign and a byte beyond ASCII. -/
example : IsName "/home/a b/50%\u00e9.kml".toList ∧ '\\' ∉ "/home/a b/50%\u00e9.kml".toList ∧
    filenameToUri "/home/a b/50%\u00e9.kml".toList = .ok "file:///home/a%20b/50%25%E9.kml".toList := by
  refine ⟨?_, ?_, ?_⟩
  · unfold IsName; decide +kernel
  · decide +kernel
  · decide +kernel

/-- And one of Windows. -/
example : IsName "C:\\a b\\c.kml".toList ∧ '/' ∉ "C:\\a b\\c.kml".toList ∧
    '%' ∉ "C:\\a b\\c.kml".toList.takeWhile (· ≠ '\\') ∧
    filenameToUri "C:\\a b\\c.kml".toList = .ok "file:///C:/a%20b/c.kml".toList := by
  refine ⟨?_, ?_, ?_, ?_⟩
  · unfold IsName; decide +kernel
  · decide +kernel
  · decide +kernel
  · decide +kernel

theorem digit_value {c : Char} {n : Nat} (h : Digit c n) : hexValue c = some n ∧ n < 16 ∧ c ≠ '\x00' := by
  have hn : n < 16 := by
    apply Classical.byContradiction
    intro hk
    rcases h with h | h <;> rw [List.getElem?_eq_none (by show 16 ≤ n; omega)] at h <;> cases h
  have key : ∀ n < 16, ∀ c, (("0123456789abcdef".toList[n]? = some c) ∨ ("0123456789ABCDEF".toList[n]? = some c)) →
      hexValue c = some n ∧ c ≠ '\x00' := by
    intro n hn c h
    have h1 : ∀ n < 16, ∃ a b, "0123456789abcdef".toList[n]? = some a ∧ "0123456789ABCDEF".toList[n]? = some b ∧
        hexValue a = some n ∧ hexValue b = some n ∧ a ≠ '\x00' ∧ b ≠ '\x00' := by
      have h2 : ∀ n < 16, (("0123456789abcdef".toList[n]?).bind hexValue = some n ∧
          ("0123456789ABCDEF".toList[n]?).bind hexValue = some n) ∧ "0123456789abcdef".toList[n]? ≠ some '\x00' ∧
          "0123456789ABCDEF".toList[n]? ≠ some '\x00' := by decide +kernel
      intro n hn
      obtain ⟨⟨ha, hb⟩, hc, hd⟩ := h2 n hn
      obtain ⟨a, ha1, ha2⟩ := Option.bind_eq_some_iff.1 ha
      obtain ⟨b, hb1, hb2⟩ := Option.bind_eq_some_iff.1 hb
      exact ⟨a, b, ha1, hb1, ha2, hb2, fun h => hc (h ▸ ha1), fun h => hd (h ▸ hb1)⟩
    obtain ⟨a, b, ha, hb, hva, hvb, hza, hzb⟩ := h1 n hn
    rcases h with h | h
    · rw [ha] at h; cases h; exact ⟨hva, hza⟩
    · rw [hb] at h; cases h; exact ⟨hvb, hzb⟩
  exact ⟨(key n hn c h).1, hn, (key n hn c h).2⟩

theorem unescape_stands {u f : Str} (h : StandsFor u f) : unescape u = f := by
  induction h with
  | nil => rfl
  | @char c s f hc _ ih =>
    rw [← ih]
    match s with
    | [] => rfl
    | [a] => rfl
    | a :: b :: s => exact if_neg hc
  | @escape a b m n s f ha hb _ ih =>
    show (if '%' = '%' then _ else _) = _
    rw [if_pos rfl, (digit_value ha).1]
    dsimp only
    rw [(digit_value hb).1]
    dsimp only
    rw [ih]

theorem stands_zero {u f : Str} (h : StandsFor u f) (hf : '\x00' ∉ f) : '\x00' ∉ u := by
  induction h with
  | nil => exact hf
  | @char c s f hc _ ih =>
    intro hm
    rcases List.mem_cons.1 hm with hm | hm
    · exact hf (hm ▸ List.mem_cons_self)
    · exact ih (fun h => hf (List.mem_cons_of_mem _ h)) hm
  | @escape a b m n s f ha hb _ ih =>
    intro hm
    rcases List.mem_cons.1 hm with hm | hm
    · cases hm
    rcases List.mem_cons.1 hm with hm | hm
    · exact (digit_value ha).2.2 hm.symm
    rcases List.mem_cons.1 hm with hm | hm
    · exact (digit_value hb).2.2 hm.symm
    · exact ih (fun h => hf (List.mem_cons_of_mem _ h)) hm

/-- **C99, any escapes.** A URI written by anyone, with escapes in either case and of characters that need none: behind `file://` on
Unix, and behind `file:///` on Windows, where slashes become backslashes, is the name it stands for. -/
theorem C99_any (u f : Str) (h : StandsFor u f) (hf : '\x00' ∉ f) (hl : u.length ≤ sizeLimit) :
    uriToFilename false ("file://".toList ++ u) = .ok f ∧
    uriToFilename true ("file:///".toList ++ u) = .ok (f.map fun c => if c = '/' then '\\' else c) := by
  have hz := stands_zero h hf
  have hu := unescape_stands h
  unfold sizeLimit at hl
  constructor
  · show uriToUnixFilename _ = _
    have hz' : '\x00' ∉ "file://".toList ++ u := by
      intro hm
      rcases List.mem_append.1 hm with hm | hm
      · exact absurd hm (by decide)
      · exact hz hm
    rw [toUnix_ok (by rw [List.length_append]; show 7 + u.length < _; omega), cstr_of_not_mem hz']
    show Outcome.ok (cstr (unescape u)) = _
    rw [hu, cstr_of_not_mem hf]
  · show uriToWindowsFilename _ = _
    have hz' : '\x00' ∉ "file:///".toList ++ u := by
      intro hm
      rcases List.mem_append.1 hm with hm | hm
      · exact absurd hm (by decide)
      · exact hz hm
    rw [toWindows_ok (by rw [List.length_append]; show 8 + u.length < _; omega), cstr_of_not_mem hz']
    show Outcome.ok (cstr ((unescape u).map _)) = _
    rw [hu, cstr_of_not_mem]
    intro hm
    obtain ⟨c, hc, he⟩ := List.mem_map.1 hm
    split at he
    · cases he
    · exact hf (he ▸ hc)

/-- A URI that the theorem speaks of: an escape in small letters. -/
example : StandsFor "a%c3%BF".toList ['a', Char.ofNat 0xC3, Char.ofNat 0xBF] ∧
    uriToFilename false "file://a%c3%BF".toList = .ok ['a', Char.ofNat 0xC3, Char.ofNat 0xBF] := by
  refine ⟨?_, by decide +kernel⟩
  refine .char (by decide) (.escape (m := 12) (n := 3) (Or.inl (by decide)) (Or.inl (by decide))
    (.escape (m := 11) (n := 15) (Or.inr (by decide)) (Or.inr (by decide)) .nil))

/-- **C99 fails: backslashes on Unix.** A name with a backslash, which is a letter as any other there, is taken for one of Windows, and
becomes the name of another file. -/
theorem C99_backslash_violated : IsName "/a\\b".toList ∧ filenameToUri "/a\\b".toList = .ok "%2Fa/b".toList ∧
    uriToFilename false "%2Fa/b".toList = .ok "/a/b".toList := by
  refine ⟨?_, ?_, ?_⟩
  · unfold IsName; decide +kernel
  · decide +kernel
  · decide +kernel

/-- **C99 fails: escapes in a drive.** The first part of an absolute name of Windows is not escaped. -/
theorem C99_drive_violated : IsName "C:%41\\x".toList ∧ filenameToUri "C:%41\\x".toList = .ok "file:///C:%41/x".toList ∧
    uriToFilename true "file:///C:%41/x".toList = .ok "C:A\\x".toList := by
  refine ⟨?_, ?_, ?_⟩
  · unfold IsName; decide +kernel
  · decide +kernel
  · decide +kernel

/-- **C99 fails: escaped zeros.** A URI with one gives the name of another file, and success. -/
theorem C99_zero_violated : uriToFilename false "file:///a%00.kml".toList = .ok "/a".toList := by decide +kernel

/-- **C99 fails: URIs of no file.** They give names of files, and success; and the host `localhost` becomes a directory. -/
theorem C99_scheme_violated : uriToFilename false "http://host/a.kml".toList = .ok "http://host/a.kml".toList ∧
    uriToFilename false "file://localhost/a.kml".toList = .ok "localhost/a.kml".toList := by
  constructor <;> decide +kernel

/-- **C99 fails: sizes.** The size of the buffer for a name of 750 million bytes overflows. -/
theorem C99_size_violated : IsName (List.replicate 750000000 'a') ∧ filenameToUri (List.replicate 750000000 'a') = .ub := by
  constructor
  · intro c hc
    rw [(List.mem_replicate.1 hc).2]
    decide
  · unfold filenameToUri
    rw [if_neg (fun hm => absurd (List.mem_replicate.1 hm).2 (by decide))]
    unfold unixFilenameToUri fill
    rw [List.length_replicate, if_pos (by omega)]

end Kml.UriFile
