import Verif.Model.Disk
import Verif.Props.UriFile
import Verif.Props.UnzipArchive
/-! C106, C107 and C108: files, crashes and temporary files. -/
namespace Kml.Disk
open Kml.UriFile

theorem put_same (d : Disk) (path : Str) (n : Option Node) : (d.put path n).node path = n := by simp [Disk.put]

theorem put_other (d : Disk) (path : Str) (n : Option Node) {p : Str} (h : p ≠ path) :
    (d.put path n).node p = d.node p := by simp [Disk.put, h]

theorem readLoop_stop (turns : Nat) (s : Stream) (out : Str) (h : s.good = false) : readLoop turns s out = out := by
  cases turns with
  | zero => rfl
  | succ n =>
      unfold readLoop
      rw [if_neg (by rw [h]; simp)]

theorem append_guard (out c : Str) : (if 0 < c.length then out ++ c else out) = out ++ c := by
  cases c with
  | nil => simp
  | cons => simp

theorem readLoop_all (turns : Nat) : ∀ (rest out : Str), rest.length + 2 ≤ turns →
    readLoop turns ⟨rest, false, false, true⟩ out = out ++ rest := by
  induction turns with
  | zero => intro rest out h; omega
  | succ turns ih =>
      intro rest out h
      unfold readLoop
      rw [if_pos ⟨rfl, rfl⟩, append_guard]
      unfold Stream.read
      dsimp only
      by_cases hl : 1024 ≤ rest.length
      · rw [if_pos hl]
        dsimp only
        rw [ih _ _ (by rw [List.length_drop]; omega), List.append_assoc, List.take_append_drop]
      · rw [if_neg hl]
        simp only [Bool.false_eq_true, if_false]
        exact readLoop_stop _ _ _ rfl

theorem readLoop_prefix (turns : Nat) : ∀ (rest out : Str), ∃ k,
    readLoop turns ⟨rest, true, false, true⟩ out = out ++ rest.take k := by
  induction turns with
  | zero => intro rest out; exact ⟨0, by simp [readLoop]⟩
  | succ turns ih =>
      intro rest out
      unfold readLoop
      rw [if_pos ⟨rfl, rfl⟩, append_guard]
      unfold Stream.read
      dsimp only
      by_cases hl : 1024 ≤ rest.length
      · rw [if_pos hl]
        dsimp only
        obtain ⟨k, hk⟩ := ih (rest.drop 1024) (out ++ rest.take 1024)
        refine ⟨1024 + k, ?_⟩
        rw [hk, List.append_assoc, List.take_add]
      · rw [if_neg hl]
        simp only [if_true]
        exact ⟨0, by rw [readLoop_stop _ _ _ rfl]; simp⟩

/-- A path that C sees as it is. -/
def IsPath (p : Str) : Prop := p ≠ [] ∧ '\x00' ∉ p

theorem openRead_good (d : Disk) (path data : Str) (hp : IsPath path) (hf : d.node path = some (.file data))
    (hr : d.readable path = true) (hb : d.bad path = none) :
    openRead d (cstr path) = some ⟨data, false, false, true⟩ := by
  unfold openRead
  rw [cstr_of_not_mem hp.2, if_neg (by simp [hp.1, hr]), hf, hb]

/-- C106: reading a file gives its bytes, however many there are, if no error comes. -/
theorem C106_read (d : Disk) (path data before : Str) (hp : IsPath path) (hf : d.node path = some (.file data))
    (hr : d.readable path = true) (hb : d.bad path = none) :
    readFileToString d path (some before) = (true, some data) := by
  unfold readFileToString
  rw [if_neg (by simp [hp.1]), openRead_good d path data hp hf hr hb]
  dsimp only
  rw [readLoop_all _ _ _ (Nat.le_refl _), List.nil_append]

/-- C106: what cannot be read for want of a file, a name or an output leaves the output as it was. -/
theorem C106_read_refused (d : Disk) (filename : Str) (output : Option Str) :
    (readFileToString d filename output).1 = false → (readFileToString d filename output).2 = output := by
  unfold readFileToString
  split
  · intro _; rfl
  · split
    · intro _; rfl
    · intro h; cases h

/-- C106: without a name or without a string to read into nothing is read. -/
theorem C106_nothing (d : Disk) (filename : Str) (output : Option Str) :
    readFileToString d filename none = (false, none) ∧ readFileToString d [] output = (false, output) := by
  unfold readFileToString
  exact ⟨if_pos (.inr rfl), if_pos (.inl rfl)⟩

/-- C106: whatever errors come, what is read of a file is the beginning of its content. -/
theorem C106_read_partial (d : Disk) (path data before : Str) (hp : IsPath path) (hf : d.node path = some (.file data)) (out : Str)
    (h : readFileToString d path (some before) = (true, some out)) : ∃ k, out = data.take k := by
  unfold readFileToString at h
  rw [if_neg (by simp [hp.1])] at h
  unfold openRead at h
  rw [cstr_of_not_mem hp.2] at h
  split at h
  · cases h
  · rename_i s hs
    split at hs
    · cases hs
    · rw [hf] at hs
      dsimp only at hs
      have hout := Option.some.inj (congrArg Prod.snd h)
      cases hb : d.bad path with
      | none =>
          rw [hb] at hs
          cases hs
          dsimp only at hout
          rw [readLoop_all _ _ _ (Nat.le_refl _), List.nil_append] at hout
          exact ⟨data.length, by rw [List.take_length]; exact hout.symm⟩
      | some k =>
          rw [hb] at hs
          dsimp only at hs
          split at hs
          · cases hs
            dsimp only at hout
            obtain ⟨j, hj⟩ := readLoop_prefix ((data.take k).length + 2) (data.take k) []
            rw [hj, List.nil_append, List.take_take] at hout
            exact ⟨_, hout.symm⟩
          · cases hs
            dsimp only at hout
            rw [readLoop_all _ _ _ (Nat.le_refl _), List.nil_append] at hout
            exact ⟨data.length, by rw [List.take_length]; exact hout.symm⟩

theorem openWrite_iff (d : Disk) (path : Str) (hp : path ≠ []) :
    openWrite d path ≠ none ↔ d.writable path = true ∧ d.node path ≠ some .dir := by
  unfold openWrite
  by_cases hw : d.writable path = true
  · rw [if_neg (by simp [hp, hw])]
    cases hn : d.node path with
    | none => simp [hw]
    | some n => cases n <;> simp [hw]
  · rw [if_pos (Or.inr (by simpa using hw))]
    simp [hw]

theorem openWrite_some {d d' : Disk} {path : Str} (h : openWrite d path = some d') :
    d.space ≤ d'.space ∧ (∀ p, p ≠ path → d'.node p = d.node p) ∧ d'.readable = d.readable ∧ d'.writable = d.writable ∧
    d'.bad = d.bad := by
  unfold openWrite at h
  split at h
  · cases h
  · split at h
    · cases h
    · cases h
      exact ⟨Nat.le_add_right _ _, fun p hp => put_other d path _ hp, rfl, rfl, rfl⟩
    · cases h
      exact ⟨Nat.le_refl _, fun p hp => put_other d path _ hp, rfl, rfl, rfl⟩

/-- C106: a file can be written just if it may be and there is no directory in its place; then true is answered, and else false, with the
disk as it was. -/
theorem C106_when (d : Disk) (data path : Str) (hp : IsPath path) :
    ((writeStringToFile d data path).1 = true ↔ d.writable path = true ∧ d.node path ≠ some .dir) ∧
    ((writeStringToFile d data path).1 = false → (writeStringToFile d data path).2 = d) := by
  have hi := openWrite_iff d path hp.1
  unfold writeStringToFile
  rw [if_neg hp.1, cstr_of_not_mem hp.2]
  cases h : openWrite d path with
  | none =>
      rw [h] at hi
      refine ⟨⟨fun e => absurd e (by simp), fun e => absurd (hi.2 e) (by simp)⟩, fun _ => rfl⟩
  | some d' =>
      rw [h] at hi
      exact ⟨⟨fun _ => hi.1 (by simp), fun _ => rfl⟩, fun e => by cases e⟩

/-- C106: what was written is read back, if there was space for it, and all other files are as they were. -/
theorem C106_write_read (d d' : Disk) (data path before : Str) (hp : IsPath path) (h : writeStringToFile d data path = (true, d'))
    (hspace : data.length ≤ d.space) (hr : d.readable path = true) (hb : d.bad path = none) :
    readFileToString d' path (some before) = (true, some data) ∧ ∀ p, p ≠ path → d'.node p = d.node p := by
  unfold writeStringToFile at h
  rw [if_neg hp.1, cstr_of_not_mem hp.2] at h
  cases ho : openWrite d path with
  | none => rw [ho] at h; cases h
  | some d₁ =>
      rw [ho] at h
      cases h
      obtain ⟨h1, h2, h3, h4, h5⟩ := openWrite_some ho
      constructor
      · refine C106_read _ path data before hp ?_ ?_ ?_
        · unfold writeData
          rw [List.take_of_length_le (by omega)]
          exact put_same d₁ path _
        · show d₁.readable path = true
          rw [h3]; exact hr
        · show d₁.bad path = none
          rw [h5]; exact hb
      · intro p hne
        rw [← h2 p hne]
        exact put_other d₁ path _ hne

/-- C106: whatever happens, a file that was written is the beginning of the data. -/
theorem C106_write_partial (d d' : Disk) (data path : Str) (hp : IsPath path) (h : writeStringToFile d data path = (true, d')) :
    ∃ k, d.space ≤ k ∧ d'.node path = some (.file (data.take k)) := by
  unfold writeStringToFile at h
  rw [if_neg hp.1, cstr_of_not_mem hp.2] at h
  cases ho : openWrite d path with
  | none => rw [ho] at h; cases h
  | some d₁ =>
      rw [ho] at h
      cases h
      exact ⟨d₁.space, (openWrite_some ho).1, put_same d₁ path _⟩

/-- A disk with one file. -/
def oneFile (path data : Str) (space : Nat) (bad : Option Nat) : Disk :=
  { node := fun p => if p = path then some (.file data) else none, readable := fun _ => true, writable := fun _ => true, space := space,
    bad := fun _ => bad }

/-- C106 is false on a full disk: true is answered though the last bytes are missing. -/
theorem C106_full_violated : ∃ d data path, (writeStringToFile d data path).1 = true ∧
    (writeStringToFile d data path).2.node path ≠ some (.file data) :=
  ⟨oneFile ['f'] [] 1 none, ['a', 'b'], ['f'], by decide, by decide⟩

/-- C106 is false when an error comes in the middle of a file: true is answered though nothing was read. -/
theorem C106_error_violated : ∃ d path data, d.node path = some (.file data) ∧ data ≠ [] ∧
    readFileToString d path (some []) = (true, some []) :=
  ⟨oneFile ['f'] ['a', 'b'] 0 (some 1), ['f'], ['a', 'b'], by decide, by decide, by decide⟩

/-- C106 is false for a directory: it is read as an empty file. -/
theorem C106_directory_violated : ∃ d path, d.node path = some .dir ∧ readFileToString d path (some ['x']) = (true, some []) :=
  ⟨{ oneFile ['f'] [] 0 none with node := fun _ => some .dir }, ['/', 't'], by decide, by decide⟩

example : (readFileToString (oneFile ['f'] ['a', 'b'] 0 none) ['f'] (some ['x'])) = (true, some ['a', 'b']) := by decide

example : (writeStringToFile (oneFile ['f'] ['a', 'b'] 9 none) ['c'] ['f']).1 = true := by decide

/-- C106: reading answers true just if there is something at the path that may be read; a path exists just if there is a file; nothing is
written to no path. -/
theorem C106_answers (d : Disk) (data path before : Str) (hp : IsPath path) :
    ((readFileToString d path (some before)).1 = true ↔ d.readable path = true ∧ d.node path ≠ none) ∧
    ((readFileToString d path (some before)).1 = false → (readFileToString d path (some before)).2 = some before) ∧
    (fileExists d path = true ↔ ∃ data, d.node path = some (.file data)) ∧
    writeStringToFile d data [] = (false, d) := by
  refine ⟨?_, ?_, ?_, rfl⟩
  · unfold readFileToString openRead
    rw [if_neg (by simp [hp.1]), cstr_of_not_mem hp.2]
    by_cases hr : d.readable path = true
    · rw [if_neg (by simp [hp.1, hr])]
      cases hn : d.node path with
      | none => simp
      | some x =>
        cases x with
        | dir => simp [hr]
        | file data =>
          dsimp only
          cases d.bad path with
          | none => simp [hr]
          | some k =>
            dsimp only
            split <;> rename_i hs
            · split at hs <;> cases hs
            · simp [hr]
    · rw [if_pos (Or.inr (by simpa using hr))]
      simp [hr]
  · unfold readFileToString
    split
    · exact fun _ => rfl
    · split
      · exact fun _ => rfl
      · exact fun h => nomatch h
  · unfold fileExists
    rw [cstr_of_not_mem hp.2]
    split
    · next data h => exact ⟨fun _ => ⟨data, h⟩, fun _ => rfl⟩
    · next h => exact ⟨(fun e => nomatch e), fun ⟨data, e⟩ => absurd e (h data)⟩

/-- C106: a name with a zero character in it means what is before it. -/
theorem C106_zero (d : Disk) (data path rest : Str) (before : Option Str) (hp : IsPath path) :
    readFileToString d (path ++ '\x00' :: rest) before = readFileToString d path before ∧
    writeStringToFile d data (path ++ '\x00' :: rest) = writeStringToFile d data path ∧
    fileExists d (path ++ '\x00' :: rest) = fileExists d path ∧ delete d (path ++ '\x00' :: rest) = delete d path := by
  have h : cstr (path ++ '\x00' :: rest) = cstr path := by
    have h1 := hp.2
    clear hp
    unfold cstr
    induction path with
    | nil => rfl
    | cons c l ih =>
      have hc : c ≠ '\x00' := fun e => h1 (e ▸ List.mem_cons_self)
      rw [List.cons_append, List.takeWhile_cons, List.takeWhile_cons, ih fun hm => h1 (List.mem_cons_of_mem _ hm)]
  have hne : path ++ '\x00' :: rest ≠ [] := by simp
  unfold readFileToString writeStringToFile fileExists delete
  rw [h]
  simp [hp.1]

/-- C108: a file is removed just if there is one that may be removed; then nothing else changes, and else nothing at all. -/
theorem C108_removed (d : Disk) (path : Str) (hp : IsPath path) :
    ((delete d path).1 = true ↔ d.writable path = true ∧ ∃ data, d.node path = some (.file data)) ∧
    ((delete d path).1 = false → (delete d path).2 = d) ∧
    ((delete d path).1 = true → (delete d path).2.node path = none ∧ ∀ p, p ≠ path → (delete d path).2.node p = d.node p) := by
  unfold delete
  rw [cstr_of_not_mem hp.2]
  split
  · next data h =>
    by_cases hw : d.writable path = true
    · rw [if_pos hw]
      exact ⟨⟨fun _ => ⟨hw, data, h⟩, fun _ => rfl⟩, (fun e => nomatch e), fun _ =>
        ⟨put_same _ _ _, fun p hne => put_other _ _ _ hne⟩⟩
    · rw [if_neg hw]
      exact ⟨⟨(fun e => nomatch e), fun e => absurd e.1 hw⟩, fun _ => rfl, (fun e => nomatch e)⟩
  · next h =>
    exact ⟨⟨(fun e => nomatch e), fun ⟨_, data, e⟩ => absurd e (h data)⟩, fun _ => rfl, (fun e => nomatch e)⟩

example : (delete (oneFile ['f'] ['a'] 0 none) ['f']).1 = true ∧ IsPath ['f'] := by
  refine ⟨by decide, by decide, by decide⟩

/-- C106: an archive that is a well-formed file of the disk is opened, with its bytes and the names of its files. -/
theorem C106_archive (d : Disk) (path : Str) (hp : IsPath path) (ms : List Zip.Member) (comment : Str) (hs : Zip.Sound ms comment)
    (hne : ms ≠ []) (hn : ∀ m ∈ ms, '\x00' ∉ m.name ∧ m.name.length < 1024)
    (hf : d.node path = some (.file (Zip.archive ms comment))) (hr : d.readable path = true) (hb : d.bad path = none) :
    openFromFile d path = .ok (some (Zip.archive ms comment, ms.map Zip.Member.name)) := by
  unfold openFromFile fileExists
  rw [cstr_of_not_mem hp.2, hf]
  simp only [if_true]
  rw [C106_read d path _ [] hp hf hr hb]
  dsimp only
  rw [Unzip.C103_names ms comment hs hne hn]
  rfl

/-- C107: wherever the writing of a file is stopped, all other files are as they were, and the file is as it was or the beginning of
what was to be written. -/
theorem C107_crash_partial (d : Disk) (data path : Str) (hp : IsPath path) :
    (writeStringToFile d data path).2 ∈ crashes d data path ∧
    ∀ d' ∈ crashes d data path, (∀ p, p ≠ path → d'.node p = d.node p) ∧
      (d'.node path = d.node path ∨ ∃ k, d'.node path = some (.file (data.take k))) := by
  unfold writeStringToFile crashes
  rw [if_neg hp.1, if_neg hp.1, cstr_of_not_mem hp.2]
  cases ho : openWrite d path with
  | none =>
      refine ⟨List.mem_cons_self, fun d' h => ?_⟩
      rw [List.mem_singleton.1 h]
      exact ⟨fun _ _ => rfl, Or.inl rfl⟩
  | some d₁ =>
      dsimp only
      refine ⟨List.mem_cons_of_mem _ (List.mem_map.2 ⟨data.length, List.mem_range.2 (Nat.lt_succ_self _), ?_⟩), fun d' h => ?_⟩
      · rw [List.take_length]
      · rcases List.mem_cons.1 h with rfl | h
        · exact ⟨fun _ _ => rfl, Or.inl rfl⟩
        · obtain ⟨k, _, rfl⟩ := List.mem_map.1 h
          refine ⟨fun p hne => ?_, Or.inr ⟨min d₁.space k, ?_⟩⟩
          · rw [← (openWrite_some ho).2.1 p hne]
            exact put_other d₁ path _ hne
          · rw [← List.take_take]
            exact put_same d₁ path _

/-- C107 is false: a crash while a file is being replaced can leave neither the old content nor the new. -/
theorem C107_violated : ∃ d old data path, d.node path = some (.file old) ∧ data.length ≤ d.space ∧
    ∃ d' ∈ crashes d data path, d'.node path ≠ some (.file old) ∧ d'.node path ≠ some (.file data) := by
  refine ⟨oneFile ['f'] ['o', 'l', 'd'] 9 none, ['o', 'l', 'd'], ['n', 'e', 'w'], ['f'], by decide, by decide, _,
    List.mem_cons_of_mem _ (List.mem_map.2 ⟨0, List.mem_range.2 (by decide), rfl⟩), by decide, by decide⟩

/-- The invariant of temporary files: different objects have different names, and each has its file. -/
structure Temps.Right (t : Temps) : Prop where
  names : (t.live.map Prod.snd).Nodup
  objects : (t.live.map Prod.fst).Nodup
  old : ∀ x ∈ t.live, x.1 < t.made
  path : ∀ x ∈ t.live, IsPath x.2
  file : ∀ x ∈ t.live, ∃ data, t.disk.node x.2 = some (.file data)

/-- What a program may do: `mkstemp` uses letters and digits, and no file of a live `TempFile` is removed by another way. -/
def Temps.Allowed (t : Temps) : Op → Prop
  | .make six => '\x00' ∉ six
  | .drop _ => True
  | .write _ path => IsPath path
  | .remove path => IsPath path ∧ ∀ x ∈ t.live, x.2 ≠ path

/-- A history all of whose steps are allowed. -/
def Temps.AllAllowed : Temps → List Op → Prop
  | _, [] => True
  | t, op :: ops => t.Allowed op ∧ (t.step op).AllAllowed ops

theorem delete_node (d : Disk) (path : Str) (hp : IsPath path) (p : Str) (h : p ≠ path) :
    (delete d path).2.node p = d.node p := by
  unfold delete
  rw [cstr_of_not_mem hp.2]
  split
  · split
    · exact put_other d path _ h
    · rfl
  · rfl

theorem destroy_node (d : Disk) (path : Str) (hp : IsPath path) (p : Str) (h : p ≠ path) :
    (destroy d path).node p = d.node p := by
  unfold destroy
  split
  · exact delete_node d path hp p h
  · rfl

theorem write_file (d : Disk) (data path p old : Str) (hp : IsPath path) (h : d.node p = some (.file old)) :
    ∃ new, (writeStringToFile d data path).2.node p = some (.file new) := by
  have hc := (C107_crash_partial d data path hp)
  by_cases e : p = path
  · subst e
    rcases (hc.2 _ hc.1).2 with e | ⟨k, e⟩
    · exact ⟨old, by rw [e, h]⟩
    · exact ⟨_, e⟩
  · exact ⟨old, by rw [(hc.2 _ hc.1).1 p e, h]⟩

theorem Temps.make_none (t : Temps) (six : Str) (h : createNewTempFile t.disk six = none) : t.step (.make six) = t := by
  unfold Temps.step
  dsimp only
  rw [h]

theorem Temps.make_some (t : Temps) (six path : Str) (d : Disk) (h : createNewTempFile t.disk six = some (path, d)) :
    t.step (.make six) = ⟨d, t.made + 1, (t.made, path) :: t.live⟩ := by
  unfold Temps.step
  dsimp only
  rw [h]

theorem Temps.drop_none (t : Temps) (o : Nat) (h : t.live.find? (fun x => x.1 = o) = none) : t.step (.drop o) = t := by
  unfold Temps.step
  dsimp only
  rw [h]

theorem Temps.drop_some (t : Temps) (o : Nat) (x : Nat × Str) (h : t.live.find? (fun x => x.1 = o) = some x) :
    t.step (.drop o) = ⟨destroy t.disk x.2, t.made, t.live.filter fun y => y.1 ≠ o⟩ := by
  unfold Temps.step
  dsimp only
  rw [h]

theorem same_of_nodup {α β : Type} {f : α → β} {l : List α} (h : (l.map f).Nodup) {a b : α} (ha : a ∈ l) (hb : b ∈ l) (e : f a = f b) :
    a = b := by
  induction l with
  | nil => cases ha
  | cons x l ih =>
      rw [List.map_cons, List.nodup_cons] at h
      rcases List.mem_cons.1 ha with ha1 | ha1
      · rcases List.mem_cons.1 hb with hb1 | hb1
        · rw [ha1, hb1]
        · exact absurd (List.mem_map.2 ⟨b, hb1, by rw [← e, ha1]⟩) h.1
      · rcases List.mem_cons.1 hb with hb1 | hb1
        · exact absurd (List.mem_map.2 ⟨a, ha1, by rw [e, hb1]⟩) h.1
        · exact ih h.2 ha1 hb1

theorem Temps.right_step (t : Temps) (h : t.Right) (op : Op) (ha : t.Allowed op) : (t.step op).Right := by
  cases op with
  | make six =>
      cases hc : createNewTempFile t.disk six with
      | none => rw [t.make_none six hc]; exact h
      | some r =>
          rw [t.make_some six r.1 r.2 hc]
          unfold createNewTempFile at hc
          split at hc
          · rename_i hn
            cases hc
            have hnew : ∀ x ∈ t.live, x.2 ≠ chars! "/tmp/libkml" ++ six := by
              intro x hx e
              obtain ⟨data, hd⟩ := h.file x hx
              rw [e, hn.1] at hd
              cases hd
            refine ⟨?_, ?_, ?_, ?_, ?_⟩
            · rw [List.map_cons, List.nodup_cons]
              refine ⟨fun hm => ?_, h.names⟩
              obtain ⟨x, hx, e⟩ := List.mem_map.1 hm
              exact hnew x hx e
            · rw [List.map_cons, List.nodup_cons]
              refine ⟨fun hm => ?_, h.objects⟩
              obtain ⟨x, hx, e⟩ := List.mem_map.1 hm
              have := h.old x hx
              dsimp only at e
              omega
            · intro x hx
              rcases List.mem_cons.1 hx with rfl | hx
              · exact Nat.lt_succ_self _
              · exact Nat.lt_succ_of_lt (h.old x hx)
            · intro x hx
              rcases List.mem_cons.1 hx with rfl | hx
              · refine ⟨by simp, fun hm => ?_⟩
                rcases List.mem_append.1 hm with hm | hm
                · exact absurd hm (by decide)
                · exact ha hm
              · exact h.path x hx
            · intro x hx
              rcases List.mem_cons.1 hx with rfl | hx
              · exact ⟨[], put_same _ _ _⟩
              · obtain ⟨data, hd⟩ := h.file x hx
                exact ⟨data, by rw [← hd]; exact put_other _ _ _ (hnew x hx)⟩
          · cases hc
  | drop o =>
      cases hf : t.live.find? fun x => x.1 = o with
      | none => rw [t.drop_none o hf]; exact h
      | some y =>
          rw [t.drop_some o y hf]
          have hy := List.mem_of_find?_eq_some hf
          have hyo : y.1 = o := by simpa using List.find?_some hf
          refine ⟨?_, ?_, ?_, ?_, ?_⟩
          · exact h.names.sublist (List.filter_sublist.map _)
          · exact h.objects.sublist (List.filter_sublist.map _)
          · exact fun x hx => h.old x (List.mem_filter.1 hx).1
          · exact fun x hx => h.path x (List.mem_filter.1 hx).1
          · intro x hx
            obtain ⟨hx, hxo⟩ := List.mem_filter.1 hx
            obtain ⟨data, hd⟩ := h.file x hx
            refine ⟨data, ?_⟩
            rw [← hd]
            refine destroy_node _ _ (h.path y hy) _ fun e => ?_
            have hxy : x = y := same_of_nodup h.names hx hy e
            rw [hxy, hyo] at hxo
            simp at hxo
  | write data path =>
      exact ⟨h.names, h.objects, h.old, h.path, fun x hx => by
        obtain ⟨old, hd⟩ := h.file x hx
        exact write_file _ _ _ _ _ ha hd⟩
  | remove path =>
      exact ⟨h.names, h.objects, h.old, h.path, fun x hx => by
        obtain ⟨old, hd⟩ := h.file x hx
        exact ⟨old, by rw [← hd]; exact delete_node _ _ ha.1 _ (ha.2 x hx)⟩⟩

/-- C108: a temporary file is made where there was nothing, as an empty file, and all other files are as they were. -/
theorem C108_made (d d' : Disk) (six path : Str) (h : createNewTempFile d six = some (path, d')) :
    path = chars! "/tmp/libkml" ++ six ∧ d.node path = none ∧ d'.node path = some (.file []) ∧
    ∀ p, p ≠ path → d'.node p = d.node p := by
  unfold createNewTempFile at h
  split at h
  · rename_i hn
    cases h
    exact ⟨rfl, hn.1, put_same _ _ _, fun p hp => put_other _ _ _ hp⟩
  · cases h

/-- C108: after any history in which no file of a live `TempFile` is removed by another way, each live `TempFile` has a file, no two have
the same, and when the last pointer to one goes its file is removed, and no other. -/
theorem C108_history_partial (d : Disk) (ops : List Op) (hall : Temps.AllAllowed ⟨d, 0, []⟩ ops) :
    ((ops.foldl Temps.step ⟨d, 0, []⟩).live.map Prod.snd).Nodup ∧
    ∀ x ∈ (ops.foldl Temps.step ⟨d, 0, []⟩).live,
      (∃ data, (ops.foldl Temps.step ⟨d, 0, []⟩).disk.node x.2 = some (.file data)) ∧
      (∀ p, p ≠ x.2 → ((ops.foldl Temps.step ⟨d, 0, []⟩).step (.drop x.1)).disk.node p =
        (ops.foldl Temps.step ⟨d, 0, []⟩).disk.node p) ∧
      ((ops.foldl Temps.step ⟨d, 0, []⟩).disk.writable x.2 = true →
        ((ops.foldl Temps.step ⟨d, 0, []⟩).step (.drop x.1)).disk.node x.2 = none) := by
  have hr : (ops.foldl Temps.step ⟨d, 0, []⟩).Right := by
    have h0 : (Temps.mk d 0 []).Right := ⟨by simp, by simp, by simp, by simp, by simp⟩
    revert h0 hall
    generalize Temps.mk d 0 [] = t
    induction ops generalizing t with
    | nil => intro _ h; exact h
    | cons op ops ih => intro hall h; exact ih _ hall.2 (t.right_step h op hall.1)
  generalize ops.foldl Temps.step ⟨d, 0, []⟩ = t at hr
  refine ⟨hr.names, fun x hx => ⟨hr.file x hx, ?_⟩⟩
  have hf : t.live.find? (fun y => y.1 = x.1) = some x := by
    cases hf : t.live.find? (fun y => decide (y.1 = x.1)) with
    | none => exact absurd (List.find?_eq_none.1 hf x hx) (by simp)
    | some y =>
        have hy := List.mem_of_find?_eq_some hf
        have hyo : y.1 = x.1 := by simpa using List.find?_some hf
        rw [same_of_nodup hr.objects hy hx hyo]
  have hstep : (t.step (.drop x.1)).disk = destroy t.disk x.2 := by rw [t.drop_some x.1 x hf]
  rw [hstep]
  refine ⟨fun p hp => destroy_node _ _ (hr.path x hx) _ hp, fun hw => ?_⟩
  obtain ⟨data, hd⟩ := hr.file x hx
  unfold destroy fileExists delete
  rw [cstr_of_not_mem (hr.path x hx).2, hd]
  simp only [if_true, hw]
  exact put_same _ _ _

/-- C108 is false if the file of a `TempFile` is removed by another way: its name can be used again, and then the first object removes the
file of the second. -/
theorem C108_violated : ∃ (d : Disk) (ops : List Op), ∃ x ∈ (ops.foldl Temps.step ⟨d, 0, []⟩).live,
    (ops.foldl Temps.step ⟨d, 0, []⟩).disk.node x.2 = none :=
  ⟨{ node := fun _ => none, readable := fun _ => true, writable := fun _ => true, space := 9, bad := fun _ => none },
    [.make ['a'], .remove (chars! "/tmp/libkmla"), .make ['a'], .drop 0], (1, chars! "/tmp/libkmla"), by decide, by decide⟩

example : Temps.AllAllowed
    ⟨{ node := fun _ => none, readable := fun _ => true, writable := fun _ => true, space := 9, bad := fun _ => none }, 0, []⟩
    [.make ['a'], .make ['b'], .write ['x'] (chars! "/tmp/libkmla"), .drop 0] := by
  refine ⟨?_, ?_, ⟨?_, ?_⟩, trivial, trivial⟩
  · show '\x00' ∉ ['a']
    decide
  · show '\x00' ∉ ['b']
    decide
  · decide
  · decide

end Kml.Disk
