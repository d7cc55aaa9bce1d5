import Verif.Model.KmzObject
import Verif.Props.Unzip
import Verif.Props.StringUtil
/-! C117: what an archive opened or made says of itself after any history of calls. -/
namespace Kml.KmzObject
open Kml.Unzip Kml.Zip

theorem bound_ok {α β : Type} {x : Outcome α} {f : α → Outcome β} {b : β} :
    (x >>= f) = .ok b ↔ ∃ a, x = .ok a ∧ f a = .ok b := by
  cases x with
  | ok a => exact ⟨fun h => ⟨a, rfl, h⟩, fun ⟨_, h, k⟩ => by injection h with h; subst h; exact k⟩
  | throws => exact ⟨(fun h => nomatch h), (fun ⟨_, h, _⟩ => nomatch h)⟩
  | ub => exact ⟨(fun h => nomatch h), (fun ⟨_, h, _⟩ => nomatch h)⟩

/-- The limit last set in a history, `m` if none was. -/
def lastLimit (m : Nat) : List Call → Nat
  | [] => m
  | .setMax n :: cs => lastLimit n.toNat cs
  | _ :: cs => lastLimit m cs

theorem call_keeps (inf : Inflate) (cc : Bool) (o : Obj) (c : Call) (r : Ans × Obj) (h : call inf cc o c = .ok r) :
    r.2.data = o.data ∧ r.2.toc = o.toc ∧ r.2.max = lastLimit o.max [c] ∧ (o.writer = none → r.2.writer = none) := by
  cases c with
  | readKml =>
    unfold call at h
    dsimp only at h
    split at h
    · injection h with h; subst h; exact ⟨rfl, rfl, rfl, id⟩
    · obtain ⟨a, _, h⟩ := bound_ok.1 h
      injection h with h; subst h; exact ⟨rfl, rfl, rfl, id⟩
  | readFile p =>
    cases p with
    | none => exact nomatch h
    | some p =>
      obtain ⟨a, _, h⟩ := bound_ok.1 h
      injection h with h; subst h; exact ⟨rfl, rfl, rfl, id⟩
  | has p =>
    obtain ⟨a, _, h⟩ := bound_ok.1 h
    injection h with h; subst h; exact ⟨rfl, rfl, rfl, id⟩
  | list v => injection h with h; subst h; exact ⟨rfl, rfl, rfl, id⟩
  | save => injection h with h; subst h; exact ⟨rfl, rfl, rfl, id⟩
  | add d p =>
    injection h with h; subst h
    refine ⟨rfl, rfl, rfl, fun hw => ?_⟩
    show (ZipFile.addEntry o.writer d p).2 = none
    rw [hw]
    unfold ZipFile.addEntry
    split <;> rfl
  | setMax n => injection h with h; subst h; exact ⟨rfl, rfl, rfl, id⟩
  | getMax => injection h with h; subst h; exact ⟨rfl, rfl, rfl, id⟩

theorem run_keeps (inf : Inflate) (cc : Bool) : ∀ (cs : List Call) (o : Obj) (r : List Ans × Obj),
    run inf cc o cs = .ok r →
    r.2.data = o.data ∧ r.2.toc = o.toc ∧ r.2.max = lastLimit o.max cs ∧ (o.writer = none → r.2.writer = none)
  | [], o, r, h => by injection h with h; subst h; exact ⟨rfl, rfl, rfl, id⟩
  | c :: cs, o, r, h => by
    obtain ⟨a, ha, h⟩ := bound_ok.1 h
    obtain ⟨b, hb, h⟩ := bound_ok.1 h
    injection h with h
    subst h
    obtain ⟨h1, h2, h3, h4⟩ := call_keeps inf cc o c a ha
    obtain ⟨k1, k2, k3, k4⟩ := run_keeps inf cc cs a.2 b hb
    refine ⟨k1.trans h1, k2.trans h2, ?_, fun h => k4 (h4 h)⟩
    rw [k3, h3]
    cases c <;> rfl

/-- After any history of calls on an archive opened from bytes, `SaveToString` gives exactly these bytes, `List` the
names it gave at first, every `AddFile` is refused, the limit is the one last set, and every call answers as it would
on the archive opened anew with that limit. -/
theorem C117_opened (inf : Inflate) (cc : Bool) (d : Str) (o : Obj) (h : openFromString d = .ok (some o))
    (cs : List Call) (r : List Ans × Obj) (hr : run inf cc o cs = .ok r) :
    call inf cc r.2 .save = .ok (.text (some d), r.2) ∧
    (∃ t, Unzip.openFromString d = .ok (some t) ∧ call inf cc r.2 (.list []) = .ok (.names t, r.2)) ∧
    (∀ data path, call inf cc r.2 (.add data path) = .ok (.flag false, r.2)) ∧
    r.2 = { o with max := lastLimit 2147483647 cs } := by
  obtain ⟨t, ht, h⟩ := bound_ok.1 h
  cases t with
  | none => exact nomatch h
  | some t =>
    injection h with h
    injection h with h
    subst h
    obtain ⟨k1, k2, k3, k4⟩ := run_keeps inf cc cs _ r hr
    obtain ⟨l, ⟨rd, rt, rm, rw'⟩⟩ := r
    dsimp only at k1 k2 k3 k4
    subst k1 k2 k3
    have k5 := k4 rfl
    subst k5
    refine ⟨rfl, ⟨_, ht, rfl⟩, fun data path => ?_, rfl⟩
    show Outcome.ok _ = _
    unfold ZipFile.addEntry
    split <;> rfl

/-- The bytes saved, opened again, are the same archive: every history of calls gives the same answers. -/
theorem C117_again (inf : Inflate) (cc : Bool) (d : Str) (o : Obj) (h : openFromString d = .ok (some o))
    (before : List Call) (r : List Ans × Obj) (hr : run inf cc o before = .ok r) (saved : Str)
    (hs : call inf cc r.2 .save = .ok (.text (some saved), r.2)) :
    ∃ o', openFromString saved = .ok (some o') ∧ ∀ cs, run inf cc o' cs = run inf cc o cs := by
  rw [(C117_opened inf cc d o h before r hr).1] at hs
  injection hs with hs
  injection hs with hs _
  injection hs with hs
  injection hs with hs
  subst hs
  exact ⟨o, h, fun _ => rfl⟩

/-- What was set as the limit is the limit, until another is set. -/
theorem C117_limit (inf : Inflate) (cc : Bool) (o : Obj) (n : UInt32) (cs : List Call)
    (hcs : ∀ c ∈ cs, ∀ k, c ≠ .setMax k) (r : List Ans × Obj) (hr : run inf cc o (.setMax n :: cs) = .ok r) :
    call inf cc r.2 .getMax = .ok (.number n, r.2) := by
  have h := (run_keeps inf cc _ o r hr).2.2.1
  have e : ∀ (cs : List Call), (∀ c ∈ cs, ∀ k, c ≠ .setMax k) → ∀ m, lastLimit m cs = m := by
    intro cs
    induction cs with
    | nil => intro _ m; rfl
    | cons c cs ih =>
      intro hc m
      have hi := ih (fun c hm => hc c (List.mem_cons_of_mem _ hm)) m
      cases c with
      | setMax k => exact absurd rfl (hc _ List.mem_cons_self k)
      | _ => exact hi
  have h' : r.2.max = n.toNat := h.trans (e cs hcs _)
  show Outcome.ok (Ans.number (UInt32.ofNat r.2.max), r.2) = _
  rw [h', UInt32.ofNat_toNat]

/-- Nothing longer than the limit is given, and nothing of length 0. -/
theorem C117_within (inf : Inflate) (cc : Bool) (o o' : Obj) (path t : Str)
    (h : call inf cc o (.readFile (some path)) = .ok (.text (some t), o')) : path ∈ o.toc ∧ 0 < t.length ∧ t.length ≤ o.max := by
  obtain ⟨a, ha, h⟩ := bound_ok.1 h
  injection h with h
  injection h with h _
  injection h with h
  subst h
  unfold getEntry at ha
  split at ha
  · next hp =>
    refine ⟨hp, ?_⟩
    obtain ⟨u, _, ha⟩ := bound_ok.1 ha
    split at ha
    · exact nomatch ha
    obtain ⟨l, _, ha⟩ := bound_ok.1 ha
    split at ha
    · exact nomatch ha
    split at ha
    · exact nomatch ha
    obtain ⟨p, _, ha⟩ := bound_ok.1 ha
    split at ha
    · exact nomatch ha
    obtain ⟨i, _, ha⟩ := bound_ok.1 ha
    split at ha
    · exact nomatch ha
    split at ha
    · exact nomatch ha
    next i hi =>
    obtain ⟨x, _, ha⟩ := bound_ok.1 ha
    split at ha
    · split at ha
      · injection ha with ha
        injection ha with ha
        subst ha
        rw [List.length_take]
        omega
      · exact nomatch ha
    · exact nomatch ha
  · exact nomatch ha

/-- A file that is read is there: asked with NULL for the result, `ReadFile` says true. -/
theorem C117_there (inf : Inflate) (cc : Bool) (o o' : Obj) (path t : Str)
    (h : call inf cc o (.readFile (some path)) = .ok (.text (some t), o')) :
    call inf cc o (.has path) = .ok (.flag true, o) := by
  obtain ⟨a, ha, h⟩ := bound_ok.1 h
  injection h with h
  injection h with h _
  injection h with h
  subst h
  show hasEntry cc o.max o.data o.toc path >>= _ = _
  suffices hs : hasEntry cc o.max o.data o.toc path = .ok true by rw [hs]; rfl
  unfold getEntry at ha
  unfold hasEntry
  split at ha
  · next hp =>
    rw [if_pos hp]
    obtain ⟨u, hu, ha⟩ := bound_ok.1 ha
    rw [hu, Outcome.ok_bind]
    split at ha
    · exact nomatch ha
    dsimp only
    obtain ⟨l, hl, ha⟩ := bound_ok.1 ha
    rw [hl, Outcome.ok_bind]
    split at ha
    · exact nomatch ha
    dsimp only
    split at ha
    · exact nomatch ha
    next hc =>
    rw [hc]
    dsimp only
    obtain ⟨p, hp, ha⟩ := bound_ok.1 ha
    rw [hp, Outcome.ok_bind]
    split at ha
    · exact nomatch ha
    dsimp only
    obtain ⟨i, hi, ha⟩ := bound_ok.1 ha
    rw [hi, Outcome.ok_bind]
    split at ha
    · exact nomatch ha
    dsimp only
    split at ha
    · exact nomatch ha
    next hn => simp [hn]
  · exact nomatch ha

/-- The file has a size, written in the archive, and is there exactly under limits of at least that size, or it is
not there under any limit (it is not listed, damaged or empty). -/
theorem C117_size (inf : Inflate) (cc : Bool) (o : Obj) (path : Str) (b : Bool)
    (h : call inf cc o (.has path) = .ok (.flag b, o)) :
    (∃ size, 0 < size ∧ ∀ m, call inf cc { o with max := m } (.has path) =
      .ok (.flag (decide (size ≤ m)), { o with max := m })) ∨
    ∀ m, call inf cc { o with max := m } (.has path) = .ok (.flag false, { o with max := m }) := by
  obtain ⟨a, ha, h⟩ := bound_ok.1 h
  clear h
  suffices hs : (∃ size, 0 < size ∧ ∀ m, hasEntry cc m o.data o.toc path = .ok (decide (size ≤ m))) ∨
      ∀ m, hasEntry cc m o.data o.toc path = .ok false by
    rcases hs with ⟨n, hn, hs⟩ | hs
    · refine .inl ⟨n, hn, fun m => ?_⟩
      show hasEntry cc m o.data o.toc path >>= _ = _
      rw [hs]; rfl
    · refine .inr fun m => ?_
      show hasEntry cc m o.data o.toc path >>= _ = _
      rw [hs]; rfl
  unfold hasEntry at ha ⊢
  split at ha
  case isFalse hp => exact .inr fun m => by rw [if_neg hp]
  case isTrue hp =>
  simp only [if_pos hp]
  obtain ⟨u, hu, ha⟩ := bound_ok.1 ha
  rw [hu]
  simp only [Outcome.ok_bind]
  split at ha
  · exact .inr fun _ => rfl
  obtain ⟨l, hl, ha⟩ := bound_ok.1 ha
  rw [hl]
  simp only [Outcome.ok_bind]
  split at ha
  · exact .inr fun _ => rfl
  try dsimp only
  split at ha
  · exact .inr fun _ => rfl
  try dsimp only
  obtain ⟨p, hp, ha⟩ := bound_ok.1 ha
  rw [hp]
  simp only [Outcome.ok_bind]
  split at ha
  · exact .inr fun _ => rfl
  try dsimp only
  obtain ⟨i, hi, ha⟩ := bound_ok.1 ha
  rw [hi]
  simp only [Outcome.ok_bind]
  split at ha
  · exact .inr fun _ => rfl
  next i =>
  try dsimp only
  by_cases hz : i.1.usize = 0
  · exact .inr fun m => by simp [hz]
  · exact .inl ⟨i.1.usize, Nat.pos_of_ne_zero hz, fun m => congrArg Outcome.ok (by
      by_cases hm : i.1.usize ≤ m
      · simp [hz, hm]
      · simp [hm]; omega)⟩

/-- `ReadKmlAndGetPath` reads the first file listed whose name ends with ".kml", and gives its name; if there is none
it says false. -/
theorem C117_kml (inf : Inflate) (cc : Bool) (o : Obj) :
    (∃ pre name post, o.toc = pre ++ name :: post ∧ ['.', 'k', 'm', 'l'] <:+ name ∧
      (∀ x ∈ pre, ¬ ['.', 'k', 'm', 'l'] <:+ x) ∧
      (∀ t, call inf cc o (.readFile (some name)) = .ok (.text (some t), o) →
        call inf cc o .readKml = .ok (.named (some (t, name)), o)) ∧
      (call inf cc o (.readFile (some name)) = .ok (.text none, o) → call inf cc o .readKml = .ok (.named none, o)) ∧
      (call inf cc o (.readFile (some name)) = .ub → call inf cc o .readKml = .ub)) ∨
    ((∀ x ∈ o.toc, ¬ ['.', 'k', 'm', 'l'] <:+ x) ∧ call inf cc o .readKml = .ok (.named none, o)) := by
  have he : ∀ x, StringUtil.stringEndsWith x ".kml".toList = true ↔ ['.', 'k', 'm', 'l'] <:+ x := by
    intro x
    rw [StringUtil.C08_ends_with]
    refine ⟨fun h => h.2.2, fun h => ⟨fun hx => ?_, by decide, h⟩⟩
    subst hx
    exact absurd (List.suffix_nil.1 h) (by decide)
  cases hf : o.toc.find? fun n => StringUtil.stringEndsWith n ".kml".toList with
  | none =>
    refine .inr ⟨fun x hx h => ?_, ?_⟩
    · exact absurd ((he x).2 h) (by simpa using List.find?_eq_none.1 hf x hx)
    · unfold call
      dsimp only
      rw [hf]
  | some name =>
    obtain ⟨hn, pre, post, hsplit, hpre⟩ := List.find?_eq_some_iff_append.1 hf
    have hc : call inf cc o .readKml = Unzip.getEntry inf cc o.max o.data o.toc name >>= fun t =>
        .ok (.named (t.map fun t => (t, name)), o) := by
      unfold call
      dsimp only
      rw [hf]
    have hr : call inf cc o (.readFile (some name)) = Unzip.getEntry inf cc o.max o.data o.toc name >>= fun t =>
        .ok (.text t, o) := rfl
    refine .inl ⟨pre, name, post, hsplit, (he name).1 hn, fun x hx h => ?_, ?_⟩
    · have := hpre x hx
      rw [(he x).2 h] at this
      exact absurd this (by decide)
    · rw [hc, hr]
      cases getEntry inf cc o.max o.data o.toc name with
      | ok a =>
        refine ⟨fun t h => ?_, fun h => ?_, fun h => nomatch h⟩
        · injection h with h
          injection h with h _
          injection h with h
          subst h; rfl
        · injection h with h
          injection h with h _
          injection h with h
          subst h; rfl
      | throws => exact ⟨(fun _ h => nomatch h), (fun h => nomatch h), (fun h => nomatch h)⟩
      | ub => exact ⟨(fun _ h => nomatch h), (fun h => nomatch h), (fun _ => rfl)⟩

/-- Violated: what is there need not be readable.  The bytes of this file are not what zlib takes. -/
theorem C117_there_violated : ∃ (inf : Inflate) (d : Str) (o : Obj), inf.Lawful ∧ openFromString d = .ok (some o) ∧
    call inf true o (.has ['a']) = .ok (.flag true, o) ∧
    call inf true o (.readFile (some ['a'])) = .ok (.text none, o) :=
  ⟨refuses, archive [simple ['a'] ['b'] 8 5 0] [], ⟨archive [simple ['a'] ['b'] 8 5 0] [], [['a']], 2147483647, none⟩,
    (by
      intro st inp room _
      refine ⟨Nat.zero_le _, Nat.zero_le _, fun h => ?_, fun _ _ => ?_⟩
      · exact absurd (show (-3 : Int) = 0 from h) (by decide)
      · show (-3 : Int) < 0
        decide),
    by decide +kernel, by decide +kernel, by decide +kernel⟩

/-- `List` gives the same whatever was in the vector. -/
theorem C117_list (inf : Inflate) (cc : Bool) (o : Obj) (v : List Str) :
    call inf cc o (.list v) = call inf cc o (.list []) := rfl

/-- Violated: kmz_file.h says that the vector "is not cleared, only appended to"; what was in it is lost. -/
theorem C117_append_violated : ∃ (d : Str) (o : Obj), openFromString d = .ok (some o) ∧ ∃ t, t ≠ [] ∧
    (∀ inf cc, call inf cc o (.list []) = .ok (.names t, o)) ∧
    ∀ inf cc v, v ≠ [] → call inf cc o (.list v) ≠ .ok (.names (v ++ t), o) :=
  ⟨two, ⟨two, [['a'], ['d', '/', 'e']], 2147483647, none⟩, by decide +kernel, [['a'], ['d', '/', 'e']],
    List.cons_ne_nil _ _, fun _ _ => rfl, fun _ _ v hv h => by
      injection h with h
      injection h with h _
      injection h with h
      exact hv (List.append_left_eq_self.1 h.symm)⟩

/-- The full claim for an archive being made would be that it lists, reads and saves what was added to it.  It does
none of these: after any history of calls `List` gives no names, no file and no KML is read whatever was added, and
`SaveToString` says true and gives no bytes, so that what was saved cannot be opened. -/
theorem C117_created_violated (inf : Inflate) (cc : Bool) (cs : List Call) (r : List Ans × Obj)
    (hr : run inf cc created cs = .ok r) :
    call inf cc r.2 (.list []) = .ok (.names [], r.2) ∧
    (∀ path, call inf cc r.2 (.readFile (some path)) = .ok (.text none, r.2)) ∧
    call inf cc r.2 .readKml = .ok (.named none, r.2) ∧
    call inf cc r.2 .save = .ok (.text (some []), r.2) ∧ openFromString [] = .ok none := by
  obtain ⟨k1, k2, k3, k4⟩ := run_keeps inf cc cs _ r hr
  obtain ⟨l, ⟨rd, rt, rm, rw'⟩⟩ := r
  dsimp only at k1 k2 k3 k4
  subst k1 k2 k3
  exact ⟨rfl, fun _ => rfl, rfl, rfl, rfl⟩

/-- The path begins at the root, or above the directory of the archive. -/
def Outside (path : Str) : Prop := ['/'] <+: path ∨ ['\\'] <+: path ∨ ['.', '.'] <+: path

theorem refused_iff (path : Str) : ZipFile.pathRefused path = true ↔ Outside path := by
  unfold Outside
  match path with
  | [] => decide
  | [a] => simp [ZipFile.pathRefused, List.cons_prefix_cons, @eq_comm _ _ a]
  | a :: b :: l => simp [ZipFile.pathRefused, List.cons_prefix_cons, @eq_comm _ _ a, @eq_comm _ _ b, or_assoc]

/-- The files of a history of calls: those added under paths that are not outside. -/
noncomputable def filesAdded : List Call → List (Str × Str)
  | [] => []
  | .add data path :: cs => open Classical in if Outside path then filesAdded cs else (path, data) :: filesAdded cs
  | _ :: cs => filesAdded cs

/-- What is written through an archive being made is, in order, what was added under paths that are not outside,
whatever else was called in between, and `AddFile` says which. -/
theorem C117_added (inf : Inflate) (cc : Bool) (cs : List Call) (r : List Ans × Obj)
    (hr : run inf cc created cs = .ok r) :
    r.2.writer = some (filesAdded cs) ∧
    ∀ data path, ∃ b o, call inf cc r.2 (.add data path) = .ok (.flag b, o) ∧ (b = true ↔ ¬ Outside path) := by
  have key : ∀ (cs : List Call) (o : Obj) (w : List ZipFile.Entry), o.writer = some w → ∀ r, run inf cc o cs = .ok r →
      r.2.writer = some (w ++ filesAdded cs) := by
    intro cs
    induction cs with
    | nil => intro o w hw r hr; injection hr with hr; subst hr; simpa [filesAdded] using hw
    | cons c cs ih =>
      intro o w hw r hr
      obtain ⟨a, ha, hr⟩ := bound_ok.1 hr
      obtain ⟨b, hb, hr⟩ := bound_ok.1 hr
      injection hr with hr
      subst hr
      cases c with
      | add data path =>
        injection ha with ha
        subst ha
        have e : (ZipFile.addEntry o.writer data path).2 =
            some (if ZipFile.pathRefused path then w else w ++ [(path, data)]) := by
          rw [hw]; unfold ZipFile.addEntry; split <;> rfl
        have := ih _ _ e b hb
        rw [this, filesAdded]
        by_cases hp : ZipFile.pathRefused path = true
        · rw [if_pos hp, if_pos ((refused_iff path).1 hp)]
        · rw [if_neg hp, if_neg (fun h => hp ((refused_iff path).2 h))]; simp
      | readKml =>
        refine ih a.2 w ?_ b hb
        unfold call at ha
        dsimp only at ha
        split at ha
        · injection ha with ha; subst ha; exact hw
        · obtain ⟨x, _, ha⟩ := bound_ok.1 ha
          injection ha with ha; subst ha; exact hw
      | readFile p =>
        cases p with
        | none => exact nomatch ha
        | some p =>
          obtain ⟨x, _, ha⟩ := bound_ok.1 ha
          injection ha with ha; subst ha
          exact ih o w hw b hb
      | has p =>
        obtain ⟨x, _, ha⟩ := bound_ok.1 ha
        injection ha with ha; subst ha
        exact ih o w hw b hb
      | list v => injection ha with ha; subst ha; exact ih o w hw b hb
      | save => injection ha with ha; subst ha; exact ih o w hw b hb
      | getMax => injection ha with ha; subst ha; exact ih o w hw b hb
      | setMax n => injection ha with ha; subst ha; exact ih { o with max := n.toNat } w hw b hb
  have hw : r.2.writer = some (filesAdded cs) := by simpa using key cs created [] rfl r hr
  refine ⟨hw, fun data path => ⟨_, _, rfl, ?_⟩⟩
  rw [← refused_iff, hw]
  unfold ZipFile.addEntry
  split <;> simp_all

example : openFromString two = .ok (some ⟨two, [['a'], ['d', '/', 'e']], 2147483647, none⟩) := by decide +kernel

example : run refuses true ⟨two, [['a'], ['d', '/', 'e']], 2147483647, none⟩
    [.readFile (some ['a']), .setMax 1, .has ['d', '/', 'e'], .add ['x'] ['y'], .readKml, .getMax] =
    .ok ([.text (some ['b']), .nothing, .flag false, .flag false, .named none, .number 1],
      ⟨two, [['a'], ['d', '/', 'e']], 1, none⟩) := by decide +kernel

example : run refuses true created [.add ['x'] ['y'], .add ['x'] ['/', 'y'], .list [], .readFile (some ['y']), .save] =
    .ok ([.flag true, .flag false, .names [], .text none, .text (some [])],
      ⟨[], [], 2147483647, some [(['y'], ['x'])]⟩) := by decide +kernel

example : call refuses true ⟨two, [['a'], ['d', '/', 'e']], 2, none⟩ (.has ['d', '/', 'e']) =
    .ok (.flag true, ⟨two, [['a'], ['d', '/', 'e']], 2, none⟩) := by decide +kernel

end Kml.KmzObject
