import Verif.Spec.KmzWrite
import Verif.Props.RoundTrip
import Verif.Props.Links
import Verif.Props.Kmz
/-! Property C96: archives made from KML. -/
namespace Kml.Dom
open Kml Kml.ZipFile

/-- The name of the KML file is accepted and ends in `.kml`. -/
theorem default_name : pathRefused defaultName = false ∧ StringUtil.stringEndsWith defaultName ".kml".toList = true ∧
    defaultName.length < 256 := by decide +kernel

theorem add_default (kml : Str) : addEntry (some []) kml defaultName = (true, some [(defaultName, kml)]) := by
  unfold addEntry
  rw [default_name.1]
  rfl

/-- The KML file of an archive that begins with one. -/
theorem read_default (w : Kmz.World) (kml : Str) (more : List Entry) (h : kml ≠ []) (hm : kml.length ≤ w.max) :
    readKml w ((defaultName, kml) :: more) = some kml := by
  have hl : kml.length ≠ 0 := fun e => h (List.length_eq_zero_iff.1 e)
  unfold readKml Kmz.readKmlAndGetPath findFirstOf getToc
  rw [List.map_cons, List.find?_cons_of_pos (p := fun n => StringUtil.stringEndsWith n ".kml".toList) default_name.2.1]
  dsimp only
  unfold getEntry isInToc getToc locate
  rw [if_neg (Nat.not_le.2 default_name.2.2), List.find?_cons_of_pos (by cases w.caseCounts <;> simp)]
  simp [h, Nat.not_lt.2 hm]

/-- **C96, archives of one text.** `WriteKmz` makes, where a file can be made, an archive with one file, and what `CreateFromParse`
finds in its bytes is what it finds in the text, for every text that is neither empty nor larger than a file of an archive may be
nor itself begins like an archive; `ReadKml` gives the text. -/
theorem C96_text (n : NumLib) (xml : Str → Option (List Ev)) (m : Maker) (w : Kmz.World) (path kml : Str)
    (hc : m.canCreate path = true) (h : kml ≠ []) (hm : kml.length ≤ w.max)
    (hpk : ¬ ['P', 'K', '\x03', '\x04'] <+: kml) :
    ∃ es, writeKmz m path kml = (true, some es) ∧ es.map (·.1) = ["doc.kml".toList] ∧ readKml w es = some kml ∧
      createFromParse n xml w (.archive es) = createFromParse n xml w (.text kml) := by
  refine ⟨[(defaultName, kml)], ?_, rfl, read_default w kml [] h hm, ?_⟩
  · unfold writeKmz
    rw [if_pos hc, add_default]
  · unfold createFromParse
    have h1 : isKmz (.archive [(defaultName, kml)]) = true := rfl
    have h2 : isKmz (.text kml) = false := by
      unfold isKmz
      rw [decide_eq_false_iff_not]
      intro he
      exact hpk ⟨kml.drop 4, by rw [← he]; exact List.take_append_drop 4 kml⟩
    rw [if_pos h1, h2]
    have h3 : (openKmzBytes (.archive [(defaultName, kml)])).bind (readKml w) = some kml := by
      have : openKmzBytes (.archive [(defaultName, kml)]) = some [(defaultName, kml)] := rfl
      rw [this]
      exact read_default w kml [] h hm
    rw [h3]
    simp

/-- What the file that is parsed has for a root. -/
theorem parseFile_of_parse {n : NumLib} {evs : List Ev} {o : Option Elem}
    (h : parseEvents n [] () evs = .ok (o, ())) : ∃ s, parseFile n evs = .ok (o, s) := by
  obtain ⟨l, hl, _⟩ := ((parse_heard nobody (fun _ _ => rfl) () evs).1 _ _).1 h
  obtain ⟨s, hs⟩ := takeIn_total fileStep_isSome FileState.init l
  exact ⟨s, ((parse_heard file_listens fileStep_isSome _ evs).1 _ _).2 ⟨l, hl, hs⟩⟩

/-- A canonical element is written as a text that is not empty and that is read as the element. -/
theorem written_reads {n : NumLib} {e : Elem} (h : Canonical n true 100 none e) :
    ∃ text evs s, serializePretty e = .ok text ∧ text ≠ [] ∧ xmlReader text = some evs ∧ parseFile n evs = .ok (some e, s) := by
  have hr := C30_pretty_partial n e h
  unfold reread at hr
  cases hs : serialize ['\n'] (chars! "  ") e with
  | throws => rw [hs] at hr; cases hr
  | ub => rw [hs] at hr; cases hr
  | ok text =>
    rw [hs] at hr
    simp only [Outcome.ok_bind] at hr
    cases hx : readXml text with
    | none => rw [hx] at hr; cases hr
    | some evs =>
      rw [hx] at hr
      dsimp only at hr
      cases hp : parseEvents n [] () (rootEvents evs) with
      | throws => rw [hp] at hr; cases hr
      | ub => rw [hp] at hr; cases hr
      | ok r =>
        rw [hp, Outcome.ok_bind] at hr
        obtain ⟨o, u⟩ := r
        simp only [Outcome.ok.injEq] at hr
        subst hr
        obtain ⟨s, hs'⟩ := parseFile_of_parse hp
        refine ⟨text, rootEvents evs, s, hs, ?_, ?_, hs'⟩
        · rintro rfl
          have he : readXml [] = some [] := rfl
          rw [he] at hx
          cases hx
          have : parseEvents n ([] : List (Observer Unit)) () (rootEvents []) = .ok (none, ()) := rfl
          rw [this] at hp
          cases hp
        · unfold xmlReader
          rw [hx]
          rfl

/-- The links of what is parsed. -/
theorem links_of_parseFile {n : NumLib} {evs : List Ev} {e : Elem} {s : FileState} (h : parseFile n evs = .ok (some e, s)) :
    ∃ links, getLinks n evs = .ok (true, links) := by
  obtain ⟨made, given, hs⟩ := (C29_file_watches n evs (some e)).1 ⟨s, h⟩
  exact ⟨_, (C56_told n evs true _).2 ⟨some e, made, given, hs, rfl, rfl⟩⟩

theorem keepRelative_total (links : List Str) : ∃ r, keepRelative links = .ok r := by
  induction links with
  | nil => exact ⟨[], rfl⟩
  | cons l ls ih =>
    obtain ⟨r, hr⟩ := ih
    obtain ⟨u, hu⟩ := Uri.C44_never_throws l
    refine ⟨if u.isRelativePath then l :: r else r, ?_⟩
    unfold keepRelative
    rw [hu, Outcome.ok_bind, hr, Outcome.ok_bind]

/-- The archive made from an element whose text has links. -/
theorem made_from {n : NumLib} {xml : Str → Option (List Ev)} {m : Maker} {e : Elem} {base path text : Str} {links : List Str}
    (hp : path ≠ []) (hc : m.canCreate path = true) (ht : serializePretty e = .ok text)
    (hl : getRelativeLinks n xml text = .ok (some links)) :
    createFromElement n xml m (some e) base path =
      .ok (true, (Kmz.addFileList m.norm m.disk base links [] (some [(defaultName, text)])).2) := by
  unfold createFromElement
  have ht' : prettyOf (some e) = .ok text := ht
  rw [if_neg hp, if_pos hc, ht', Outcome.ok_bind, hl, Outcome.ok_bind, add_default]

/-- **C96, nothing lost.** For every canonical element without text of its own, nested at most 100 deep, whose text is not larger
than a file of an archive may be: `CreateFromElement` succeeds where a file can be made, and reading the bytes of the archive
gives a file whose root is the same element, with the same attributes and children all the way down.

Missing from the full property: elements that are not canonical, for which it is false in general (C30). -/
theorem C96_round_partial (n : NumLib) (m : Maker) (w : Kmz.World) (e : Elem) (base path : Str)
    (h : Canonical n true 100 none e) (hp : path ≠ []) (hc : m.canCreate path = true)
    (hm : ∀ text, serializePretty e = .ok text → text.length ≤ w.max) :
    ∃ es s, createFromElement n xmlReader m (some e) base path = .ok (true, some es) ∧
      createFromParse n xmlReader w (.archive es) = .ok (some (e, s)) := by
  obtain ⟨text, evs, s, ht, hne, hx, hf⟩ := written_reads h
  obtain ⟨links, hl⟩ := links_of_parseFile hf
  obtain ⟨rel, hr⟩ := keepRelative_total links
  have hg : getRelativeLinks n xmlReader text = .ok (some rel) := by
    unfold getRelativeLinks linksOfText
    rw [hx]
    dsimp only
    rw [hl, Outcome.ok_bind]
    simp only [if_true, Outcome.ok_bind, hr]
  obtain ⟨new, _, ha, _⟩ := Kmz.C47_adds_each_once m.norm m.disk base rel [(defaultName, text)]
  refine ⟨[(defaultName, text)] ++ new, s, ?_, ?_⟩
  · rw [made_from hp hc ht hg, ha]
  · unfold createFromParse
    have h1 : isKmz (.archive ([(defaultName, text)] ++ new)) = true := rfl
    have h2 : openKmzBytes (.archive ([(defaultName, text)] ++ new)) = some ((defaultName, text) :: new) := rfl
    rw [if_pos h1, h2, Option.bind_some, read_default w text new hne (hm text ht)]
    dsimp only
    unfold parseFromString
    rw [hx]
    dsimp only
    rw [hf, Outcome.ok_bind]
    rfl

/-- **C96, the files.** The archive made from an element has first `doc.kml`, the element as `SerializePretty` writes it.  After
that it has, once each, exactly the files of the links of the document that have no scheme and lie below the base, where there is
such a file.  Links that begin with `://` are not considered. -/
theorem C96_files (n : NumLib) (xml : Str → Option (List Ev)) (m : Maker) (e : Elem) (base path text : Str) (links : List Str)
    (hp : path ≠ []) (hc : m.canCreate path = true) (ht : serializePretty e = .ok text)
    (hl : linksOfText n xml text = .ok (some links)) (hb : ∀ l ∈ links, ¬ [':', '/', '/'] <+: l) :
    ∃ files, createFromElement n xml m (some e) base path = .ok (true, some (("doc.kml".toList, text) :: files)) ∧
      (files.map (·.1)).Nodup ∧ ∀ f, f ∈ files ↔ ArchivedFor m base links f.1 f.2 := by
  obtain ⟨p, hpp, hg⟩ := C80_relative n xml text links hl hb
  obtain ⟨new, _, ha, hd, hn, _⟩ := Kmz.C47_adds_each_once m.norm m.disk base (links.filter p) [(defaultName, text)]
  refine ⟨new, ?_, hd, ?_⟩
  · rw [made_from hp hc ht hg, ha]
    rfl
  · intro f
    rw [hn]
    unfold ArchivedFor Kmz.Archivable
    refine and_congr_left' ?_
    constructor
    · rintro ⟨l, hlm, hln⟩
      obtain ⟨hl1, hl2⟩ := List.mem_filter.1 hlm
      obtain ⟨hs, hf⟩ := (hpp l hl1).1 hl2
      obtain ⟨frag, hu⟩ := path_noScheme hs
      unfold Kmz.archiveName at hln
      rw [hu] at hln
      dsimp only at hln
      cases hno : m.norm (filePart l) with
      | none => rw [hno] at hln; cases hln
      | some name =>
        rw [hno] at hln
        dsimp only at hln
        split at hln
        · cases hln
        · rename_i hdots
          cases hln
          refine ⟨l, hl1, hs, hf, hno, ?_⟩
          rintro ⟨t, ht⟩
          exact hdots (by rw [← ht]; rfl)
    · rintro ⟨l, hl1, hs, hf, hno, hdots⟩
      refine ⟨l, List.mem_filter.2 ⟨hl1, (hpp l hl1).2 ⟨hs, hf⟩⟩, ?_⟩
      obtain ⟨frag, hu⟩ := path_noScheme hs
      unfold Kmz.archiveName
      rw [hu]
      dsimp only
      rw [hno]
      dsimp only
      rw [if_neg]
      intro ht
      exact hdots ⟨f.1.drop 2, by rw [← ht]; exact List.take_append_drop 2 f.1⟩

/-- **C96, the files can be read.** A file of an archive whose names are all different, that is not empty, not larger than a file
may be and has a name of less than 256 characters, is read by its name where letter case counts. -/
theorem C96_read_file (max : Nat) (es : List Entry) (f : Entry) (hd : (es.map (·.1)).Nodup) (hf : f ∈ es)
    (hn : f.1.length < 256) (hne : f.2 ≠ []) (hm : f.2.length ≤ max) : getEntry true max es f.1 = some f.2 := by
  have hl : f.2.length ≠ 0 := fun e => hne (List.length_eq_zero_iff.1 e)
  have hfind : es.find? (fun e => decide (e.1 = f.1)) = some f := by
    clear hne hm hl hn
    induction es with
    | nil => cases hf
    | cons e es ih =>
      rw [List.map_cons, List.nodup_cons] at hd
      rcases List.mem_cons.1 hf with rfl | hf
      · rw [List.find?_cons_of_pos (by simp)]
      · rw [List.find?_cons_of_neg, ih hd.2 hf]
        intro he
        exact hd.1 (of_decide_eq_true he ▸ List.mem_map_of_mem hf)
  unfold getEntry isInToc getToc locate
  rw [if_pos (List.any_eq_true.2 ⟨f.1, List.mem_map_of_mem hf, by simp⟩), if_neg (Nat.not_le.2 hn)]
  simp only [if_true]
  rw [hfind]
  simp [hne, Nat.not_lt.2 hm]

/-- **C96, refusals.** Without a path, or where no file can be made, archives are refused, and nothing is left; so they are for a
KML file that cannot be read. -/
theorem C96_refused (n : NumLib) (xml : Str → Option (List Ev)) (m : Maker) (e : Option Elem) (base kmlPath path : Str) :
    ((path = [] ∨ m.canCreate path = false) → createFromElement n xml m e base path = .ok (false, none)) ∧
    ((path = [] ∨ kmlPath = [] ∨ m.disk kmlPath = none) → createFromKmlFilepath n xml m kmlPath path = .ok (false, none)) ∧
    ∀ kml, m.canCreate path = false → writeKmz m path kml = (false, none) := by
  refine ⟨?_, ?_, ?_⟩
  · intro h
    unfold createFromElement
    by_cases hp : path = []
    · rw [if_pos hp]
    · rw [if_neg hp, h.resolve_left hp]
      simp
  · intro h
    unfold createFromKmlFilepath
    by_cases hp : path = [] ∨ kmlPath = []
    · rw [if_pos hp]
    · rw [if_neg hp]
      have : m.disk kmlPath = none := by
        rcases h with h | h | h
        · exact absurd (.inl h) hp
        · exact absurd (.inr h) hp
        · exact h
      rw [this]
  · intro kml h
    unfold writeKmz
    rw [h]
    simp

/-- **C96, from a KML file on disk.** Where the KML file can be read and has a canonical root, and a file can be made, the archive
made from it, read again, has the same root, and its other files are looked for beside the KML file.

Missing from the full property: files that cannot be parsed, for which it is false (`C96_null_violated`), and roots that are not
canonical. -/
theorem C96_filepath_partial (n : NumLib) (m : Maker) (w : Kmz.World) (e : Elem) (s : FileState) (kmlPath path kml : Str)
    (hk : kmlPath ≠ []) (hp : path ≠ []) (hd : m.disk kmlPath = some kml)
    (hf : parseFromString n xmlReader kml = .ok (some (e, s)))
    (h : Canonical n true 100 none e) (hc : m.canCreate path = true)
    (hm : ∀ text, serializePretty e = .ok text → text.length ≤ w.max) :
    createFromKmlFilepath n xmlReader m kmlPath path =
        createFromElement n xmlReader m (some e) (StringUtil.splitFilePath kmlPath).1 path ∧
      ∃ es s', createFromKmlFilepath n xmlReader m kmlPath path = .ok (true, some es) ∧
        createFromParse n xmlReader w (.archive es) = .ok (some (e, s')) := by
  have key : createFromKmlFilepath n xmlReader m kmlPath path =
      createFromElement n xmlReader m (some e) (StringUtil.splitFilePath kmlPath).1 path := by
    unfold createFromKmlFilepath
    rw [if_neg (by simp [hp, hk]), hd]
    dsimp only
    rw [hf, Outcome.ok_bind]
    rfl
  refine ⟨key, ?_⟩
  rw [key]
  exact C96_round_partial n m w e _ path h hp hc hm

/-! ### Cases -/

/-- A disk with the files `d/a.png` and `d/doc.kml`, and `d/x.txt`, which is not KML. -/
def smallDisk : Maker where
  canCreate _ := true
  norm := some
  disk p := if p = chars! "d/a.png" then some (chars! "PNG") else if p = chars! "d/doc.kml" then some (chars! "other") else
    if p = chars! "d/x.txt" then some (chars! "no") else none

/-- An overlay with a link. -/
def linking (href : Str) : Elem :=
  .node Ty.«GroundOverlay» .empty (setSlot (fun _ => []) M.«icon»
    [.node Ty.«Icon» .empty (setSlot (fun _ => []) M.«href» [.field Ty.«href» href]) [] []]) [] []

/-- What is left after making an archive, without contents. -/
def leftBy (o : Outcome (Bool × Option (List Entry))) : Option (Bool × List (Str × Nat)) :=
  match o with
  | .ok (b, some es) => some (b, es.map fun f => (f.1, f.2.length))
  | _ => none

/-- The picture of an overlay is archived with it. -/
example : leftBy (createFromElement NumLib.integers xmlReader smallDisk (some (linking (chars! "a.png"))) ['d'] ['k']) =
    some (true, [(chars! "doc.kml", 75), (chars! "a.png", 3)]) := by decide +kernel

/-- The hypotheses of `C96_round_partial` are met. -/
example : Canonical NumLib.integers true 100 none cPlacemark ∧ smallDisk.canCreate ['k'] = true :=
  ⟨cPlacemark_canonical true, rfl⟩

/-- **C96 fails: files that are not KML.** Asked to make an archive from a file that is not KML, `CreateFromKmlFilepath` follows a
NULL pointer. -/
theorem C96_null_violated :
    createFromKmlFilepath NumLib.integers xmlReader smallDisk (chars! "d/x.txt") ['k'] = .ub := by decide +kernel

/-- **C96 fails: missing files.** The archive is said to have been made although the file of a link is not in it. -/
theorem C96_missing_violated :
    leftBy (createFromElement NumLib.integers xmlReader smallDisk (some (linking (chars! "b.png"))) ['d'] ['k']) =
      some (true, [(chars! "doc.kml", 75)]) := by decide +kernel

/-- **C96 fails: nothing.** An archive is said to have been made from no element; nothing can be read from it. -/
theorem C96_nothing_violated (w : Kmz.World) :
    createFromElement NumLib.integers xmlReader smallDisk none ['d'] ['k'] = .ok (true, some [(chars! "doc.kml", [])]) ∧
    createFromParse NumLib.integers xmlReader w (.archive [(chars! "doc.kml", [])]) = .ok none := by
  constructor
  · rfl
  · obtain ⟨net, o, c, max⟩ := w
    cases c <;> rfl

/-- **C96 fails: a link to `doc.kml`.** The file of a link to `doc.kml` is archived under the name of the KML file itself, and reading
that name does not give it. -/
theorem C96_doc_violated :
    leftBy (createFromElement NumLib.integers xmlReader smallDisk (some (linking (chars! "doc.kml"))) ['d'] ['k']) =
      some (true, [(chars! "doc.kml", 77), (chars! "doc.kml", 5)]) ∧
    ∀ max kml other, (kml : Str) ≠ [] → kml.length ≤ max →
      getEntry true max [(chars! "doc.kml", kml), (chars! "doc.kml", other)] (chars! "doc.kml") = some kml := by
  constructor
  · decide +kernel
  · intro max kml other h hm
    have hl : kml.length ≠ 0 := fun e => h (List.length_eq_zero_iff.1 e)
    unfold getEntry isInToc getToc locate
    simp [h, Nat.not_lt.2 hm]

end Kml.Dom
