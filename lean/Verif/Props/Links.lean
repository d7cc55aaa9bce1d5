import Verif.Model.Links
import Verif.Spec.Links
import Verif.Props.Uri
import Verif.Props.Heard
import Verif.Props.StringUtil

/-!
# C80: relative links and links into an archive
-/

namespace Kml.Dom

open Kml
open Kml.StringUtil (C08_ends_with)

/-- The path of a link without a scheme. -/
theorem path_noScheme {l : Str} (h : NoScheme l) : ∃ frag, Uri.parse l = .ok ⟨[], [], filePart l, frag⟩ := by
  obtain ⟨path, frag, e, hp, hs⟩ := Uri.C44_relative l h
  refine ⟨frag, ?_⟩
  have hall : ∀ c ∈ path, decide (c ≠ '#') = true := fun c hc => decide_eq_true fun h => hp (h ▸ hc)
  have : filePart l = path := by
    unfold filePart
    rcases hs with ⟨rfl, _⟩ | rfl
    · have := List.takeWhile_append_of_pos (l₂ := []) hall
      rw [List.append_nil, List.takeWhile_nil, List.append_nil] at this
      exact this
    · rw [List.takeWhile_append_of_pos hall, List.takeWhile_cons_of_neg (by simp), List.append_nil]
  rw [this]; exact e

/-- A link with a scheme is not relative. -/
theorem not_relative {l : Str} (hb : ¬ [':', '/', '/'] <+: l) (h : ¬ NoScheme l) :
    ∃ r, Uri.parse l = .ok r ∧ r.isRelative = false ∧ r.isRelativePath = false := by
  have hs : ∃ c s k, Uri.parseScheme l = .ok (c :: s, k) := by
    unfold Uri.parseScheme
    cases hf : find l [':', '/', '/'] 0 with
    | none =>
      exfalso
      rw [find_at_zero] at hf
      have := findFrom_not_infix hf
      apply h
      intro a b e
      exact absurd ⟨a, b, e.symm⟩ this
    | some k =>
      have hle := Uri.find_le hf
      rw [find_at_zero] at hf
      obtain ⟨a, b, e, hl, _⟩ := findFrom_cut hf
      cases a with
      | nil => exact absurd ⟨b, e.symm⟩ hb
      | cons c a =>
        cases k with
        | zero => cases hl
        | succ k =>
          refine ⟨c, (a ++ [':', '/', '/'] ++ b).take k, k + 1 + 3, ?_⟩
          show (Uri.substr l 0 (k + 1) >>= fun u => Outcome.ok (u, k + 1 + 3)) = _
          rw [Uri.substr_ok (Nat.zero_le _), Outcome.ok_bind, e]
          rfl
  obtain ⟨c, s, k, hs⟩ := hs
  have hsafe := Uri.C44_never_throws l
  cases hp : Uri.parse l with
  | throws => rw [hp] at hsafe; obtain ⟨_, h'⟩ := hsafe; cases h'
  | ub => rw [hp] at hsafe; obtain ⟨_, h'⟩ := hsafe; cases h'
  | ok r =>
    have hr : r.scheme = c :: s := by
      unfold Uri.parse at hp
      rw [hs] at hp
      rw [Outcome.ok_bind] at hp
      obtain ⟨loc, _, hp⟩ := bind_eq_ok hp
      split at hp
      · obtain ⟨_, _, hp⟩ := bind_eq_ok hp
        obtain ⟨_, _, hp⟩ := bind_eq_ok hp
        cases hp; rfl
      · obtain ⟨_, _, hp⟩ := bind_eq_ok hp
        cases hp; rfl
    refine ⟨r, rfl, ?_, ?_⟩
    · unfold Uri.Href.isRelative; rw [hr]; rfl
    · unfold Uri.Href.isRelativePath; rw [hr]; rfl

/-- What can be read from an archive whose files are not empty and not too large. -/
theorem getEntry_isNone {b : Bool} {max : Nat} {z : List ZipFile.Entry}
    (hz : ∀ e ∈ z, e.1.length < 256 ∧ e.2 ≠ [] ∧ e.2.length ≤ max) (p : Str) :
    (ZipFile.getEntry b max z p).isNone = true ↔ p ∉ z.map (·.1) := by
  unfold ZipFile.getEntry ZipFile.isInToc ZipFile.getToc
  by_cases hp : p ∈ z.map (·.1)
  · rw [if_pos (List.any_eq_true.2 ⟨p, hp, decide_eq_true rfl⟩)]
    refine ⟨fun h => ?_, fun h => absurd hp h⟩
    exfalso
    obtain ⟨e, he, hep⟩ := List.mem_map.1 hp
    cases hl : ZipFile.locate b z p with
    | none =>
      unfold ZipFile.locate at hl
      rw [if_neg (Nat.not_le.2 (hep ▸ (hz e he).1))] at hl
      have := List.find?_eq_none.1 hl e he
      apply this
      subst hep
      cases b <;> simp
    | some f =>
      rw [hl] at h
      unfold ZipFile.locate at hl
      rw [if_neg (Nat.not_le.2 (hep ▸ (hz e he).1))] at hl
      obtain ⟨_, h2, h3⟩ := hz f (List.mem_of_find?_eq_some hl)
      dsimp only at h
      rw [if_neg] at h
      · cases h
      · rw [Bool.or_eq_true, decide_eq_true_eq, decide_eq_true_eq]
        rintro (h | h)
        · exact h2 (List.length_eq_zero_iff.1 h)
        · omega
  · refine ⟨fun _ => hp, fun _ => ?_⟩
    rw [if_neg]
    · rfl
    · rw [List.any_eq_true]
      rintro ⟨q, hq, hqp⟩
      exact hp (of_decide_eq_true hqp ▸ hq)

/-- **C80, relative links.** Of the links of a document, those with no scheme and with something before the fragment are
given, in their order; links that begin with `://` are not considered. -/
theorem C80_relative (n : NumLib) (xml : Str → Option (List Ev)) (kml : Str) (links : List Str)
    (h : linksOfText n xml kml = .ok (some links)) (hb : ∀ l ∈ links, ¬ [':', '/', '/'] <+: l) :
    ∃ p : Str → Bool, (∀ l ∈ links, p l = true ↔ NoScheme l ∧ filePart l ≠ []) ∧
      getRelativeLinks n xml kml = .ok (some (links.filter p)) := by
  classical
  refine ⟨fun l => decide (NoScheme l ∧ filePart l ≠ []), fun l _ => decide_eq_true_iff, ?_⟩
  unfold getRelativeLinks
  rw [h, Outcome.ok_bind]
  dsimp only
  have key : ∀ ls : List Str, (∀ l ∈ ls, ¬ [':', '/', '/'] <+: l) →
      keepRelative ls = .ok (ls.filter fun l => decide (NoScheme l ∧ filePart l ≠ [])) := by
    intro ls
    induction ls with
    | nil => intro _; rfl
    | cons l ls ih =>
      intro hb
      rw [keepRelative, ih fun x hx => hb x (List.mem_cons_of_mem _ hx)]
      by_cases hl : NoScheme l
      · obtain ⟨frag, e⟩ := path_noScheme hl
        rw [e, Outcome.ok_bind, Outcome.ok_bind]
        by_cases hf : filePart l = []
        · rw [List.filter_cons_of_neg (by simp [hf])]
          simp [Uri.Href.isRelativePath, hf]
        · rw [List.filter_cons_of_pos (by simp [hl, hf])]
          simp [Uri.Href.isRelativePath, hf]
      · obtain ⟨r, e, _, h2⟩ := not_relative (hb l (List.mem_cons_self ..)) hl
        rw [e, Outcome.ok_bind, Outcome.ok_bind, h2, List.filter_cons_of_neg (by simp [hl])]
        rfl
  rw [key links hb]
  rfl

/-- A text without a root has no relative links, and is not a success. -/
theorem C80_unread (n : NumLib) (xml : Str → Option (List Ev)) (kml : Str) (h : linksOfText n xml kml = .ok none) :
    getRelativeLinks n xml kml = .ok none := by
  unfold getRelativeLinks
  rw [h]; rfl

/-- **C80, failure.** A text that is not well formed, or that does not give a root, has no links: asking for them
fails, even if the parser saw some before it failed. -/
theorem C80_failure (n : NumLib) (xml : Str → Option (List Ev)) (kml : Str) :
    (xml kml = none → getRelativeLinks n xml kml = .ok none) ∧
    ∀ evs seen, xml kml = some evs → getLinks n evs = .ok (false, seen) → getRelativeLinks n xml kml = .ok none := by
  constructor
  · intro h
    exact C80_unread n xml kml (by unfold linksOfText; rw [h])
  · intro evs seen h hg
    exact C80_unread n xml kml (by unfold linksOfText; rw [h]; dsimp only; rw [hg]; rfl)

/-- **C80, archives.** For an archive with a KML file that can be read, the links that are reported are, in their order,
those without a scheme that name no file of the archive, and the check succeeds if there are none.

Missing from the full property: links that are only a fragment, for which it is false (`C80_fragment_violated`), and
archives with empty files (`C80_empty_violated`), very large files or very long names. -/
theorem C80_missing_partial (n : NumLib) (xml : Str → Option (List Ev)) (w : Kmz.World) (z : List ZipFile.Entry)
    (hz : ∀ e ∈ z, e.1.length < 256 ∧ e.2 ≠ [] ∧ e.2.length ≤ w.max) (kml name : Str)
    (hk : Kmz.readKmlAndGetPath w z = some (kml, name)) (links : List Str)
    (h : linksOfText n xml kml = .ok (some links)) (hb : ∀ l ∈ links, ¬ [':', '/', '/'] <+: l)
    (hf : ∀ l ∈ links, filePart l ≠ []) :
    ∃ p : Str → Bool, (∀ l ∈ links, p l = true ↔ NoScheme l ∧ filePart l ≠ [] ∧ filePart l ∉ z.map (·.1)) ∧
      kmzCheckLinks n xml w z = .ok ((links.filter p).isEmpty, links.filter p) := by
  classical
  refine ⟨fun l => decide (NoScheme l ∧ filePart l ∉ z.map (·.1)), ?_, ?_⟩
  · intro l hl
    rw [decide_eq_true_iff]
    exact ⟨fun ⟨h1, h2⟩ => ⟨h1, hf l hl, h2⟩, fun ⟨h1, _, h2⟩ => ⟨h1, h2⟩⟩
  unfold kmzCheckLinks
  rw [hk]
  dsimp only
  rw [h, Outcome.ok_bind]
  dsimp only
  have key : ∀ ls : List Str, (∀ l ∈ ls, ¬ [':', '/', '/'] <+: l) →
      missingLinks w z ls = .ok (ls.filter fun l => decide (NoScheme l ∧ filePart l ∉ z.map (·.1))) := by
    intro ls
    induction ls with
    | nil => intro _; rfl
    | cons l ls ih =>
      intro hb
      rw [missingLinks, ih fun x hx => hb x (List.mem_cons_of_mem _ hx)]
      by_cases hl : NoScheme l
      · obtain ⟨frag, e⟩ := path_noScheme hl
        rw [e, Outcome.ok_bind, Outcome.ok_bind]
        have hg := getEntry_isNone (b := w.caseCounts) hz (filePart l)
        by_cases hm : filePart l ∈ z.map (·.1)
        · rw [List.filter_cons_of_neg (by simp only [decide_eq_true_eq]; exact fun h => h.2 hm)]
          rw [if_neg]
          rw [Bool.and_eq_true]
          exact fun h => hg.1 h.2 hm
        · rw [List.filter_cons_of_pos (by simp only [decide_eq_true_eq]; exact ⟨hl, hm⟩)]
          rw [if_pos]
          rw [Bool.and_eq_true]
          exact ⟨rfl, hg.2 hm⟩
      · obtain ⟨r, e, h2, _⟩ := not_relative (hb l (List.mem_cons_self ..)) hl
        rw [e, Outcome.ok_bind, Outcome.ok_bind, h2, List.filter_cons_of_neg (by simp [hl])]
        rfl
  rw [key links hb]
  rfl

/-- **C80, unreadable archives.** An archive with no KML file, or with one that cannot be parsed, does not pass, and no link is
reported. -/
theorem C80_unreadable (n : NumLib) (xml : Str → Option (List Ev)) (w : Kmz.World) (z : List ZipFile.Entry) :
    ((∀ e ∈ z, ¬ ".kml".toList <:+ e.1) → kmzCheckLinks n xml w z = .ok (false, [])) ∧
    ∀ kml name, Kmz.readKmlAndGetPath w z = some (kml, name) → linksOfText n xml kml = .ok none →
      kmzCheckLinks n xml w z = .ok (false, []) := by
  constructor
  · intro h
    unfold kmzCheckLinks Kmz.readKmlAndGetPath
    have : ZipFile.findFirstOf z ".kml".toList = none := by
      unfold ZipFile.findFirstOf ZipFile.getToc
      rw [List.find?_eq_none]
      intro q hq hs
      obtain ⟨e, he, rfl⟩ := List.mem_map.1 hq
      exact h e he (((C08_ends_with _ _).1 hs).2.2)
    rw [this]
  · intro kml name hk hl
    unfold kmzCheckLinks
    rw [hk]
    dsimp only
    rw [hl]
    rfl

/-! ### Cases -/

/-- `<Placemark><styleUrl>…</styleUrl></Placemark>`, whatever the text. -/
def styled (url : Str) : Str → Option (List Ev) := fun _ =>
  some [.start (chars! "Placemark") [], .start (chars! "styleUrl") [], .chars url, .stop (chars! "styleUrl"),
    .stop (chars! "Placemark")]

/-- No network, and files of up to 100 bytes. -/
def world100 : Kmz.World := { net := fun _ => none, openKmz := fun _ => none, max := 100 }

/-- A link to a file of the archive passes, one to another file is reported, and one with a scheme passes. -/
example : kmzCheckLinks NumLib.integers (styled (chars! "s.kml#a")) world100 [(chars! "doc.kml", ['x']), (chars! "s.kml", ['x'])] =
      .ok (true, []) ∧
    kmzCheckLinks NumLib.integers (styled (chars! "t.kml#a")) world100 [(chars! "doc.kml", ['x']), (chars! "s.kml", ['x'])] =
      .ok (false, [chars! "t.kml#a"]) ∧
    kmzCheckLinks NumLib.integers (styled (chars! "http://h/t.kml")) world100 [(chars! "doc.kml", ['x'])] = .ok (true, []) := by
  refine ⟨?_, ?_, ?_⟩ <;> decide +kernel

/-- The hypotheses of `C80_missing_partial` are met by the second of these. -/
example : Kmz.readKmlAndGetPath world100 [(chars! "doc.kml", ['x'])] = some (['x'], chars! "doc.kml") ∧
    linksOfText NumLib.integers (styled (chars! "t.kml#a")) ['x'] = .ok (some [chars! "t.kml#a"]) ∧
    filePart (chars! "t.kml#a") = chars! "t.kml" := by
  refine ⟨?_, ?_, ?_⟩ <;> decide +kernel

/-- **C80 fails: fragments.** An archive whose only link is to a style of the document itself does not pass: the link is
reported as missing.  (As a relative link it is not given.) -/
theorem C80_fragment_violated :
    kmzCheckLinks NumLib.integers (styled (chars! "#a")) world100 [(chars! "doc.kml", ['x'])] =
      .ok (false, [chars! "#a"]) ∧
    getRelativeLinks NumLib.integers (styled (chars! "#a")) ['x'] = .ok (some []) := by
  constructor <;> decide +kernel

/-- **C80 fails: empty files.** A link to an empty file of the archive is reported as missing. -/
theorem C80_empty_violated :
    kmzCheckLinks NumLib.integers (styled (chars! "s.kml")) world100 [(chars! "doc.kml", ['x']), (chars! "s.kml", [])] =
      .ok (false, [chars! "s.kml"]) := by decide +kernel

end Kml.Dom
