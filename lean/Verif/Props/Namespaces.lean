import Verif.Lemmas.Namespaces
import Verif.Props.Walk
import Verif.Props.File

/-!
# C79: namespace declarations of saved files

`KmlFile::SerializeToString` writes a header and the root, after `FindAndInsertXmlNamespaces` has put declarations into
the root (`serializeToString`).  `calls` are the calls the serializer gets: those with a tag (`Call.tag`) write the tags.
-/

namespace Kml.Dom

open Kml
open Kml.Attributes (Attributes)

/-- The attributes of the first tag and the names of the tags that are written for the root of a document. -/
def firstTag (evs : List Ev) : Option (Attributes × List Str) :=
  (rootOf evs).map fun e =>
    ((match (calls (findAndInsertXmlNamespaces e)).head? with
      | some (.beginElem _ a) => a
      | _ => []),
     (calls (findAndInsertXmlNamespaces e)).filterMap fun c => c.tag.map Xsd.elementName)

/-- A document with gx, Atom and xAL elements. -/
def manyNamespaces : List Ev :=
  [.start (chars! "Placemark") [(chars! "xmlns:my", chars! "urn:my")], .start (chars! "atom:author") [],
    .stop (chars! "atom:author"), .start (chars! "gx:Track") [], .stop (chars! "gx:Track"), .stop (chars! "Placemark")]

example : firstTag manyNamespaces =
    some ([(chars! "xmlns", kmlNamespace), (chars! "xmlns:atom", chars! "http://www.w3.org/2005/Atom"),
      (chars! "xmlns:gx", chars! "http://www.google.com/kml/ext/2.2"), (chars! "xmlns:my", chars! "urn:my")],
     [chars! "Placemark", chars! "atom:author", chars! "gx:Track"]) := by decide +kernel

/-- **C79 fails: simple elements.** For a `LookAt` with `gx:altitudeMode` the prefix `gx` is not declared, although it is
used: the output cannot be read with namespaces. -/
theorem C79_field_violated :
    firstTag [.start (chars! "LookAt") [], .start (chars! "gx:altitudeMode") [],
      .chars (chars! "relativeToSeaFloor"), .stop (chars! "gx:altitudeMode"), .stop (chars! "LookAt")] =
    some ([(chars! "xmlns", kmlNamespace)], [chars! "LookAt", chars! "gx:altitudeMode"]) := by decide +kernel

/-- **C79 fails: misplaced elements.** For a `Point` with a `gx:Track` in it, which does not belong there, the prefix
`gx` is not declared. -/
theorem C79_misplaced_violated :
    firstTag [.start (chars! "Point") [], .start (chars! "gx:Track") [], .stop (chars! "gx:Track"),
      .stop (chars! "Point")] =
    some ([(chars! "xmlns", kmlNamespace)], [chars! "Point", chars! "gx:Track"]) := by decide +kernel

/-- **C79 fails: some roots.** With `<size/>` as root the KML namespace is not declared. -/
theorem C79_root_violated :
    firstTag [.start (chars! "size") [], .stop (chars! "size")] = some ([], [chars! "size"]) := by decide +kernel

theorem namespaces_written : (xmlNamespaces.all fun r => (r.2.2.all fun c => legalChar c && decide (c ≠ '"') &&
    decide (c ≠ '<') && decide (c ≠ '&') && decide (c ≠ '\t') && decide (c ≠ '\n')) && r.2.1.all nameChar) = true := by
  decide +kernel

/-- `<Placemark><gx:Track/></Placemark>` -/
def trackMark : Elem :=
  .node Ty.«Placemark» .empty
    (setSlot (fun _ => []) M.«geometry» [.node Ty.«GxTrack» .empty (fun _ => []) [] []]) [] []

set_option maxRecDepth 100000 in
theorem trackMark_held : Held NumLib.integers trackMark :=
  parse_held (os := ([] : List (Observer Unit))) (s := ()) (s' := ()) (evs :=
    [.start (chars! "Placemark") [], .start (chars! "gx:Track") [], .stop (chars! "gx:Track"),
      .stop (chars! "Placemark")]) rfl

/-- A tree that meets the hypotheses of `C79_declared_partial` and `C79_default_partial`. -/
example : Held NumLib.integers trackMark ∧ trackMark.complex = true ∧ trackMark.ty ≠ Ty.«coordinates» ∧
    Everywhere PlainStray trackMark ∧ (∀ call ∈ calls trackMark, ∀ t ∈ lonePrefixed, call.tag ≠ some t) ∧
    prefixOf (Xsd.elementName trackMark.ty) = none ∧ trackMark.ty ∉ namespaceless ∧
    (∃ call ∈ calls trackMark, call.tag.bind (fun t => prefixOf (Xsd.elementName t)) = some (chars! "gx")) := by
  refine ⟨trackMark_held, rfl, by decide, ?_, by decide +kernel, by decide +kernel, by decide, by decide +kernel⟩
  refine .node (fun x hx => nomatch hx) ?_ (by intro x hx; cases hx)
  intro m x hx
  unfold setSlot at hx
  split at hx
  · rw [List.mem_singleton.1 hx]
    exact .node (fun x hx => nomatch hx) (by intro m x hx; cases hx) (by intro x hx; cases hx)
  · cases hx

attribute [local irreducible] kml22Elements Xsd.tagToId classes inc dec uintSize xmlnsTable xmlNamespaces

theorem key_prefix {p : Str} (h : p ≠ chars! "xmlns") : chars! "xmlns:" ++ p = xmlnsKey p := (if_neg h).symm

theorem key_self : chars! "xmlns" = xmlnsKey (chars! "xmlns") := rfl

/-- The declarations an element writes are those it holds. -/
theorem written_xmlns {n : NumLib} {t : Ty} {c : Class} (hc : classOf t = some c) {a : Attrs} (ha : a.Held n c)
    {x : Attributes} (hx : StdMap.Sorted x) (r : Str) :
    (serializeAttributes (classAt t) { a with xmlns := x }).get (xmlnsKey r) = x.get r := by
  have hu : a.unknown.get (xmlnsKey r) = none := by
    cases hg : a.unknown.get (xmlnsKey r) with
    | none => rfl
    | some v =>
      exfalso
      obtain ⟨_, h1, h2⟩ := ha.unknown _ (StdMap.mem_of_get hg)
      unfold xmlnsKey at h1 h2
      split at h1
      · rename_i hr; exact h1 hr
      · rename_i hr
        rw [if_neg hr] at h2
        exact h2 r rfl
  have hk : xmlnsKey r ∉ c.sets := by
    intro hm
    have := List.all_eq_true.1 (List.all_eq_true.1 xmlns_not_known _ (classOf_pair hc)) _ hm
    rw [Bool.and_eq_true] at this
    unfold xmlnsKey at this
    split at this
    · rename_i hr; exact of_decide_eq_true this.1 hr
    · have h2 := this.2
      rw [(Attributes.hasPrefix_iff (chars! "xmlns") (chars! "xmlns:" ++ r)).2 ⟨r, rfl⟩] at h2
      cases h2
  rw [classAt_eq hc, serializeAttributes_get c (a := { a with xmlns := x }) ha.unknown_sorted, if_neg hk,
    (serializeBase_get (a := { a with xmlns := x }) ha.unknown_sorted hx).1 r]
  show (x.get r).or (a.unknown.get (xmlnsKey r)) = _
  rw [hu]
  cases x.get r <;> rfl

/-- The first call begins the element, and only it depends on the attributes. -/
theorem calls_first {t : Ty} (ht : t ≠ Ty.«coordinates») (slots : Mem → List Elem) (mis : List Elem)
    (unk : List Str) : ∃ rest, ∀ a, calls (.node t a slots mis unk) =
      .beginElem t (serializeAttributes (classAt t) a) :: rest := by
  refine ⟨(calls (.node t { known := [], unknown := [], xmlns := [] } slots mis unk)).tail, ?_⟩
  intro a
  rw [calls, calls, if_neg ht, if_neg ht]
  rfl

/-- The root with its class, and what it writes first. -/
theorem saved_root {n : NumLib} {root : Elem} (h : Held n root) (hr : root.complex = true)
    (hc : root.ty ≠ Ty.«coordinates») : ∃ t a slots mis unk c x rest, root = .node t a slots mis unk ∧
      classOf t = some c ∧ a.Held n c ∧ StdMap.Sorted x ∧
      findAndInsertXmlNamespaces root = .node t { a with xmlns := x } slots mis unk ∧
      calls root = .beginElem t (serializeAttributes (classAt t) a) :: rest ∧
      calls (findAndInsertXmlNamespaces root) =
        .beginElem t (serializeAttributes (classAt t) { a with xmlns := x }) :: rest ∧
      (∀ y p v, Found root y → findXmlNamespaceAndPrefix (xmlnsOf y) = some (p, v) →
        p ≠ chars! "kml" → x.get p = some v) ∧
      (∀ p, p ≠ chars! "kml" → p ≠ chars! "xmlns" →
        (∀ y v, Found root y → findXmlNamespaceAndPrefix (xmlnsOf y) ≠ some (p, v)) →
        x.get p = a.xmlns.get p) ∧
      x.get (chars! "kml") = a.xmlns.get (chars! "kml") ∧
      ((∃ y, Found root y ∧ xmlnsOf y = 13) → x.get (chars! "xmlns") = some kmlNamespace) ∧
      ((∀ y, Found root y → xmlnsOf y ≠ 13) →
        x.get (chars! "xmlns") = a.xmlns.get (chars! "xmlns")) := by
  cases root with
  | field => cases hr
  | node t a slots mis unk =>
    obtain ⟨c, hcl⟩ := Option.isSome_iff_exists.1 (held_classOf h)
    have ha : a.Held n c := by
      rw [← classAt_eq hcl]
      cases h <;> assumption
    obtain ⟨x, hx, he, hp⟩ := insert_xmlns (t := t) (slots := slots) (mis := mis) (unk := unk) ha.xmlns_sorted
    have hct : t ≠ Ty.«coordinates» := hc
    obtain ⟨rest, hrest⟩ := calls_first hct slots mis unk
    exact ⟨t, a, slots, mis, unk, c, x, rest, rfl, hcl, ha, hx, he, hrest a, by rw [he]; exact hrest _, hp⟩

/-- A found element is complex and can look as it does. -/
theorem found_held {n : NumLib} {root y : Elem} (h : Held n root) (hr : root.complex = true) (hy : Found root y) :
    Held n y ∧ y.complex = true := by
  rcases hy with rfl | ⟨p, hp⟩
  · exact ⟨h, hr⟩
  · obtain ⟨h1, h2, _⟩ := (mem_saved h).1 hp
    exact ⟨held_at h h1 h2, h2⟩

/-- **C79, prefixes.** Every prefix of a tag that is written is declared by the first tag, with the namespace that goes
with it, if no misplaced element has a prefix and there is none of the simple gx elements of KML
elements.

The full property has no such exceptions; for these elements it is false (`C79_field_violated`,
`C79_misplaced_violated`). -/
theorem C79_declared_partial (n : NumLib) (root : Elem) (h : Held n root) (hr : root.complex = true)
    (hc : root.ty ≠ Ty.«coordinates») (hn : Everywhere PlainStray root)
    (hl : ∀ call ∈ calls root, ∀ t ∈ lonePrefixed, call.tag ≠ some t) :
    ∃ attrs rest, calls (findAndInsertXmlNamespaces root) = .beginElem root.ty attrs :: rest ∧
      ∀ call ∈ calls (findAndInsertXmlNamespaces root), ∀ t p, call.tag = some t →
        prefixOf (Xsd.elementName t) = some p →
        ∃ ns, (p, ns) ∈ standardPrefixes ∧ attrs.get (chars! "xmlns:" ++ p) = some ns := by
  obtain ⟨t0, a, slots, mis, unk, c0, x, rest, rfl, hcl, ha, hx, _, h1, h2, hfound, _⟩ := saved_root h hr hc
  refine ⟨_, rest, h2, ?_⟩
  intro call hcall t p ht hp
  have hcall' : ∃ call' ∈ calls (.node t0 a slots mis unk), call'.tag = some t := by
    rw [h2] at hcall
    rcases List.mem_cons.1 hcall with rfl | hcall
    · exact ⟨.beginElem t0 (serializeAttributes (classAt t0) a), by rw [h1]; exact List.mem_cons_self .., ht⟩
    · exact ⟨call, by rw [h1]; exact List.mem_cons_of_mem _ hcall, ht⟩
  obtain ⟨call', hc1, hc2⟩ := hcall'
  rcases tag_calls _ hn call' hc1 t hc2 with ⟨y, hy, hty⟩ | hu | hu
  rotate_left
  · rw [hp] at hu; cases hu
  · exact absurd hc2 (hl call' hc1 t hu)
  obtain ⟨hyh, hyc⟩ := found_held h hr hy
  cases y with
  | field => cases hyc
  | node ty ya ys ym yu =>
    obtain ⟨c, hcy⟩ := Option.isSome_iff_exists.1 (held_classOf hyh)
    have hmem : t ∈ ty :: c.writes.filterMap Write.ownTag := by
      rcases hty with rfl | hty
      · exact List.mem_cons_self ..
      · refine List.mem_cons_of_mem _ ?_
        rw [← classAt_eq hcy]; exact hty
    have hcov := List.all_eq_true.1 (List.all_eq_true.1 classes_covers _ (classOf_pair hcy)) _ hmem
    rw [Bool.or_eq_true] at hcov
    rcases hcov with hcov | hcov
    · exact absurd hc2 (hl call' hc1 t (of_decide_eq_true hcov))
    · unfold covers at hcov
      rw [hp] at hcov
      dsimp only at hcov
      cases hf : findXmlNamespaceAndPrefix (typeXmlns ty) with
      | none => rw [hf] at hcov; cases hcov
      | some r =>
        rw [hf] at hcov
        dsimp only at hcov
        rw [Bool.and_eq_true] at hcov
        have hr1 := of_decide_eq_true hcov.1
        have hr2 := of_decide_eq_true hcov.2
        obtain ⟨r1, r2⟩ := r
        dsimp only at hr1
        subst hr1
        have hk : r1 ≠ chars! "kml" := of_decide_eq_true (List.all_eq_true.1 standard_not_kml _ hr2)
        have hxm : r1 ≠ chars! "xmlns" := by
          rintro rfl
          exact find_ne_xmlns hf
        refine ⟨r2, hr2, ?_⟩
        rw [key_prefix hxm, written_xmlns hcl ha hx]
        exact hfound _ _ _ hy hf hk

/-- **C79, KML.** If the root is a KML element its first tag makes KML the default namespace, except for seven types that
are never roots in practice.

Missing: those types, for which it is false (`C79_root_violated`). -/
theorem C79_default_partial (n : NumLib) (root : Elem) (h : Held n root) (hr : root.complex = true)
    (hc : root.ty ≠ Ty.«coordinates») (hk : prefixOf (Xsd.elementName root.ty) = none)
    (hs : root.ty ∉ namespaceless) :
    ∃ attrs rest, calls (findAndInsertXmlNamespaces root) = .beginElem root.ty attrs :: rest ∧
      attrs.get (chars! "xmlns") = some kmlNamespace := by
  obtain ⟨t0, a, slots, mis, unk, c0, x, rest, rfl, hcl, ha, hx, _, h1, h2, _, _, _, hkml, _⟩ := saved_root h hr hc
  refine ⟨_, rest, h2, ?_⟩
  rw [key_self, written_xmlns hcl ha hx]
  refine hkml ⟨_, .inl rfl, ?_⟩
  have := List.all_eq_true.1 classes_kml _ (classOf_pair hcl)
  dsimp only at this
  have hk' : prefixOf (Xsd.elementName t0) = none := hk
  have hs' : t0 ∉ namespaceless := hs
  rw [hk', decide_eq_false hs', Option.isSome_none, Bool.or_self, Bool.false_or] at this
  exact of_decide_eq_true this

/-- **C79, nothing else.** Saving changes the tree only in the declarations of the root; of these, those with a prefix
that is not a standard one stay; a standard one is declared only if it was before or an element with that namespace is
found; and so for the default one. -/
theorem C79_kept (n : NumLib) (root : Elem) (h : Held n root) (hr : root.complex = true)
    (hc : root.ty ≠ Ty.«coordinates») :
    ∃ before after rest, calls root = .beginElem root.ty before :: rest ∧
      calls (findAndInsertXmlNamespaces root) = .beginElem root.ty after :: rest ∧
      (∀ p, p ≠ chars! "xmlns" → p ∉ standardPrefixes.map (·.1) →
        after.get (chars! "xmlns:" ++ p) = before.get (chars! "xmlns:" ++ p)) ∧
      (∀ p ns, (p, ns) ∈ standardPrefixes → after.get (chars! "xmlns:" ++ p) = before.get (chars! "xmlns:" ++ p) ∨
        after.get (chars! "xmlns:" ++ p) = some ns ∧
          ∃ y, Found root y ∧ findXmlNamespaceAndPrefix (xmlnsOf y) = some (p, ns)) ∧
      (after.get (chars! "xmlns") = before.get (chars! "xmlns") ∨
        after.get (chars! "xmlns") = some kmlNamespace ∧
          ∃ y, Found root y ∧ findXmlNamespaceAndPrefix (xmlnsOf y) = some (chars! "kml", kmlNamespace)) := by
  obtain ⟨t0, a, slots, mis, unk, c0, x, rest, rfl, hcl, ha, hx, _, h1, h2, hf, hn, hkk, hy, hno⟩ := saved_root h hr hc
  refine ⟨_, _, rest, h1, h2, ?_, ?_, ?_⟩
  · intro p hp hs
    rw [key_prefix hp, written_xmlns hcl ha hx,
      show a = { a with xmlns := a.xmlns } from rfl, written_xmlns hcl ha ha.xmlns_sorted]
    by_cases hk : p = chars! "kml"
    · rw [hk]; exact hkk
    · refine hn p hk hp ?_
      intro y v hy hv
      obtain ⟨hyh, hyc⟩ := found_held h hr hy
      cases y with
      | field => cases hyc
      | node ty ya ys ym yu =>
        obtain ⟨c, hcy⟩ := Option.isSome_iff_exists.1 (held_classOf hyh)
        have hq := List.all_eq_true.1 classes_found _ (classOf_pair hcy)
        dsimp only at hq
        have hv' : findXmlNamespaceAndPrefix (typeXmlns ty) = some (p, v) := hv
        rw [hv'] at hq
        dsimp only at hq
        rw [Bool.or_eq_true] at hq
        rcases hq with hq | hq
        · exact hs (List.mem_map.2 ⟨_, of_decide_eq_true hq, rfl⟩)
        · have := of_decide_eq_true hq
          simp only [Prod.mk.injEq] at this
          exact hk this.1
  · intro p ns hp
    have hk : p ≠ chars! "kml" := of_decide_eq_true (List.all_eq_true.1 standard_not_kml _ hp)
    have hpx : p ≠ chars! "xmlns" := by
      rintro rfl
      have key : ∀ q ∈ standardPrefixes, q.1 ≠ chars! "xmlns" := by decide
      exact key _ hp rfl
    rw [key_prefix hpx, written_xmlns hcl ha hx]
    by_cases hex : ∃ y v, Found (.node t0 a slots mis unk) y ∧ findXmlNamespaceAndPrefix (xmlnsOf y) = some (p, v)
    · obtain ⟨y, v, hy, hv⟩ := hex
      have hvn : v = ns := by
        obtain ⟨hyh, hyc⟩ := found_held h hr hy
        cases y with
        | field => cases hyc
        | node ty ya ys ym yu =>
          obtain ⟨c, hcy⟩ := Option.isSome_iff_exists.1 (held_classOf hyh)
          have hq := List.all_eq_true.1 classes_found _ (classOf_pair hcy)
          dsimp only at hq
          have hv' : findXmlNamespaceAndPrefix (typeXmlns ty) = some (p, v) := hv
          rw [hv'] at hq
          dsimp only at hq
          rw [Bool.or_eq_true] at hq
          rcases hq with hq | hq
          · have h1 := of_decide_eq_true hq
            have key : ∀ q ∈ standardPrefixes, ∀ r ∈ standardPrefixes, q.1 = r.1 → q.2 = r.2 := by decide
            exact key _ h1 _ hp rfl
          · have := of_decide_eq_true hq
            simp only [Prod.mk.injEq] at this
            exact absurd this.1 hk
      subst hvn
      exact .inr ⟨hf y p v hy hv hk, y, hy, hv⟩
    · left
      rw [show a = { a with xmlns := a.xmlns } from rfl, written_xmlns hcl ha ha.xmlns_sorted]
      exact hn p hk hpx fun y v hy hv => hex ⟨y, v, hy, hv⟩
  · rw [key_self, written_xmlns hcl ha hx]
    by_cases hex : ∃ y, Found (.node t0 a slots mis unk) y ∧ xmlnsOf y = 13
    · obtain ⟨y, hy', h13⟩ := hex
      exact .inr ⟨hy ⟨y, hy', h13⟩, y, hy', by rw [h13]; exact find_kml⟩
    · left
      rw [show a = { a with xmlns := a.xmlns } from rfl, written_xmlns hcl ha ha.xmlns_sorted]
      exact hno fun y hy' h13 => hex ⟨y, hy', h13⟩

theorem namespaces_plain {i : XmlnsId} {p v : Str} (h : findXmlNamespaceAndPrefix i = some (p, v)) :
    PlainAttr v ∧ XmlName (chars! "xmlns:" ++ p) := by
  unfold findXmlNamespaceAndPrefix at h
  split at h
  · cases h
  · obtain ⟨r, hr, he⟩ := Option.map_eq_some_iff.1 h
    have := List.all_eq_true.1 namespaces_written _ (List.mem_of_find?_eq_some hr)
    rw [he, Bool.and_eq_true] at this
    refine ⟨?_, 'x', chars! "mlns:" ++ p, rfl, rfl, ?_⟩
    · intro c hc
      have := List.all_eq_true.1 this.1 c hc
      simp only [Bool.and_eq_true, decide_eq_true_eq] at this
      obtain ⟨⟨⟨⟨⟨h1, h2⟩, h3⟩, h4⟩, h5⟩, h6⟩ := this
      exact ⟨h1, h2, h3, h4, h5, h6⟩
    · rw [List.all_append, this.2]; rfl

/-- **C79, save and load.** A canonical tree that is saved can be loaded: the text behind the header is XML, and parsing it gives
the tree that was saved, with the declarations it was saved with and no other change.

Missing from the full property: trees that are not canonical (see C30). -/
theorem C79_saved_partial (n : NumLib) (encoding : Str) (root : Elem) (h : Canonical n true 100 none root)
    (hr : root.complex = true) (hc : root.ty ≠ Ty.«coordinates») :
    ∃ text evs t a slots mis unk x, root = .node t a slots mis unk ∧
      serializeToString encoding (some root) =
        .ok (chars! "<?xml version=\"1.0\" encoding=\"" ++ encoding ++ chars! "\"?>\n" ++ text) ∧
      readXml text = some evs ∧
      parseEvents n [] () (rootEvents evs) = .ok (some (.node t { a with xmlns := x } slots mis unk), ()) ∧
      findAndInsertXmlNamespaces root = .node t { a with xmlns := x } slots mis unk := by
  obtain ⟨t, a, slots, mis, unk, c, x, rest, rfl, hcl, ha, hx, he, _, _, hf, hn, hkk, hy, hno⟩ := saved_root h.held hr hc
  have hxs : ∀ ac : a.Canonical n (classAt t), ({ a with xmlns := x } : Attrs).Canonical n (classAt t) := by
    intro ac
    refine ⟨ac.known_sorted, ac.unknown_sorted, hx, ac.known, ac.unknown, ?_⟩
    rintro ⟨p, v⟩ hm
    have hg := StdMap.get_of_mem hx hm
    have old : a.xmlns.get p = some v → PlainAttr v ∧ (p ≠ chars! "xmlns" → XmlName (chars! "xmlns:" ++ p)) :=
      fun h => ac.xmlns _ (StdMap.mem_of_get h)
    by_cases hk : p = chars! "kml"
    · subst hk; rw [hkk] at hg; exact old hg
    by_cases hxm : p = chars! "xmlns"
    · subst hxm
      by_cases hex : ∃ y, Found (.node t a slots mis unk) y ∧ xmlnsOf y = 13
      · rw [hy hex] at hg
        cases hg
        exact ⟨(namespaces_plain find_kml).1, fun h => absurd rfl h⟩
      · rw [hno fun y hy' h13 => hex ⟨y, hy', h13⟩] at hg
        exact old hg
    · by_cases hex : ∃ y v, Found (.node t a slots mis unk) y ∧ findXmlNamespaceAndPrefix (xmlnsOf y) = some (p, v)
      · obtain ⟨y, w, hy', hw⟩ := hex
        rw [hf y p w hy' hw hk] at hg
        cases hg
        exact ⟨(namespaces_plain hw).1, fun _ => (namespaces_plain hw).2⟩
      · rw [hn p hk hxm fun y v hy' hv => hex ⟨y, v, hy', hv⟩] at hg
        exact old hg
  have hcan : Canonical n true 100 none (.node t { a with xmlns := x } slots mis unk) := by
    cases h with
    | node h1 h2 h3 h4 h5 h6 h7 h8 h9 h10 h11 => exact .node h1 h2 h3 (hxs h4) h5 h6 h7 h8 h9 h10 h11
    | text h1 h2 => cases h2
    | points => exact absurd rfl hc
  have hre := C30_pretty_partial n _ hcan
  unfold reread at hre
  obtain ⟨text, ht, hre⟩ := bind_eq_ok hre
  cases hxml : readXml text with
  | none => rw [hxml] at hre; cases hre
  | some evs =>
    rw [hxml] at hre
    obtain ⟨⟨r1, r2⟩, hp, hre⟩ := bind_eq_ok hre
    cases hre
    refine ⟨text, evs, t, a, slots, mis, unk, x, rfl, ?_, hxml, hp, he⟩
    unfold serializeToString xmlHeader
    dsimp only
    rw [he]
    unfold serializePretty
    rw [ht]
    rfl

example : Canonical NumLib.integers true 100 none cPlacemark ∧ cPlacemark.complex = true ∧
    cPlacemark.ty ≠ Ty.«coordinates» := ⟨cPlacemark_canonical true, rfl, by decide⟩

end Kml.Dom
