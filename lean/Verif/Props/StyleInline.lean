import Verif.Lemmas.StyleInline
import Verif.Lemmas.Style
import Verif.Props.StyleSplit
import Verif.Props.Style

/-!
# C51: moving shared styles into the features

`Elem.inlined` (Spec/StyleInline.lean) says what becomes of the elements of a document; `StylesFirst (docMarks …)` says
that the shared styles come before the references, as KML asks for.
-/

namespace Kml.Dom

open Kml

/-- The resolver exists: `CreateResolvedStyleSelector` ends for every set of shared styles and every reference. -/
theorem C51_resolver (n : NumLib) (split : Str → Option (Str × Str)) : ∃ resolve, Resolves n split resolve := by
  have h : ∀ shared url, ∃ r enough, ∀ fuel, enough ≤ fuel →
      createResolvedSelector n split fuel shared url = some r := by
    intro shared url
    obtain ⟨F1, r1, h1, _⟩ := resolve_ends (n := n) (w := ⟨split, shared, none, chars! "normal"⟩) 5 url none
    obtain ⟨F2, r2, h2, _⟩ := resolve_ends (n := n) (w := ⟨split, shared, none, chars! "highlight"⟩) 5 url none
    cases r1 with
    | throws =>
      exact ⟨.throws, F1, fun fuel hf => by
        unfold createResolvedSelector; rw [h1 fuel hf]; rfl⟩
    | ub => exact ⟨.ub, F1, fun fuel hf => by unfold createResolvedSelector; rw [h1 fuel hf]; rfl⟩
    | ok a =>
      cases r2 with
      | throws =>
        exact ⟨.throws, F1 + F2, fun fuel hf => by
          unfold createResolvedSelector; rw [h1 fuel (by omega), h2 fuel (by omega)]; rfl⟩
      | ub =>
        exact ⟨.ub, F1 + F2, fun fuel hf => by
          unfold createResolvedSelector; rw [h1 fuel (by omega), h2 fuel (by omega)]; rfl⟩
      | ok b =>
        exact ⟨_, F1 + F2, fun fuel hf => by
          unfold createResolvedSelector; rw [h1 fuel (by omega), h2 fuel (by omega)]; rfl⟩
  exact ⟨fun shared url => (h shared url).choose, fun shared url => (h shared url).choose_spec⟩

/-- What a reference resolves to: a style map with the style for the state `normal` and the one for `highlight`, both
without ids, as `CreateResolvedStyle` gives them (C48, C49). -/
theorem C51_resolved (n : NumLib) (split : Str → Option (Str × Str)) (resolve : StdMap Elem → Str → Outcome Elem)
    (hres : Resolves n split resolve) (shared : StdMap Elem) (url : Str) (style : Elem)
    (h : resolve shared url = .ok style) : ∃ enough normal highlight, (∀ fuel, enough ≤ fuel →
      createResolvedStyle n ⟨split, shared, none, chars! "normal"⟩ 5 fuel url none = some (.ok normal) ∧
      createResolvedStyle n ⟨split, shared, none, chars! "highlight"⟩ 5 fuel url none = some (.ok highlight)) ∧
    style.ty = Ty.«StyleMap» ∧ style.objectId = none ∧
    (style.items M.«pair_array»).map (fun p => (pairKey p, p.text M.«styleurl», p.only M.«styleselector»)) =
      [(chars! "normal", [], some (clearIds normal.resolved)), (chars! "highlight", [], some (clearIds highlight.resolved))] := by
  obtain ⟨F, hF⟩ := hres shared url
  rw [h] at hF
  obtain ⟨F1, r1, h1, _⟩ := resolve_ends (n := n) (w := ⟨split, shared, none, chars! "normal"⟩) 5 url none
  obtain ⟨F2, r2, h2, _⟩ := resolve_ends (n := n) (w := ⟨split, shared, none, chars! "highlight"⟩) 5 url none
  have hs := hF (F + F1 + F2) (by omega)
  unfold createResolvedSelector at hs
  rw [h1 _ (by omega), h2 _ (by omega)] at hs
  cases r1 with
  | throws => cases hs
  | ub => cases hs
  | ok a =>
    cases r2 with
    | throws => cases hs
    | ub => cases hs
    | ok b =>
      have hs' : newStyleMap [newPair (chars! "normal") (clearIds a.resolved),
        newPair (chars! "highlight") (clearIds b.resolved)] = style := by
        simp only [Run.andThen, Option.some.injEq, Outcome.ok.injEq] at hs
        exact hs
      refine ⟨F1 + F2, a, b, fun fuel hf => ⟨h1 _ (by omega), h2 _ (by omega)⟩, ?_⟩
      subst hs'
      refine ⟨rfl, ?_, rfl⟩
      rfl

section

variable {n : NumLib} {split : Str → Option (Str × Str)} {resolve : StdMap Elem → Str → Outcome Elem}

theorem inline_or {name : Str} {attrs : List (Str × Str)} {ks : List Xml}
    (hold : (Xml.elem name attrs ks).All NotOldSchema) (htame : (Xml.elem name attrs ks).Tame)
    (hneat : (Xml.elem name attrs ks).Neat) (hfirst : StylesFirst (docMarks name ks)) {e' : Elem} {F : StdMap Elem}
    (h : inlineStyles n split resolve (Xml.elem name attrs ks).events = .ok (some e', F)) (j : Option Elem) :
    ∃ e, parseEvents n ([] : List (Observer Unit)) () (Xml.elem name attrs ks).events = .ok (some e, ()) ∧
      e' = e.inlined (localOr j split resolve F) ∧ Put n (localOr j split resolve F) (docMarks name ks) [] F := by
  unfold inlineStyles at h
  cases hp : parseWith n (inliner split resolve) Inliner.init (Xml.elem name attrs ks).events with
  | throws => rw [hp] at h; cases h
  | ub => rw [hp] at h; cases h
  | ok r =>
    rw [hp] at h
    simp only [Outcome.ok_bind, Outcome.ok.injEq, Prod.mk.injEq] at h
    obtain ⟨r1, s⟩ := r
    obtain ⟨rfl, rfl⟩ := h
    have hroot := buildRootW_of_parse hold htame hp
    obtain ⟨e, h1, h2, h3⟩ := root_inline (j := j) hneat hfirst hroot
    exact ⟨e, parse_of_buildRoot hold htame h1, h2, h3⟩

theorem mem_inlinedAll {gives : Str → Option Elem} {es : List Elem} {x : Elem} :
    x ∈ inlinedAll gives es ↔ ∃ y ∈ es, x = y.inlined gives := by
  rw [inlinedAll_map, List.mem_map]
  exact ⟨fun ⟨y, h, e⟩ => ⟨y, h, e.symm⟩, fun ⟨y, h, e⟩ => ⟨y, h, e.symm⟩⟩

theorem slot_other {gives : Str → Option Elem} {t : Ty} {slots : Mem → List Elem} {m : Mem} {v : List Elem}
    (h1 : m ≠ M.«styleurl») (h2 : m ≠ M.«styleselector») (h3 : m ≠ M.«styleselector_array») :
    slotInlined gives t slots m v = v := by
  unfold slotInlined
  rw [if_neg (fun h => h3 h.2)]
  split
  · split
    · first | rw [if_neg h1, if_neg h2] | rfl
    · rfl
  · rfl

/-- The elements outside afterwards are those outside before. -/
theorem outside_inlined {gives : Str → Option Elem} {e' f : Elem} (h : OutsideUpdate e' f) :
    ∀ e, e' = e.inlined gives → ∃ g, OutsideUpdate e g ∧ f = g.inlined gives := by
  induction h with
  | here e' => exact fun e he => ⟨e, .here e, he⟩
  | @slot _ _ _ _ _ m y _ ht h1 h2 h3 hm _ ih =>
    intro e he
    cases e with
    | field => cases he
    | node t a slots mis unk =>
      rw [Elem.inlined] at he
      split at he
      · cases he
        contradiction
      · rename_i hu
        cases he
        have : ∃ z ∈ slots m, y = z.inlined gives := by
          refine mem_inlinedAll.1 ?_
          dsimp only at hm
          rwa [slot_other h1 h2 h3] at hm
        obtain ⟨z, hz, rfl⟩ := this
        obtain ⟨g, hg, rfl⟩ := ih z rfl
        exact ⟨g, .slot hu h1 h2 h3 hz hg, rfl⟩
  | misplaced ht hm _ ih =>
    intro e he
    cases e with
    | field => cases he
    | node t a slots mis unk =>
      rw [Elem.inlined] at he
      split at he
      · cases he
        contradiction
      · rename_i hu
        cases he
        obtain ⟨z, hz, rfl⟩ := mem_inlinedAll.1 hm
        obtain ⟨g, hg, rfl⟩ := ih z rfl
        exact ⟨g, .misplaced hu hz hg, rfl⟩

theorem inlined_outside {gives : Str → Option Elem} {e f : Elem} (h : OutsideUpdate e f) :
    OutsideUpdate (e.inlined gives) (f.inlined gives) := by
  induction h with
  | here e => exact .here _
  | slot ht h1 h2 h3 hm _ ih =>
    rw [Elem.inlined, if_neg ht]
    refine .slot ht h1 h2 h3 ?_ ih
    rw [slot_other h1 h2 h3]
    exact mem_inlinedAll.2 ⟨_, hm, rfl⟩
  | misplaced ht hm _ ih =>
    rw [Elem.inlined, if_neg ht]
    exact .misplaced ht (mem_inlinedAll.2 ⟨_, hm, rfl⟩) ih

/-- A feature that has a reference. -/
theorem feature_after {gives : Str → Option Elem} {f : Elem} {url : Str} (hf : featureTypes.contains f.ty = true)
    (hu : single (f.items M.«styleurl») = some url) :
    (gives url = none → (f.inlined gives).items M.«styleurl» = inlinedAll gives (f.items M.«styleurl»)) ∧
    ∀ style, gives url = some style → (f.inlined gives).items M.«styleurl» = [] ∧
      (f.inlined gives).only M.«styleselector» = some style := by
  cases f with
  | field => cases hu
  | node t a slots mis unk =>
    have hnd : t ≠ Ty.«Document» := by
      rintro rfl
      rw [show (Elem.node _ a slots mis unk).ty = Ty.«Document» from rfl, document_not_feature] at hf
      cases hf
    have hnu : t ≠ Ty.«Update» := by
      rintro rfl
      exact absurd (show featureTypes.contains Ty.«Update» = true from hf) (by decide)
    have hft : featureTypes.contains t = true := hf
    have hsu : single (slots M.«styleurl») = some url := hu
    have hne : M.«styleselector» ≠ M.«styleurl» := by decide
    rw [Elem.inlined, if_neg hnu]
    refine ⟨fun hg => ?_, fun style hg => ⟨?_, ?_⟩⟩
    · simp only [Elem.items, slotInlined, hnd, false_and, if_false, hft, if_true, hsu, Option.bind_some, hg]
    · simp only [Elem.items, slotInlined, hnd, false_and, if_false, hft, if_true, hsu, Option.bind_some, hg]
    · simp only [Elem.only, slotInlined, hnd, false_and, if_false, hft, if_true, hsu, Option.bind_some, hg, hne,
        List.head?_cons]

theorem inlined_items_none {gives : Str → Option Elem} {f : Elem} (hf : featureTypes.contains f.ty = true)
    (hu : single (f.items M.«styleurl») = none) : single ((f.inlined gives).items M.«styleurl») = none := by
  cases f with
  | field => rfl
  | node t a slots mis unk =>
    have hft : featureTypes.contains t = true := hf
    have hsu : single (slots M.«styleurl») = none := hu
    rw [Elem.inlined]
    split
    · exact hu
    · rename_i hnu
      simp only [Elem.items, slotInlined, hft, if_true, hsu, Option.bind_none]
      split
      · rename_i h
        exact absurd h.2 (by decide)
      · rw [single_inlined]
        exact hsu

end

/-- **C51, the document.** Inlining the styles gives the elements the document stands for, without the shared styles of
documents, and with the style in place of a reference in each feature outside `Update` whose reference gives one; `F`
are the shared styles.

Missing from the full property: a shared style after a reference to it (`C51_after_violated`), a feature with a style of
its own besides the reference (`C51_inline_violated`), and references in the pairs of style maps (`C51_pair_violated`).
A document with an old-style schema is not considered. -/
theorem C51_partial (n : NumLib) (split : Str → Option (Str × Str)) (resolve : StdMap Elem → Str → Outcome Elem)
    (name : Str) (attrs : List (Str × Str)) (ks : List Xml)
    (hold : (Xml.elem name attrs ks).All NotOldSchema) (htame : (Xml.elem name attrs ks).Tame)
    (hneat : (Xml.elem name attrs ks).Neat) (hfirst : StylesFirst (docMarks name ks)) (e' : Elem) (F : StdMap Elem)
    (h : inlineStyles n split resolve (Xml.elem name attrs ks).events = .ok (some e', F)) :
    ∃ e styles, parseEvents n [] () (Xml.elem name attrs ks).events = .ok (some e, ()) ∧
      e' = e.inlined (localStyle split resolve F) ∧
      Each (StandsFor n Ty.«Document») ((docMarks name ks).filterMap id) styles ∧
      F = sharedMap (localStyle split resolve F) styles := by
  obtain ⟨e, h1, h2, styles, h3, h4⟩ := inline_or hold htame hneat hfirst h none
  rw [localOr_none] at h2 h4
  exact ⟨e, styles, h1, h2, h3, h4⟩

/-- **C51, references.** Afterwards no feature outside `Update` refers to a shared style there is. -/
theorem C51_refs_partial (n : NumLib) (split : Str → Option (Str × Str)) (resolve : StdMap Elem → Str → Outcome Elem)
    (name : Str) (attrs : List (Str × Str)) (ks : List Xml)
    (hold : (Xml.elem name attrs ks).All NotOldSchema) (htame : (Xml.elem name attrs ks).Tame)
    (hneat : (Xml.elem name attrs ks).Neat) (hfirst : StylesFirst (docMarks name ks)) (e' : Elem) (F : StdMap Elem)
    (h : inlineStyles n split resolve (Xml.elem name attrs ks).events = .ok (some e', F)) (f : Elem)
    (hf : OutsideUpdate e' f) (hfeat : featureTypes.contains f.ty = true) (url id : Str)
    (hurl : single (f.items M.«styleurl») = some url) (hsplit : split url = some ([], id)) : F.get id = none := by
  -- with a style in place of one that cannot be resolved, no reference to one there is remains
  obtain ⟨e, _, h2, _⟩ := inline_or hold htame hneat hfirst h (some (newNode Ty.«Style»))
  obtain ⟨g, hg, rfl⟩ := outside_inlined hf e h2
  rw [inlined_ty] at hfeat
  rcases Option.eq_none_or_eq_some (single (g.items M.«styleurl»)) with hs | ⟨u, hs⟩
  · rw [inlined_items_none hfeat hs] at hurl
    cases hurl
  · obtain ⟨k1, k2⟩ := feature_after (gives := localOr (some (newNode Ty.«Style»)) split resolve F) hfeat hs
    rcases Option.eq_none_or_eq_some (localOr (some (newNode Ty.«Style»)) split resolve F u) with hg | ⟨st, hg⟩
    · rw [k1 hg, single_inlined, hs] at hurl
      cases hurl
      unfold localOr at hg
      rw [hsplit] at hg
      simp only at hg
      split at hg
      · split at hg <;> cases hg
      · rename_i hn
        simpa using hn
    · rw [(k2 st hg).1] at hurl
      cases hurl

/-- **C51, styles.** Each feature outside `Update` that referred to a shared style has the resolved style in place of the
reference. -/
theorem C51_styles_partial (n : NumLib) (split : Str → Option (Str × Str)) (resolve : StdMap Elem → Str → Outcome Elem)
    (name : Str) (attrs : List (Str × Str)) (ks : List Xml)
    (hold : (Xml.elem name attrs ks).All NotOldSchema) (htame : (Xml.elem name attrs ks).Tame)
    (hneat : (Xml.elem name attrs ks).Neat) (hfirst : StylesFirst (docMarks name ks)) (e' : Elem) (F : StdMap Elem)
    (h : inlineStyles n split resolve (Xml.elem name attrs ks).events = .ok (some e', F)) (e : Elem)
    (he : parseEvents n ([] : List (Observer Unit)) () (Xml.elem name attrs ks).events = .ok (some e, ())) (f : Elem)
    (hf : OutsideUpdate e f) (hfeat : featureTypes.contains f.ty = true) (url id : Str)
    (hurl : single (f.items M.«styleurl») = some url) (hsplit : split url = some ([], id))
    (hid : (F.get id).isSome = true) :
    ∃ style f', resolve F url = .ok style ∧ OutsideUpdate e' f' ∧ f'.head = f.head ∧
      f'.only M.«styleselector» = some style ∧ f'.items M.«styleurl» = [] := by
  have hex : ∃ style, resolve F url = .ok style := by
    by_contra hno
    have hbad : ∀ j, localOr j split resolve F url = j := by
      intro j
      unfold localOr
      rw [hsplit]
      simp only
      rw [if_pos hid]
      cases hr : resolve F url with
      | ok style => exact absurd ⟨style, hr⟩ hno
      | throws => rfl
      | ub => rfl
    -- a reference that stays, and one that does not
    obtain ⟨e1, h1, h2, _⟩ := inline_or hold htame hneat hfirst h (some (newNode Ty.«Style»))
    obtain ⟨e2, h3, h4, _⟩ := inline_or hold htame hneat hfirst h none
    rw [he] at h1 h3
    cases h1
    cases h3
    have key : ∀ {e f : Elem}, OutsideUpdate e f → featureTypes.contains f.ty = true →
        single (f.items M.«styleurl») = some url →
        e.inlined (localOr (some (newNode Ty.«Style»)) split resolve F) ≠ e.inlined (localOr none split resolve F) := by
      intro e f hf
      induction hf with
      | here f =>
        intro hfeat hurl heq
        have k1 := (feature_after (gives := localOr (some (newNode Ty.«Style»)) split resolve F) hfeat hurl).2 _ (hbad _)
        have k2 := (feature_after (gives := localOr none split resolve F) hfeat hurl).1 (hbad _)
        rw [heq, k2] at k1
        have := congrArg single k1.1
        rw [single_inlined, hurl] at this
        cases this
      | @slot t a slots mis unk m y x ht h1 h2 h3 hm _ ih =>
        intro hfeat hurl heq
        rw [Elem.inlined, if_neg ht, Elem.inlined, if_neg ht] at heq
        simp only [Elem.node.injEq] at heq
        have hall := congrFun heq.2.2.1 m
        rw [slot_other h1 h2 h3, slot_other h1 h2 h3] at hall
        rw [inlinedAll_map, inlinedAll_map] at hall
        exact ih hfeat hurl (List.map_inj_left.1 hall y hm)
      | @misplaced t a slots mis unk y x ht hm _ ih =>
        intro hfeat hurl heq
        rw [Elem.inlined, if_neg ht, Elem.inlined, if_neg ht] at heq
        simp only [Elem.node.injEq] at heq
        have hall := heq.2.2.2.1
        rw [inlinedAll_map, inlinedAll_map] at hall
        exact ih hfeat hurl (List.map_inj_left.1 hall y hm)
    exact key hf hfeat hurl (h2.symm.trans h4)
  obtain ⟨style, hst⟩ := hex
  obtain ⟨e1, h1, h2, _⟩ := inline_or hold htame hneat hfirst h none
  rw [he] at h1
  cases h1
  have hg : localOr none split resolve F url = some style := by
    unfold localOr
    rw [hsplit]
    simp only
    rw [if_pos hid, hst]
  obtain ⟨k1, k2⟩ := (feature_after (gives := localOr none split resolve F) hfeat hurl).2 style hg
  refine ⟨style, f.inlined (localOr none split resolve F), hst, ?_, inlined_head f, k2, k1⟩
  rw [h2]
  exact inlined_outside hf

/-- **C51, documents.** Afterwards no document outside `Update` has a shared style. -/
theorem C51_documents_partial (n : NumLib) (split : Str → Option (Str × Str)) (resolve : StdMap Elem → Str → Outcome Elem)
    (name : Str) (attrs : List (Str × Str)) (ks : List Xml)
    (hold : (Xml.elem name attrs ks).All NotOldSchema) (htame : (Xml.elem name attrs ks).Tame)
    (hneat : (Xml.elem name attrs ks).Neat) (hfirst : StylesFirst (docMarks name ks)) (e' : Elem) (F : StdMap Elem)
    (h : inlineStyles n split resolve (Xml.elem name attrs ks).events = .ok (some e', F)) (d : Elem)
    (hd : OutsideUpdate e' d) (hdoc : d.ty = Ty.«Document») (x : Elem) (hx : x ∈ d.items M.«styleselector_array») :
    x.objectId = none := by
  obtain ⟨e, _, h2, _⟩ := inline_or hold htame hneat hfirst h none
  obtain ⟨g, hg, rfl⟩ := outside_inlined hd e h2
  rw [inlined_ty] at hdoc
  cases g with
  | field => rw [Elem.inlined] at hx; cases hx
  | node t a slots mis unk =>
    have ht : t = Ty.«Document» := hdoc
    subst ht
    rw [Elem.inlined, if_neg (by decide)] at hx
    simp only [Elem.items, slotInlined] at hx
    rw [if_pos (by trivial), List.mem_filter] at hx
    simpa using hx.2

/-! ### An example, and what goes wrong -/

/-- `CreateResolvedStyleSelector` with fuel enough for the examples. -/
def resolveHere (shared : StdMap Elem) (url : Str) : Outcome Elem :=
  (createResolvedSelector NumLib.integers splitLocal 20 shared url).getD .throws

/-- The document after inlining, as text. -/
def inlinedText (doc : Xml) : Option Str :=
  match inlineStyles NumLib.integers splitLocal resolveHere doc.events with
  | .ok (some e, _) =>
    match serializeRaw e with
    | .ok s => some s
    | _ => none
  | _ => none

/-- `<styleUrl>#s</styleUrl>` -/
def refToS : Xml := .elem (chars! "styleUrl") [] [.text (chars! "#s")]

/-- `<Style id="s"><LabelStyle/></Style>` -/
def styleS : Xml := inlineStyle [(chars! "id", ['s'])]

/-- A shared style and a feature that refers to it. -/
def inlineKids : List Xml := [styleS, .elem (chars! "Placemark") [] [refToS]]

example : inlinedText (.elem (chars! "Document") [] inlineKids) =
    some (chars! "<Document><Placemark><StyleMap><Pair><key>normal</key><Style><LabelStyle/></Style></Pair><Pair><key>highlight</key><Style><LabelStyle/></Style></Pair></StyleMap></Placemark></Document>") := by
  decide +kernel

/-- The hypotheses of the theorems are met by that document. -/
example : (Xml.elem (chars! "Document") [] inlineKids).All NotOldSchema ∧
    (Xml.elem (chars! "Document") [] inlineKids).Tame ∧ (Xml.elem (chars! "Document") [] inlineKids).Neat ∧
    docMarks (chars! "Document") inlineKids = [some styleS, none] ∧ StylesFirst [some styleS, none] := by
  have h : isKnown (chars! "Document") = true ∧ isKnown (chars! "Placemark") = true ∧
    isKnown (chars! "Style") = true ∧ isKnown (chars! "LabelStyle") = true ∧ isKnown (chars! "styleUrl") = true := by
    decide +kernel
  obtain ⟨h1, h2, h3, h4, h5⟩ := h
  have ht : Xsd.elementId (chars! "Document") = Ty.«Document» ∧ tyIn Ty.«Document» (chars! "Placemark") = Ty.«Placemark» ∧
    tyIn Ty.«Document» (chars! "Style") = Ty.«Style» := by decide +kernel
  obtain ⟨t1, t2, t3⟩ := ht
  refine ⟨by simp [inlineKids, styleS, refToS, inlineStyle, Xml.All, AllOf, NotOldSchema],
    by simp [inlineKids, styleS, refToS, inlineStyle, Xml.Tame, TameAll, h1, h2, h3, h5],
    by simp [inlineKids, styleS, refToS, inlineStyle, Xml.Neat, NeatAll, Xml.named], ?_, by simp [StylesFirst]⟩
  simp [docMarks, marksOf, inlineKids, styleS, refToS, inlineStyle, Xml.marks, h2, h3, h4, h5, t1, t2, t3, markOf,
    featureTypes, attrValue]

/-- **C51 fails: a shared style after a reference to it.** The style is gone and the reference stays. -/
theorem C51_after_violated :
    inlinedText (.elem (chars! "Document") [] [.elem (chars! "Placemark") [] [refToS], styleS]) =
      some (chars! "<Document><Placemark><styleUrl>#s</styleUrl></Placemark></Document>") := by decide +kernel

/-- **C51 fails: a feature with a style of its own.** It is lost, though it counts for more than the shared one. -/
theorem C51_inline_violated :
    inlinedText (.elem (chars! "Document") [] [styleS,
        .elem (chars! "Placemark") [] [.elem (chars! "Style") [] [.empty (chars! "LineStyle") []], refToS]]) =
      some (chars! "<Document><Placemark><StyleMap><Pair><key>normal</key><Style><LabelStyle/></Style></Pair><Pair><key>highlight</key><Style><LabelStyle/></Style></Pair></StyleMap></Placemark></Document>") := by
  decide +kernel

/-- **C51 fails: a style map in a feature.** The style is gone and the reference in the pair stays. -/
theorem C51_pair_violated :
    inlinedText (.elem (chars! "Document") [] [styleS, .elem (chars! "Placemark") []
        [.elem (chars! "StyleMap") [] [.elem (chars! "Pair") [] [refToS]]]]) =
      some (chars! "<Document><Placemark><StyleMap><Pair><styleUrl>#s</styleUrl></Pair></StyleMap></Placemark></Document>") := by
  decide +kernel

end Kml.Dom
