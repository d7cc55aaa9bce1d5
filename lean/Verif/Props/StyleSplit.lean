import Verif.Lemmas.StyleSplit

/-!
# C50: moving inline styles into shared styles

`splitRoot` (Spec/StyleSplit.lean) rewrites the text of a document: inline styles become references `#_0`, `#_1`, ...;
`Taken` says that the styles added to the document are those taken out, under these ids.
-/

namespace Kml.Dom

open Kml

/-- **C50.** Splitting the styles of a document gives what the document with references instead of inline styles
stands for, and the `k`-th style added to the document is the one taken out in place of the reference `#_k`: the same
attributes, members and misplaced elements, under the id `_k`.

Missing from the full property: styles with an id of their own (`C50_id_violated`), a `styleUrl` after the inline
style (`C50_after_violated`), unknown elements in the style (`C50_unknown_violated`), and a style that cannot be copied
(C35).  A document with an old-style schema is not considered. -/
theorem C50_partial (n : NumLib) (name : Str) (attrs : List (Str × Str)) (ks : List Xml)
    (hold : (Xml.elem name attrs ks).All NotOldSchema) (htame : (Xml.elem name attrs ks).Tame)
    (hmov : AllMovable n (splitRoot name ks).2.styles) (e : Elem) (added : List Elem)
    (h : splitStyles n (Xml.elem name attrs ks).events = .ok (some e, added)) :
    parseEvents n [] () (Xml.elem name attrs (splitRoot name ks).1).events = .ok (some e, ()) ∧
      Taken n (splitRoot name ks).2.styles added := by
  unfold splitStyles at h
  cases hp : parseWith n (splitter n) Splitter.init (Xml.elem name attrs ks).events with
  | throws => rw [hp] at h; cases h
  | ub => rw [hp] at h; cases h
  | ok r =>
    rw [hp] at h
    simp only [Outcome.ok_bind, Outcome.ok.injEq, Prod.mk.injEq] at h
    obtain ⟨r1, s⟩ := r
    obtain ⟨rfl, rfl⟩ := h
    have hroot := buildRootW_of_parse hold htame hp
    obtain ⟨h1, h2⟩ := root_along hmov hroot
    have hk : isKnown name = true := by
      have := makeElement_isSome n none name attrs
      rw [← this]
      unfold buildRootW at hroot
      cases hm : makeElement n none (Xsd.elementId name) attrs with
      | none => rw [hm] at hroot; cases hroot
      | some => rfl
    refine ⟨parse_of_buildRoot ⟨hold.1, ?_⟩ ?_ h1, h2.taken⟩
    · unfold splitRoot
      split
      · exact hold.2
      · exact splitOf_old ks _ _ _ hold.2
    · simp only [Xml.Tame, splitRoot] at htame ⊢
      split
      · trivial
      · rename_i hn
        simp only [if_neg hn, if_pos hk] at htame ⊢
        exact splitOf_tame ks _ _ _ htame

/-- **C50, ids.** The styles added have the ids `_0`, `_1` and so on, so that each reference is to one of them, and to
one only. -/
theorem C50_ids_partial (n : NumLib) (name : Str) (attrs : List (Str × Str)) (ks : List Xml)
    (hold : (Xml.elem name attrs ks).All NotOldSchema) (htame : (Xml.elem name attrs ks).Tame)
    (hmov : AllMovable n (splitRoot name ks).2.styles) (e : Elem) (added : List Elem)
    (h : splitStyles n (Xml.elem name attrs ks).events = .ok (some e, added)) (j k : Nat) (a : Elem)
    (ha : added[j]? = some a) : a.objectId = some ('_' :: Nat.toDigits 10 k) ↔ j = k := by
  obtain ⟨_, h1, h2⟩ := C50_partial n name attrs ks hold htame hmov e added h
  obtain ⟨p, x, hx⟩ : ∃ p x, (splitRoot name ks).2.styles[j]? = some (p, x) := by
    have hlt := (List.getElem?_eq_some_iff.1 ha).1
    rw [h1] at hlt
    exact ⟨_, _, List.getElem?_eq_getElem hlt⟩
  obtain ⟨c, hc, hty, hadd⟩ := h2 j p x hx
  rw [ha] at hadd
  simp only [Option.some.injEq] at hadd
  rw [hadd, sharedStyle_id hc hty]
  simp only [Option.some.injEq]
  exact ⟨fun h => uniqueId_inj h, fun h => by rw [h]; rfl⟩

/-! ### An example, and what goes wrong -/

/-- `<Document><Placemark>`content`</Placemark></Document>` -/
def splitDoc (content : List Xml) : Xml :=
  .elem (chars! "Document") [] [.elem (chars! "Placemark") [] content]

/-- What a feature refers to and the style it has: its `styleUrl`, and whether it has an inline style. -/
def Elem.styling (e : Elem) : Str × Bool := (e.text M.«styleurl», (e.only M.«styleselector»).isSome)

/-- The styling of the features of a document, and the ids of the shared styles added and whether they have a
`LabelStyle`. -/
def splitResult (doc : Xml) : Option (List (Str × Bool) × List (Option Str × Bool)) :=
  match splitStyles NumLib.integers doc.events with
  | .ok (some e, added) =>
    some ((e.items M.«feature_array»).map Elem.styling,
      added.map fun a => (a.objectId, (a.only M.«labelstyle»).isSome))
  | _ => none

/-- `<Style><LabelStyle/></Style>` -/
def inlineStyle (attrs : List (Str × Str)) : Xml := .elem (chars! "Style") attrs [.empty (chars! "LabelStyle") []]

/-- An inline style is moved: before it was in the feature, afterwards the feature refers to it. -/
example : splitResult (splitDoc [inlineStyle []]) =
    some ([(chars! "#_0", false)], [(some (chars! "_0"), true)]) := by decide +kernel

example : (splitRoot (chars! "Document") [.elem (chars! "Placemark") [] [inlineStyle []]]).1.length = 1 ∧
    (splitRoot (chars! "Document") [.elem (chars! "Placemark") [] [inlineStyle []]]).2.styles.length = 1 := by decide +kernel

/-- The element `inlineStyle []` stands for. -/
theorem inlineStyle_stands {n : NumLib} {c : Elem} (h : StandsFor n Ty.«Placemark» (inlineStyle []) c) :
    c = .node Ty.«Style» .empty (setSlot (fun _ => []) M.«labelstyle» [newNode Ty.«LabelStyle»]) [] [] := by
  obtain ⟨name, attrs, ks, d, e, hx, hm, hb⟩ := h
  rcases hx with ⟨hx, _⟩ | hx
  · cases hx
  · cases hx
    have hm' : makeElement n (some Ty.«Placemark») (Xsd.elementId (chars! "Style")) [] = some (newNode Ty.«Style») := by
      have : Xsd.elementId (chars! "Style") = Ty.«Style» ∧ Xsd.elementType Ty.«Style» = .complex ∧
        (classOf Ty.«Style»).isSome = true := by decide +kernel
      obtain ⟨h1, h2, h3⟩ := this
      obtain ⟨cl, h3⟩ := Option.isSome_iff_exists.1 h3
      rw [h1]
      unfold makeElement
      rw [h2]
      simp only [h3]
      rfl
    rw [hm'] at hm
    cases hm
    obtain ⟨s1, _, h2⟩ := buildKnown_inv hb
    rcases h2 with ⟨h2, _⟩ | ⟨_, e1, text, hk, hf⟩
    · cases h2
    · obtain ⟨c1, t1, s2, hkid, hnil⟩ := buildKids_cons_inv hk
      rw [buildKids] at hnil
      cases hnil
      rw [buildKid] at hkid
      obtain ⟨_, ht, h3⟩ := buildChild_inv hkid
      subst ht
      have hl : isKnown (chars! "LabelStyle") = true ∧ Xsd.elementId (chars! "LabelStyle") = Ty.«LabelStyle» ∧
        Xsd.elementType Ty.«LabelStyle» = .complex ∧ (classOf Ty.«LabelStyle»).isSome = true ∧
        (taker Ty.«Style» (newNode Ty.«LabelStyle»)) = some (.one M.«labelstyle») := by decide +kernel
      obtain ⟨l1, l2, l3, l4, l5⟩ := hl
      rcases h3 with ⟨hk, _⟩ | ⟨_, e2, child, s3, hm2, hb2, hg, _⟩
      · rw [l1] at hk; cases hk
      · have he2 : e2 = newNode Ty.«LabelStyle» := by
          obtain ⟨cl, l4⟩ := Option.isSome_iff_exists.1 l4
          rw [l2] at hm2
          unfold makeElement at hm2
          rw [l3] at hm2
          simp only [l4] at hm2
          cases hm2
          rfl
        subst he2
        obtain ⟨s4, _, h5⟩ := buildKnown_inv hb2
        rcases h5 with ⟨h5, _⟩ | ⟨_, e3, text3, hk3, hf3⟩
        · cases h5
        · cases hk3
          have : child = newNode Ty.«LabelStyle» := by
            unfold finishElement at hf3
            rw [show selfParsing (newNode Ty.«LabelStyle»).ty = false from rfl] at hf3
            cases hf3
            rfl
          subst this
          have hgive : addElement n [] (newNode Ty.«Style») (newNode Ty.«LabelStyle») = .ok e1 := hg
          rw [newNode, addElement_taken l5 (v := [newNode Ty.«LabelStyle»]) rfl] at hgive
          cases hgive
          unfold finishElement at hf
          cases hf
          rfl

/-- The hypotheses of `C50_partial` are met by a document with an inline style. -/
example (n : NumLib) : (splitDoc [inlineStyle []]).All NotOldSchema ∧ (splitDoc [inlineStyle []]).Tame ∧
    (splitRoot (chars! "Document") [.elem (chars! "Placemark") [] [inlineStyle []]]).2.styles =
      [(Ty.«Placemark», inlineStyle [])] ∧ AllMovable n [(Ty.«Placemark», inlineStyle [])] := by
  have h : isKnown (chars! "Document") = true ∧ isKnown (chars! "Placemark") = true ∧
    isKnown (chars! "Style") = true ∧ isKnown (chars! "LabelStyle") = true := by decide +kernel
  obtain ⟨h1, h2, h3, h4⟩ := h
  refine ⟨by simp [splitDoc, inlineStyle, Xml.All, AllOf, NotOldSchema],
    by simp [splitDoc, inlineStyle, Xml.Tame, TameAll, h1, h2, h3], ?_, ?_⟩
  · have ht : tyIn (Xsd.elementId (chars! "Document")) (chars! "Placemark") = Ty.«Placemark» := by decide +kernel
    simp [splitRoot, splitOf, Xml.split, inlineStyle, h2, h3, h4, Moved.init, Moved.start, Moved.finish, ht, featureTypes]
  · intro s hs
    cases List.mem_singleton.1 hs
    refine ⟨by simp [inlineStyle, Xml.attributes], fun c hc => ?_⟩
    rw [inlineStyle_stands hc]
    have hslots : ∀ m, ∀ x ∈ setSlot (fun _ => []) M.«labelstyle» [newNode Ty.«LabelStyle»] m, x = newNode Ty.«LabelStyle» := by
      intro m x hx
      unfold setSlot at hx
      split at hx
      · exact List.mem_singleton.1 hx
      · cases hx
    have inner : ∀ P : Elem → Prop, P (newNode Ty.«LabelStyle») → Everywhere P (newNode Ty.«LabelStyle») := fun P h =>
      .node h (fun m x hx => by cases hx) (fun x hx => by cases hx)
    refine ⟨.node ⟨?_, (fun h => absurd h (by decide))⟩ (fun m x hx => ?_) (fun x hx => by cases hx),
      .node ⟨(fun h => absurd h (by decide)), (fun h => absurd h (by decide)), (fun h => absurd h (by decide))⟩ (fun m x hx => ?_) (fun x hx => by cases hx),
      .node (fun x hx => by cases hx) (fun m x hx => ?_) (fun x hx => by cases hx)⟩
    · intro m x hx act t s _ _ heq
      rw [hslots m x hx] at heq
      cases heq
    · rw [hslots m x hx]
      exact inner _ ⟨(fun m x hx => by cases hx), (fun h => absurd h (by decide))⟩
    · rw [hslots m x hx]
      exact inner _ ⟨(fun h => absurd h (by decide)), (fun h => absurd h (by decide)), (fun h => absurd h (by decide))⟩
    · rw [hslots m x hx]
      exact inner _ (fun x hx => by cases hx)

/-- **C50 fails: a style with an id.** The feature refers to `#_0`, but the style was added under its own id. -/
theorem C50_id_violated : splitResult (splitDoc [inlineStyle [(chars! "id", ['a'])]]) =
    some ([(chars! "#_0", false)], [(some ['a'], true)]) := by decide +kernel

/-- **C50 fails: a reference after the style.** The feature no longer refers to its former inline style. -/
theorem C50_after_violated :
    splitResult (splitDoc [inlineStyle [], .elem (chars! "styleUrl") [] [.text (chars! "#x")]]) =
      some ([(chars! "#x", false)], [(some (chars! "_0"), true)]) := by decide +kernel

/-- **C50 fails: unknown elements.** They are not moved with the style. -/
theorem C50_unknown_violated :
    (match splitStyles NumLib.integers (splitDoc [.elem (chars! "Style") [] [.empty (chars! "foo") []]]).events with
      | .ok (some _, [.node _ _ _ _ unk]) => unk
      | _ => [[]]) = [] ∧
    (match parseEvents NumLib.integers [] () (splitDoc [.elem (chars! "Style") [] [.empty (chars! "foo") []]]).events with
      | .ok (some e, _) =>
        (e.items M.«feature_array»).flatMap fun f =>
          match f.only M.«styleselector» with
          | some (.node _ _ _ _ unk) => unk
          | _ => []
      | _ => []) = [chars! "<foo></foo>\n"] := by
  decide +kernel

end Kml.Dom
