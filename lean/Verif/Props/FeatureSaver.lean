import Verif.Lemmas.Pick
import Verif.Lemmas.StyleInline
import Verif.Spec.Numbers

/-!
# C87: the saver of features takes all features out of a document
-/

namespace Kml.Dom

open Kml

theorem saver_classes : ∀ e ∈ classes,
    (decide (Ty.«Feature» ∈ e.2.isA) && !decide (Ty.«Container» ∈ e.2.isA)) = decide (e.1 ∈ savedTypes) ∧
    decide (Ty.«StyleSelector» ∈ e.2.isA) = decide (e.1 ∈ [Ty.«Style», Ty.«StyleMap»]) ∧
    decide (Ty.«Document» ∈ e.2.isA) = decide (e.1 = Ty.«Document») := by decide +kernel

theorem saver_simple : ∀ t ∈ Ty.«Feature» :: Ty.«StyleSelector» :: Ty.«Style» :: Ty.«StyleMap» :: savedTypes,
    Xsd.elementType t ≠ .simple := by decide +kernel

theorem saver_objects : ∀ t ∈ [Ty.«Style», Ty.«StyleMap»], (newNode t).isA Ty.«Object» = true := by decide +kernel

section

attribute [local irreducible] kml22Elements Xsd.tagToId classes inc dec uintSize

theorem isA_class {t : Ty} {c : Class} (hc : classOf t = some c) (a : Attrs) (slots : Mem → List Elem) (mis : List Elem)
    (unk : List Str) (T : Ty) : (Elem.node t a slots mis unk).isA T = decide (T ∈ c.isA) := by
  simp only [Elem.isA, hc]

theorem parent_document (e : Elem) : e.isA Ty.«Document» = decide (e.ty = Ty.«Document») := by
  cases e with
  | field t s => rfl
  | node t a slots mis unk =>
    rcases Option.eq_none_or_eq_some (classOf t) with hc | ⟨c, hc⟩
    · simp only [Elem.isA, hc]
      rfl
    · rw [isA_class hc, (saver_classes _ (classOf_pair hc)).2.2]
      rfl

/-- What the saver sees of an element that was made from a tag. -/
theorem made_like {n : NumLib} {p : Ty} {name : Str} {attrs : List (Str × Str)} {e child : Elem}
    (hm : makeElement n (some p) (Xsd.elementId name) attrs = some e) (hh : child.head = e.head) :
    (child.isA Ty.«Feature» && !child.isA Ty.«Container») = decide (Xsd.elementId name ∈ savedTypes) ∧
    (child.isA Ty.«Feature» && !child.isA Ty.«Container») = decide (child.ty ∈ savedTypes) ∧
    child.isA Ty.«StyleSelector» = decide (Xsd.elementId name ∈ [Ty.«Style», Ty.«StyleMap»]) ∧
    child.isA Ty.«StyleSelector» = decide (child.ty ∈ [Ty.«Style», Ty.«StyleMap»]) ∧
    decide (child.ty = Ty.«Update») = decide (Xsd.elementId name = Ty.«Update») ∧
    (Xsd.elementId name ∈ [Ty.«Style», Ty.«StyleMap»] → child.objectId = attrValue (chars! "id") attrs) := by
  have hty : child.ty = tyIn p name := (congrArg (·.1) hh).trans (makeElement_tyIn hm)
  have hin : ∀ L : List Ty, Ty.«Icon» ∉ L → Ty.«IconStyleIcon» ∉ L →
      decide (tyIn p name ∈ L) = decide (Xsd.elementId name ∈ L) := by
    intro L h1 h2
    unfold tyIn
    split
    · rename_i h
      rw [h.1]
      simp [h1, h2]
    · rfl
  have hf := hin savedTypes (by decide) (by decide)
  have hs := hin [Ty.«Style», Ty.«StyleMap»] (by decide) (by decide)
  have hu : decide (child.ty = Ty.«Update») = decide (Xsd.elementId name = Ty.«Update») := by
    have := hin [Ty.«Update»] (by decide) (by decide)
    rw [hty]
    simpa using this
  rw [← hty] at hf hs
  have hid : Xsd.elementId name ∈ [Ty.«Style», Ty.«StyleMap»] → child.objectId = attrValue (chars! "id") attrs := by
    intro hst
    have hst' : child.ty ∈ [Ty.«Style», Ty.«StyleMap»] := of_decide_eq_true (hs.trans (decide_eq_true hst))
    rw [objectId_head hh, start_id (t := e.ty) ⟨rfl, some p, name, hm⟩]
    unfold tagId
    rw [show e.ty = child.ty from (congrArg (·.1) hh).symm, if_pos (saver_objects _ hst')]
  have key : (child.isA Ty.«Feature» && !child.isA Ty.«Container») = decide (child.ty ∈ savedTypes) ∧
      child.isA Ty.«StyleSelector» = decide (child.ty ∈ [Ty.«Style», Ty.«StyleMap»]) := by
    rcases makeElement_cases hm with ⟨hsimple, rfl⟩ | ⟨_, hc, he⟩
    · have hne : ∀ t ∈ Ty.«Feature» :: Ty.«StyleSelector» :: Ty.«Style» :: Ty.«StyleMap» :: savedTypes,
          Xsd.elementId name ≠ t := fun t ht h => saver_simple t ht (h ▸ hsimple)
      cases child with
      | node t a slots mis unk => exact absurd (congrArg (·.2) hh) (by intro h; cases h)
      | field t s =>
        have ht : t = Xsd.elementId name := congrArg (·.1) hh
        subst ht
        have h1 : (Elem.field (Xsd.elementId name) s).isA Ty.«Feature» = false :=
          decide_eq_false (hne _ (by simp))
        have h2 : (Elem.field (Xsd.elementId name) s).isA Ty.«StyleSelector» = false :=
          decide_eq_false (hne _ (by simp))
        have h3 : Xsd.elementId name ∉ savedTypes := fun h => hne _ (by simp [h]) rfl
        have h4 : Xsd.elementId name ∉ [Ty.«Style», Ty.«StyleMap»] := by
          intro h
          refine hne _ ?_ rfl
          simp only [List.mem_cons, List.not_mem_nil, or_false] at h
          rcases h with h | h <;> simp [h]
        rw [h1, h2]
        exact ⟨(decide_eq_false h3).symm, (decide_eq_false h4).symm⟩
    · cases child with
      | field t s => rw [he] at hh; exact absurd (congrArg (·.2) hh) (by intro h; cases h)
      | node t a slots mis unk =>
        have ht : t = e.ty := congrArg (·.1) hh
        rw [← ht] at hc
        obtain ⟨c, hc⟩ := Option.isSome_iff_exists.1 hc
        rw [isA_class hc, isA_class hc, isA_class hc]
        exact ⟨(saver_classes _ (classOf_pair hc)).1, (saver_classes _ (classOf_pair hc)).2.1⟩
  exact ⟨key.1.trans hf, key.1, key.2.trans hs, key.2, hu, hid⟩

/-- What the saver does with an element it takes out. -/
def saverGets (base : Str) (s : Saver) (c : Elem) : Saver :=
  if c.ty = Ty.«Update» then { s with inUpdate := false }
  else if c.isA Ty.«Feature» && !c.isA Ty.«Container» then { s with features := s.features ++ [rebase base c] }
  else { s with styles := s.styles.set (c.objectId.getD []) c }

/-- Whether the saver leaves an element in its place. -/
def saverKeeps (styles : Bool) (p : Ty) (c : Elem) : Bool :=
  !(decide (c.ty = Ty.«Update») || (c.isA Ty.«Feature» && !c.isA Ty.«Container») ||
    (styles && c.isA Ty.«StyleSelector» && decide (p = Ty.«Document») && c.objectId.isSome))

theorem saver_out (n : NumLib) (styles : Bool) (base : Str) :
    TakesOut n (featureSaver styles base) (fun s => s.inUpdate = false) (saverKeeps styles) (saverGets base)
      (saverTakes styles) where
  new _ _ := rfl
  add _ _ _ := rfl
  fin s p c hs := by
    show Saver.endElement styles base s p c = _
    unfold Saver.endElement saverKeeps saverGets
    rw [parent_document, hs]
    by_cases h1 : c.ty = Ty.«Update»
    · simp [h1]
    · rw [if_neg h1, if_neg Bool.false_ne_true]
      cases h2 : (c.isA Ty.«Feature» && !c.isA Ty.«Container») with
      | true => simp [h1]
      | false =>
        cases h3 : (styles && c.isA Ty.«StyleSelector» && decide (p.ty = Ty.«Document»)) with
        | false => simp [h1]
        | true =>
          cases h4 : c.objectId with
          | none => simp [h1]
          | some id => simp [h1]
  stays s c hs := by
    unfold saverGets
    split
    · rfl
    · split <;> exact hs
  agree p name attrs e child hm hh := by
    obtain ⟨h1, _, h2, _, h3, h4⟩ := made_like hm hh
    unfold saverKeeps saverTakes
    rw [h1, h2, h3]
    by_cases hs : Xsd.elementId name ∈ [Ty.«Style», Ty.«StyleMap»]
    · rw [h4 hs]
      congr 1
      generalize decide (Xsd.elementId name ∈ savedTypes) = a
      generalize decide (Xsd.elementId name = Ty.«Update») = b
      generalize decide (Xsd.elementId name ∈ [Ty.«Style», Ty.«StyleMap»]) = c
      generalize decide (p = Ty.«Document») = d
      cases a <;> cases b <;> cases c <;> cases d <;> simp
    · simp only [decide_eq_false hs]
      generalize decide (Xsd.elementId name ∈ savedTypes) = a
      generalize decide (Xsd.elementId name = Ty.«Update») = b
      cases a <;> cases b <;> simp
  root p name attrs h := by
    have hne : Xsd.elementId name ≠ Ty.«Icon» := by
      intro hi
      unfold saverTakes at h
      rw [hi] at h
      simp [savedTypes] at h
    unfold makeElement
    simp [hne]

/-! ## The document that is left -/

mutual

theorem left_all (P : Str → List (Str × Str) → Prop) (out : Ty → Str → List (Str × Str) → Bool) :
    ∀ (x : Xml) (p : Ty), x.All P → (∀ y ∈ x.left out p, y.All P) ∧ ∀ y ∈ x.taken out p, y.All P
  | .text t, p, h => by simp [Xml.left, Xml.taken, Xml.All]
  | .empty name attrs, p, h => by
    have h' : (Xml.elem name attrs []).All P := ⟨h, trivial⟩
    rw [Xml.left, Xml.taken]
    constructor
    · split
      · simp
      · simpa using h
    · split
      · simpa using h'
      · simp
  | .elem name attrs ks, p, h => by
    have hin := leftOf_all P out ks (tyIn p name) h.2
    have hk : (Xml.elem name attrs (if name = chars! "description" then ks else leftOf out (tyIn p name) ks)).All P := by
      refine ⟨h.1, (allOf_iff P _).2 ?_⟩
      split
      · exact (allOf_iff P _).1 h.2
      · exact hin.1
    rw [Xml.left, Xml.taken]
    split
    · constructor
      · split
        · simp
        · simpa using hk
      · intro y hy
        rcases List.mem_append.1 hy with hy | hy
        · split at hy
          · cases hy
          · exact hin.2 y hy
        · split at hy
          · rw [List.mem_singleton.1 hy]; exact hk
          · cases hy
    · exact ⟨by simpa using h, by simp⟩

theorem leftOf_all (P : Str → List (Str × Str) → Prop) (out : Ty → Str → List (Str × Str) → Bool) :
    ∀ (xs : List Xml) (p : Ty), AllOf P xs → (∀ y ∈ leftOf out p xs, y.All P) ∧ ∀ y ∈ takenOf out p xs, y.All P
  | [], p, h => by simp [leftOf, takenOf]
  | x :: xs, p, h => by
    have h1 := left_all P out x p h.1
    have h2 := leftOf_all P out xs p h.2
    rw [leftOf, takenOf]
    constructor
    · intro y hy
      exact (List.mem_append.1 hy).elim (h1.1 y) (h2.1 y)
    · intro y hy
      exact (List.mem_append.1 hy).elim (h1.2 y) (h2.2 y)

end

mutual

theorem left_tame (out : Ty → Str → List (Str × Str) → Bool) :
    ∀ (x : Xml) (p : Ty), x.Tame → (∀ y ∈ x.left out p, y.Tame) ∧ ∀ y ∈ x.taken out p, y.Tame
  | .text t, p, h => by simp [Xml.left, Xml.taken, Xml.Tame]
  | .empty name attrs, p, h => by
    rw [Xml.left, Xml.taken]
    constructor
    · split
      · simp
      · simp [Xml.Tame]
    · split
      · simp [Xml.Tame, TameAll, AllOf]
      · simp
  | .elem name attrs ks, p, h => by
    rw [Xml.left, Xml.taken]
    split
    · rename_i hk
      have hin : name ≠ chars! "description" → (∀ y ∈ leftOf out (tyIn p name) ks, y.Tame) ∧
          ∀ y ∈ takenOf out (tyIn p name) ks, y.Tame := by
        intro hd
        simp only [Xml.Tame, if_neg hd, if_pos hk] at h
        exact leftOf_tame out ks (tyIn p name) h
      have hkeep : (Xml.elem name attrs (if name = chars! "description" then ks else leftOf out (tyIn p name) ks)).Tame := by
        by_cases hd : name = chars! "description"
        · simp only [Xml.Tame, if_pos hd]
        · simp only [Xml.Tame, if_neg hd, if_pos hk]
          exact (tameAll_iff _).2 (hin hd).1
      constructor
      · split
        · simp
        · simpa using hkeep
      · intro y hy
        rcases List.mem_append.1 hy with hy | hy
        · split at hy
          · cases hy
          · rename_i hd
            exact (hin hd).2 y hy
        · split at hy
          · rw [List.mem_singleton.1 hy]; exact hkeep
          · cases hy
    · exact ⟨by simpa using h, by simp⟩

theorem leftOf_tame (out : Ty → Str → List (Str × Str) → Bool) :
    ∀ (xs : List Xml) (p : Ty), TameAll xs → (∀ y ∈ leftOf out p xs, y.Tame) ∧ ∀ y ∈ takenOf out p xs, y.Tame
  | [], p, h => by simp [leftOf, takenOf]
  | x :: xs, p, h => by
    have h1 := left_tame out x p h.1
    have h2 := leftOf_tame out xs p h.2
    rw [leftOf, takenOf]
    constructor
    · intro y hy
      exact (List.mem_append.1 hy).elim (h1.1 y) (h2.1 y)
    · intro y hy
      exact (List.mem_append.1 hy).elim (h1.2 y) (h2.2 y)

end

theorem each_parse {n : NumLib} {xs : List Xml} {l : List Elem} (h : Each (RootReads n) xs l)
    (hall : ∀ y ∈ xs, y.All NotOldSchema) (htame : ∀ y ∈ xs, y.Tame) : Each (ReadAs n) xs l := by
  induction h with
  | nil => exact .nil
  | @cons a b as bs hab _ ih =>
    refine .cons ?_ (ih (fun y hy => hall y (.tail _ hy)) (fun y hy => htame y (.tail _ hy)))
    obtain ⟨name, attrs, ks, rfl, hb⟩ := hab
    exact parse_of_buildRoot (hall _ (.head _)) (htame _ (.head _)) hb

theorem gets_features (base : Str) (l : List Elem)
    (hl : ∀ c ∈ l, (c.isA Ty.«Feature» && !c.isA Ty.«Container») = decide (c.ty ∈ savedTypes)) :
    ∀ s : Saver, (l.foldl (saverGets base) s).features =
      s.features ++ (l.filter fun c => c.ty ∈ savedTypes).map (rebase base) := by
  induction l with
  | nil => intro s; simp
  | cons c l ih =>
    intro s
    rw [List.foldl_cons, ih (fun c hc => hl c (.tail _ hc))]
    have hc := hl c (.head _)
    unfold saverGets
    rw [hc]
    by_cases h1 : c.ty = Ty.«Update»
    · have : c.ty ∉ savedTypes := by rw [h1]; decide
      rw [if_pos h1, List.filter_cons_of_neg (by simpa using this)]
    · by_cases h2 : c.ty ∈ savedTypes
      · simp [h1, h2]
      · simp [h1, h2]

theorem gets_styles (base : Str) (l : List Elem)
    (hl : ∀ c ∈ l, (c.isA Ty.«Feature» && !c.isA Ty.«Container») = decide (c.ty ∈ savedTypes)) :
    ∀ s : Saver, (l.foldl (saverGets base) s).styles =
      (l.filter fun c => c.ty ≠ Ty.«Update» ∧ c.ty ∉ savedTypes).foldl
        (fun m c => StdMap.set m (c.objectId.getD []) c) s.styles := by
  induction l with
  | nil => intro s; rfl
  | cons c l ih =>
    intro s
    rw [List.foldl_cons, ih (fun c hc => hl c (.tail _ hc))]
    have hc := hl c (.head _)
    unfold saverGets
    rw [hc]
    by_cases h1 : c.ty = Ty.«Update»
    · simp [h1]
    · by_cases h2 : c.ty ∈ savedTypes
      · simp [h1, h2]
      · simp [h1, h2]

theorem read_made {n : NumLib} {x : Xml} {c : Elem} (h : RootReads n x c) :
    (c.isA Ty.«Feature» && !c.isA Ty.«Container») = decide (c.ty ∈ savedTypes) := by
  obtain ⟨name, attrs, ks, rfl, hb⟩ := h
  unfold buildRoot at hb
  rcases Option.eq_none_or_eq_some (makeElement n none (Xsd.elementId name) attrs) with hm | ⟨e0, hm⟩
  · rw [hm] at hb; cases hb
  · rw [hm] at hb
    have hm' : makeElement n (some Ty.«kml») (Xsd.elementId name) attrs = some e0 := by
      rw [← hm]
      unfold makeElement
      simp
    obtain ⟨s1, hn, hk⟩ := buildKnown_inv hb
    refine (made_like hm' ?_).2.1
    rcases hk with ⟨_, _, hf, _⟩ | ⟨_, e1, text1, hkids, hf⟩
    · exact finishElement_node hf
    · rw [finishElement_node hf]
      exact (buildKids_head hkids).1

theorem each_right {α β : Type} {R : α → β → Prop} {as : List α} {bs : List β} (h : Each R as bs) :
    ∀ b ∈ bs, ∃ a, R a b := by
  induction h with
  | nil => intro b hb; cases hb
  | cons hab _ ih =>
    intro b hb
    cases hb with
    | head => exact ⟨_, hab⟩
    | tail _ hb => exact ih b hb

/-- **C87.** The saver takes the features that are not containers, the updates and, if there is a map for them, the
shared styles of documents out of the document.  What is returned is what parsing gives for the document without them.
The list gets the features, each once, in the order in which they end in the document, each being what parsing gives for
that feature by itself, but for the base put before its reference to a style; the map gets the styles by their ids.

Missing: documents with old-style schemas or with a `description` inside an unknown element. -/
theorem C87_saved_partial (n : NumLib) (styles : Bool) (base : Str) (name : Str) (attrs : List (Str × Str)) (ks : List Xml)
    (hold : (Xml.elem name attrs ks).All NotOldSchema) (htame : (Xml.elem name attrs ks).Tame)
    (hdesc : name ≠ chars! "description") (e : Elem) (s : Saver)
    (h : parseEvents n [featureSaver styles base] .init (Xml.elem name attrs ks).events = .ok (some e, s)) :
    ReadAs n (.elem name attrs (leftOf (saverTakes styles) (Xsd.elementId name) ks)) e ∧
    ∃ l, Each (ReadAs n) (takenOf (saverTakes styles) (Xsd.elementId name) ks) l ∧
      s.features = (l.filter fun c => c.ty ∈ savedTypes).map (rebase base) ∧
      s.styles = (l.filter fun c => c.ty ≠ Ty.«Update» ∧ c.ty ∉ savedTypes).foldl
        (fun m c => StdMap.set m (c.objectId.getD []) c) [] := by
  have hb := buildRoot_of_parse hold htame h
  obtain ⟨h1, l, h2, h3⟩ := buildRoot_out (saver_out n styles base) rfl hb
  rw [if_neg hdesc] at h1 h2
  have hall := leftOf_all NotOldSchema (saverTakes styles) ks (Xsd.elementId name) hold.2
  have hknown : isKnown name = true := by
    unfold buildRoot at hb
    rw [← makeElement_isSome n none name attrs]
    rcases Option.eq_none_or_eq_some (makeElement n none (Xsd.elementId name) attrs) with hm | ⟨e0, hm⟩
    · rw [hm] at hb; cases hb
    · rw [hm]; rfl
  have hkids := leftOf_tame (saverTakes styles) ks (Xsd.elementId name) (by
    simpa only [Xml.Tame, if_neg hdesc, if_pos hknown] using htame)
  refine ⟨parse_of_buildRoot ⟨hold.1, (allOf_iff _ _).2 hall.1⟩ ?_ h1, l, each_parse h2 hall.2 hkids.2, ?_, ?_⟩
  · simp only [Xml.Tame, if_neg hdesc, if_pos hknown]
    exact (tameAll_iff _).2 hkids.1
  · rw [h3]
    exact gets_features base l (fun c hc => by
      obtain ⟨x, hx⟩ := each_right h2 c hc
      exact read_made hx) .init
  · rw [h3]
    exact gets_styles base l (fun c hc => by
      obtain ⟨x, hx⟩ := each_right h2 c hc
      exact read_made hx) .init

end

/-- A document with a shared style, and with two features, one inside a folder. -/
def savedDoc : List Xml :=
  [.elem (chars! "Style") [(chars! "id", chars! "st")] [],
   .elem (chars! "Placemark") [] [.elem (chars! "styleUrl") [] [.text (chars! "#st")]],
   .elem (chars! "Folder") [] [.elem (chars! "name") [] [.text (chars! "f")], .elem (chars! "NetworkLink") [] []]]

/-- What is left of the document, and what the saver has. -/
def savedBy (base : Str) (name : Str) (ks : List Xml) : Option (Ty × List (Ty × Str) × List Str) :=
  match parseEvents NumLib.integers [featureSaver true base] .init (Xml.elem name [] ks).events with
  | .ok (some e, s) => some (e.ty, s.features.map (fun f => (f.ty, f.text M.«styleurl»)), s.styles.map (·.1))
  | _ => none

example : savedBy (chars! "s.kml") (chars! "Document") savedDoc =
    some (Ty.«Document», [(Ty.«Placemark», chars! "s.kml#st"), (Ty.«NetworkLink», [])], [chars! "st"]) ∧
    (leftOf (saverTakes true) Ty.«Document» savedDoc).length = 1 ∧
    (takenOf (saverTakes true) Ty.«Document» savedDoc).map Xml.tag = [Ty.«Style», Ty.«Placemark», Ty.«NetworkLink»] := by
  refine ⟨?_, ?_, ?_⟩ <;> decide +kernel

theorem savedDoc_known : ∀ m ∈ [chars! "Document", chars! "Placemark", chars! "styleUrl", chars! "Folder",
    chars! "name", chars! "NetworkLink", chars! "Style"], isKnown m = true := by decide +kernel

section
attribute [local irreducible] kml22Elements Xsd.tagToId classes isKnown

example : (Xml.elem (chars! "Document") [] savedDoc).All NotOldSchema ∧ (Xml.elem (chars! "Document") [] savedDoc).Tame := by
  constructor
  · simp [Xml.All, AllOf, savedDoc, NotOldSchema]
  · have h := savedDoc_known
    simp only [List.forall_mem_cons] at h
    obtain ⟨a, b, c, d, e, f, g, _⟩ := h
    simp [Xml.Tame, TameAll, savedDoc, a, b, c, d, e, f, g]

end

/-- **C87 fails for updates.** The features inside an `Update`, which are not features of the document, are put into the
list all the same. -/
theorem C87_update_violated :
    savedBy [] (chars! "kml") [.elem (chars! "NetworkLinkControl") [] [.elem (chars! "Update") []
      [.elem (chars! "Delete") [] [.elem (chars! "Placemark") [(chars! "targetId", chars! "a")] []]]]] =
      some (Ty.«kml», [(Ty.«Placemark», [])], []) := by decide +kernel

/-- **C87 fails for short references.** A reference to a style whose id is one character does not get the base, so that
it no longer leads anywhere once the feature is in another file. -/
theorem C87_short_violated :
    savedBy (chars! "s.kml") (chars! "Document")
      [.elem (chars! "Placemark") [] [.elem (chars! "styleUrl") [] [.text (chars! "#a")]]] =
      some (Ty.«Document», [(Ty.«Placemark», chars! "#a")], []) := by decide +kernel

/-- **C87 fails for the root.** A feature that is the whole document is not put into the list. -/
theorem C87_root_violated :
    savedBy [] (chars! "Placemark") [] = some (Ty.«Placemark», [], []) := by decide +kernel

/-- **C87, references.** With a base, a reference to a style of the same file becomes one to that style in the file the
base names, if the id has at least two characters; any other reference, and everything else in the feature, stays. -/
theorem C87_rebase_partial (base : Str) (f : Elem) (hb : base ≠ []) :
    (∀ id : Str, f.hasStyleUrl = true → f.text M.«styleurl» = '#' :: id → 2 ≤ id.length →
      rebase base f = f.setStyleUrl (base ++ '#' :: id)) ∧
    ((f.hasStyleUrl = false ∨ ∀ id, f.text M.«styleurl» ≠ '#' :: id) → rebase base f = f) ∧ rebase [] f = f := by
  have hbe : base.isEmpty = false := by cases base with
    | nil => exact absurd rfl hb
    | cons _ _ => rfl
  refine ⟨?_, ?_, ?_⟩
  · intro id h1 h2 h3
    unfold rebase
    rw [h1, h2, hbe, if_pos (by decide), if_pos]
    simp
    omega
  · intro h
    unfold rebase
    rcases h with h | h
    · rw [h]; simp
    · have : (f.text M.«styleurl»).head? ≠ some '#' := by
        cases ht : f.text M.«styleurl» with
        | nil => simp
        | cons c l =>
          intro hc
          cases hc
          exact h l ht
      simp [this]
  · rfl

end Kml.Dom
