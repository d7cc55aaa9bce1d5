import Verif.Lemmas.Meddle
import Verif.Lemmas.FileObs
import Verif.Lemmas.Merge
import Verif.Props.Merge
import Verif.Spec.StyleSplit

/-!
# Lemmas about splitting styles
-/

namespace Kml.Dom

open Kml

/-! ### Facts about the tables -/

theorem classes_isDocument : classes.all (fun p => decide (Ty.«Document» ∈ p.2.isA) == decide (p.1 = Ty.«Document»)) = true := by
  decide +kernel

theorem classes_isUpdate : classes.all (fun p => decide (Ty.«Update» ∈ p.2.isA) == decide (p.1 = Ty.«Update»)) = true := by
  decide +kernel

theorem classes_isFeature :
    classes.all (fun p => (decide (Ty.«Feature» ∈ p.2.isA) && !decide (Ty.«Document» ∈ p.2.isA)) == featureTypes.contains p.1) =
      true := by
  decide +kernel

theorem classes_isSelector :
    classes.all (fun p => decide (Ty.«StyleSelector» ∈ p.2.isA) ==
      (decide (p.1 = Ty.«Style») || decide (p.1 = Ty.«StyleMap»))) = true := by
  decide +kernel

theorem abstract_types : ∀ t ∈ Ty.«Feature» :: Ty.«StyleSelector» :: Ty.«Style» :: Ty.«StyleMap» :: featureTypes,
    Xsd.elementType t = .complex := by
  decide +kernel

theorem feature_rules : featureTypes.all (fun t => (classAt t).rules.all fun r =>
    r.2.mem != M.«styleurl» || (r.1 == .ty Ty.«styleUrl» && r.2 == .field M.«styleurl» .str)) = true := by
  decide +kernel

theorem feature_styleUrl : ∀ t ∈ featureTypes, taker t (.field Ty.«styleUrl» []) = some (.field M.«styleurl» .str) := by
  decide +kernel

theorem styleUrl_simple : Xsd.elementType Ty.«styleUrl» = .simple := by decide +kernel

theorem styleUrl_known : isKnown (chars! "styleUrl") = true := by decide +kernel

theorem styleUrl_id : Xsd.elementId (chars! "styleUrl") = Ty.«styleUrl» := by decide +kernel

theorem style_rows :
    kml22Elements[Ty.«Document»]? = some (chars! "Document", .complex) ∧
    kml22Elements[Ty.«Update»]? = some (chars! "Update", .complex) ∧
    kml22Elements[Ty.«Style»]? = some (chars! "Style", .complex) ∧
    kml22Elements[Ty.«StyleMap»]? = some (chars! "StyleMap", .complex) ∧
    kml22Elements[Ty.«styleUrl»]? = some (chars! "styleUrl", .simple) := by
  decide +kernel

theorem style_ids :
    Xsd.elementId (chars! "Document") = Ty.«Document» ∧ Xsd.elementId (chars! "Update") = Ty.«Update» ∧
    Xsd.elementId (chars! "Style") = Ty.«Style» ∧ Xsd.elementId (chars! "StyleMap") = Ty.«StyleMap» := by
  decide +kernel

theorem style_not_textual : ∀ t ∈ [Ty.«Style», Ty.«StyleMap»], textual t = false ∧ (classOf t).isSome = true ∧
    (newNode t).isA Ty.«Object» = true ∧ t ≠ Ty.«coordinates» := by
  decide +kernel

attribute [local irreducible] kml22Elements Xsd.tagToId classes inc dec uintSize

/-! ### What elements are -/

/-- A simple element of a simple type, or an element of a type with a class. -/
def Sane : Elem → Prop
  | .field t _ => Xsd.elementType t = .simple
  | .node t _ _ _ _ => (classOf t).isSome = true

theorem sane_head {e e' : Elem} (h : e'.head = e.head) (hs : Sane e) : Sane e' := by
  have h1 := congrArg (·.1) h
  have h2 := congrArg (·.2) h
  cases e <;> cases e' <;> simp only [Elem.head, Elem.ty, Elem.attrs] at h1 h2
  · subst h1; exact hs
  · cases h2
  · cases h2
  · subst h1; exact hs

theorem make_sane {n : NumLib} {p : Option Ty} {t : Ty} {attrs : List (Str × Str)} {e : Elem}
    (h : makeElement n p t attrs = some e) : Sane e := by
  rcases makeElement_cases h with ⟨hs, rfl⟩ | ⟨_, hc, he⟩
  · exact hs
  · rw [he]; exact hc

theorem isDocument_eq (e : Elem) : e.isA Ty.«Document» = decide (e.ty = Ty.«Document») := by
  cases e with
  | field => rfl
  | node t a slots mis unk =>
    rcases Option.eq_none_or_eq_some (classOf t) with hc | ⟨c, hc⟩
    · simp only [Elem.isA, hc, Elem.ty]
      exact decide_eq_decide.2 Iff.rfl
    · have := List.all_eq_true.1 classes_isDocument _ (classOf_pair hc)
      simp only [beq_iff_eq] at this
      simp only [Elem.isA, hc, Elem.ty]
      exact this

theorem isA_update (e : Elem) : e.isA Ty.«Update» = decide (e.ty = Ty.«Update») := by
  cases e with
  | field => rfl
  | node t a slots mis unk =>
    rcases Option.eq_none_or_eq_some (classOf t) with hc | ⟨c, hc⟩
    · simp only [Elem.isA, hc, Elem.ty]
      exact decide_eq_decide.2 Iff.rfl
    · have := List.all_eq_true.1 classes_isUpdate _ (classOf_pair hc)
      simp only [beq_iff_eq] at this
      simp only [Elem.isA, hc, Elem.ty]
      exact this

theorem plainFeature_iff {e : Elem} (h : Sane e) : e.plainFeature = featureTypes.contains e.ty := by
  cases e with
  | field t s =>
    have h1 : t ≠ Ty.«Feature» := by
      rintro rfl
      have h2 := abstract_types Ty.«Feature» (by simp)
      rw [show Xsd.elementType Ty.«Feature» = .simple from h] at h2
      cases h2
    have h2 : featureTypes.contains t = false := by
      rw [Bool.eq_false_iff]
      intro hc
      have := abstract_types t (by
        have := List.contains_iff_mem.1 hc
        simp only [List.mem_cons]
        exact .inr (.inr (.inr (.inr this))))
      rw [show Xsd.elementType t = .simple from h] at this
      cases this
    simp only [Elem.plainFeature, Elem.isA, Elem.ty, h1, h2, decide_false, Bool.false_and]
  | node t a slots mis unk =>
    obtain ⟨c, hc⟩ := Option.isSome_iff_exists.1 h
    have := List.all_eq_true.1 classes_isFeature _ (classOf_pair hc)
    simp only [beq_iff_eq] at this
    simp only [Elem.plainFeature, Elem.isA, hc, Elem.ty]
    exact this

theorem isA_selector {e : Elem} (h : Sane e) :
    e.isA Ty.«StyleSelector» = (decide (e.ty = Ty.«Style») || decide (e.ty = Ty.«StyleMap»)) := by
  cases e with
  | field t s =>
    have : ∀ t' ∈ [Ty.«StyleSelector», Ty.«Style», Ty.«StyleMap»], t ≠ t' := by
      rintro t' ht rfl
      have h2 := abstract_types t (by simp only [List.mem_cons] at ht ⊢; tauto)
      rw [show Xsd.elementType t = .simple from h] at h2
      cases h2
    simp only [Elem.isA, Elem.ty, this Ty.«StyleSelector» (by simp), this Ty.«Style» (by simp),
      this Ty.«StyleMap» (by simp), decide_false, Bool.or_self]
  | node t a slots mis unk =>
    obtain ⟨c, hc⟩ := Option.isSome_iff_exists.1 h
    have := List.all_eq_true.1 classes_isSelector _ (classOf_pair hc)
    simp only [beq_iff_eq] at this
    simp only [Elem.isA, hc, Elem.ty]
    exact this

/-- The name of an element of a type. -/
theorem tyIn_iff {T : Ty} {nm : Str} {k : XsdKind} (hrow : kml22Elements[T]? = some (nm, k)) (hid : Xsd.elementId nm = T)
    (h0 : T ≠ Ty.Unknown) (h1 : T ≠ Ty.«Icon») (h2 : T ≠ Ty.«IconStyleIcon») (p : Ty) (name : Str) :
    tyIn p name = T ↔ name = nm := by
  unfold tyIn
  constructor
  · split
    · intro h; exact absurd h.symm h2
    · intro h; exact name_of_row h h0 hrow
  · rintro rfl
    rw [hid, if_neg (fun h => h1 h.1)]

theorem tyIn_document (p : Ty) (name : Str) : tyIn p name = Ty.«Document» ↔ name = chars! "Document" :=
  tyIn_iff style_rows.1 style_ids.1 (by decide) (by decide) (by decide) p name

theorem tyIn_update (p : Ty) (name : Str) : tyIn p name = Ty.«Update» ↔ name = chars! "Update" :=
  tyIn_iff style_rows.2.1 style_ids.2.1 (by decide) (by decide) (by decide) p name

theorem tyIn_style (p : Ty) (name : Str) : tyIn p name = Ty.«Style» ↔ name = chars! "Style" :=
  tyIn_iff style_rows.2.2.1 style_ids.2.2.1 (by decide) (by decide) (by decide) p name

theorem tyIn_styleMap (p : Ty) (name : Str) : tyIn p name = Ty.«StyleMap» ↔ name = chars! "StyleMap" :=
  tyIn_iff style_rows.2.2.2.1 style_ids.2.2.2 (by decide) (by decide) (by decide) p name

theorem tyIn_styleUrl (p : Ty) (name : Str) : tyIn p name = Ty.«styleUrl» ↔ name = chars! "styleUrl" :=
  tyIn_iff style_rows.2.2.2.2 styleUrl_id (by decide) (by decide) (by decide) p name

/-! ### The `styleUrl` of a feature -/

theorem give_hasUrl {n : NumLib} {cur child cur' : Elem} (hf : featureTypes.contains cur.ty = true)
    (hs : Sane cur) (hc : Sane child) (h : addElement n [] cur child = .ok cur') :
    cur'.hasStyleUrl = (cur.hasStyleUrl || decide (child.ty = Ty.«styleUrl»)) := by
  cases cur with
  | field t s =>
    exfalso
    have := abstract_types t (by
      have := List.contains_iff_mem.1 hf
      simp only [List.mem_cons]
      exact .inr (.inr (.inr (.inr this))))
    rw [show Xsd.elementType t = .simple from hs] at this
    cases this
  | node t a slots mis unk =>
    have hmem := List.contains_iff_mem.1 hf
    have hurl : child.ty = Ty.«styleUrl» → ∃ text, child = .field Ty.«styleUrl» text := by
      intro hty
      cases child with
      | field t' s => exact ⟨s, by rw [show t' = Ty.«styleUrl» from hty]⟩
      | node t' a' sl' mi' un' =>
        exfalso
        obtain ⟨c, hcl⟩ := Option.isSome_iff_exists.1 hc
        have := List.all_eq_true.1 classes_simple _ (classOf_pair hcl)
        rw [show t' = Ty.«styleUrl» from hty, styleUrl_simple] at this
        simp at this
    have htake : ∀ text, taker t (.field Ty.«styleUrl» text) = some (.field M.«styleurl» .str) := fun text =>
      (taker_field _ _ _ _).trans (feature_styleUrl t hmem)
    rcases addElement_node h with ⟨ht, rfl⟩ | ⟨act, v, ht, hv, rfl⟩
    · have : child.ty ≠ Ty.«styleUrl» := by
        intro hty
        obtain ⟨text, rfl⟩ := hurl hty
        rw [htake] at ht
        cases ht
      simp only [Elem.hasStyleUrl, this, decide_false, Bool.or_false]
    · by_cases hty : child.ty = Ty.«styleUrl»
      · obtain ⟨text, rfl⟩ := hurl hty
        rw [htake] at ht
        cases ht
        simp only [Act.value, readValue, Outcome.ok_bind, Outcome.ok.injEq] at hv
        subst hv
        simp [Elem.hasStyleUrl, setSlot, Act.mem, Elem.ty]
      · have hne : act.mem ≠ M.«styleurl» := by
          intro hm
          obtain ⟨c, test, hcl, _, _, hr, hmat⟩ := taker_rule ht
          have := List.all_eq_true.1 (List.all_eq_true.1 feature_rules t hmem) (test, act) (by rw [classAt_eq hcl]; exact hr)
          simp only [hm, bne_self_eq_false, Bool.false_or, Bool.and_eq_true, beq_iff_eq] at this
          rw [this.1] at hmat
          exact hty (of_decide_eq_true hmat)
        simp only [Elem.hasStyleUrl, setSlot, hty, decide_false, Bool.or_false]
        rw [if_neg (fun h => hne h.symm)]

theorem addUnknown_hasUrl (cur : Elem) (s : Str) : (addUnknownElement cur s).hasStyleUrl = cur.hasStyleUrl := by
  cases cur <;> rfl

/-- Setting the reference is what adding the element does. -/
theorem add_styleUrl {n : NumLib} {cur : Elem} (hf : featureTypes.contains cur.ty = true) (hs : Sane cur) (url : Str) :
    addElement n [] cur (.field Ty.«styleUrl» url) = .ok (cur.setStyleUrl url) := by
  cases cur with
  | field t s =>
    exfalso
    have := abstract_types t (by
      have := List.contains_iff_mem.1 hf
      simp only [List.mem_cons]
      exact .inr (.inr (.inr (.inr this))))
    rw [show Xsd.elementType t = .simple from hs] at this
    cases this
  | node t a slots mis unk =>
    have hmem := List.contains_iff_mem.1 hf
    have htake : taker t (.field Ty.«styleUrl» url) = some (.field M.«styleurl» .str) :=
      (taker_field _ _ _ _).trans (feature_styleUrl t hmem)
    rw [addElement_taken htake (v := [.field Ty.«styleUrl» url]) (by rfl)]
    rfl

/-! ### Merging into an empty element -/

theorem mergedItems_nil : ∀ (xs cur : List Elem), mergedItems xs [] cur = cur ++ xs
  | [], cur => by simp [mergedItems]
  | x :: xs, cur => by
    rw [mergedItems]
    simp only [List.findIdx?_nil]
    rw [mergedItems_nil xs, List.append_assoc, List.singleton_append]

theorem mergedAttrs_id {n : NumLib} {c : Class} {a : Attrs} (ha : a.Held n c) (id : Str)
    (h : a.known.get (chars! "id") = none) : mergedAttrs a (setId id .empty) = setId id a := by
  have hs : StdMap.Sorted (Attrs.empty.known.set (chars! "id") id) := StdMap.sorted_set (by simp [Attrs.empty, StdMap.Sorted]) _ _
  unfold mergedAttrs setId
  have h1 : over (Attrs.empty.known.set (chars! "id") id) a.known = a.known.set (chars! "id") id := by
    obtain ⟨o1, o2⟩ := over_spec ha.known_sorted hs
    refine StdMap.ext o1 (StdMap.sorted_set ha.known_sorted _ _) fun k => ?_
    rw [o2, StdMap.get_set, StdMap.get_set]
    split
    · rename_i hk; subst hk; rw [h]; rfl
    · cases a.known.get k <;> rfl
  have h2 : over Attrs.empty.unknown a.unknown = a.unknown := by
    obtain ⟨o1, o2⟩ := over_spec (old := Attrs.empty.unknown) ha.unknown_sorted (by simp [Attrs.empty, StdMap.Sorted])
    refine StdMap.ext o1 ha.unknown_sorted fun k => ?_
    rw [o2]
    cases a.unknown.get k <;> rfl
  have h3 : over Attrs.empty.xmlns a.xmlns = a.xmlns := by
    obtain ⟨o1, o2⟩ := over_spec (old := Attrs.empty.xmlns) ha.xmlns_sorted (by simp [Attrs.empty, StdMap.Sorted])
    refine StdMap.ext o1 ha.xmlns_sorted fun k => ?_
    rw [o2]
    cases a.xmlns.get k <;> rfl
  simp only [h1, h2, h3]

theorem setId_held {n : NumLib} {t : Ty} (hc : (classOf t).isSome = true) (ho : (newNode t).isA Ty.«Object» = true) (id : Str) :
    (setId id .empty).Held n (classAt t) := by
  obtain ⟨c, hcl⟩ := Option.isSome_iff_exists.1 hc
  refine ⟨StdMap.sorted_set (by simp [Attrs.empty, StdMap.Sorted]) _ _, by simp [setId, Attrs.empty, StdMap.Sorted],
    by simp [setId, Attrs.empty, StdMap.Sorted], ?_, by simp [setId, Attrs.empty]⟩
  intro e he
  have : e = (chars! "id", id) := by simpa [setId, Attrs.empty, StdMap.set] using he
  subst this
  refine ⟨.str, ?_, rfl⟩
  rw [classAt_eq hcl]
  refine object_reads_id _ (classOf_pair hcl) ?_
  simp only [newNode, Elem.isA, hcl] at ho
  exact of_decide_eq_true ho

theorem merged_shared {n : NumLib} {c : Elem} (ht : c.ty = Ty.«Style» ∨ c.ty = Ty.«StyleMap») (hh : Held n c)
    (hcx : c.complex = true) (hid : c.objectId = none) (id : Str) :
    merged c ((newNode c.ty).withId id) = sharedStyle id c := by
  cases c with
  | field => cases hcx
  | node t a slots mis unk =>
    have hmem : t ∈ [Ty.«Style», Ty.«StyleMap»] := by
      rcases ht with h | h
      · rw [show t = _ from h]; simp
      · rw [show t = _ from h]; simp
    obtain ⟨h1, h2, h3, h4⟩ := style_not_textual t hmem
    have hget : a.known.get (chars! "id") = none := by
      simp only [Elem.objectId] at hid
      rwa [if_pos (show (Elem.node t a slots mis unk).isA Ty.«Object» = true from h3)] at hid
    show merged (.node t a slots mis unk) (.node t (setId id .empty) (fun _ => []) [] []) = _
    rw [merged, sharedStyle]
    simp only [mergedAttrs_id (held_attrs hh) id hget, if_neg h4, h1, if_false, List.nil_append, Bool.false_eq_true]
    congr 1
    funext m
    split
    · rw [mergedItems_nil]; rfl
    · rename_i hm
      cases hs : slots m with
      | nil => rfl
      | cons x xs =>
        have := held_one hh h1 (Bool.eq_false_iff.2 hm) (x := x) (by rw [hs]; simp)
        rw [hs] at this
        cases this
        rfl

/-! ### What a document stands for is held -/

variable {σ : Type}

theorem giveChild_held {n : NumLib} {b : Bool} {p c r : Elem} (hp : Held n p) (hc : Held n c)
    (h : giveChild n b p c = .ok r) : Held n r := by
  unfold giveChild at h
  split at h
  · exact addElement_held hp hc h
  · cases h; exact hp

theorem buildKnown_held {n : NumLib} {os : List (Observer σ)} {d : Nat} {e : Elem} {s : σ} {inner : Str}
    {height : Nat} {kids : Elem → σ → Outcome (Option (Elem × Str × σ))} {child : Elem} {s2 : σ} (he : Held n e)
    (hk : ∀ s r, kids e s = .ok (some r) → Held n r.1)
    (h : buildKnown n os d e s inner height kids = .ok (some (child, s2))) : Held n child := by
  obtain ⟨s1, _, h2⟩ := buildKnown_inv h
  rcases h2 with ⟨_, _, hf, _⟩ | ⟨_, e1, text, hkids, hf⟩
  · exact finishElement_held he hf
  · exact finishElement_held (hk _ _ hkids) hf

theorem buildChild_held {n : NumLib} {os : List (Observer σ)} {d : Nat} {cur : Elem} {text : Str} {s : σ}
    {name : Str} {attrs : List (Str × Str)} {whole inner : Str} {height : Nat}
    {kids : Elem → σ → Outcome (Option (Elem × Str × σ))} {r : Elem × Str × σ} (hcur : Held n cur)
    (hk : ∀ e s r, Held n e → kids e s = .ok (some r) → Held n r.1)
    (h : buildChild n os d cur text s name attrs whole inner height kids = .ok (some r)) : Held n r.1 := by
  obtain ⟨_, _, h3⟩ := buildChild_inv h
  rcases h3 with ⟨_, _, _, hc, _⟩ | ⟨_, e, c, s2, hm, hb, hg, _⟩
  · rw [hc]; exact addUnknown_held hcur
  · exact giveChild_held hcur (buildKnown_held (makeElement_held hm)
      (fun s r => hk e s r (makeElement_held hm)) hb) hg

mutual

theorem buildKid_held {n : NumLib} {os : List (Observer σ)} : ∀ (x : Xml) {d : Nat} {cur : Elem} {text : Str} {s : σ}
    {r : Elem × Str × σ}, Held n cur → buildKid n os d cur text s x = .ok (some r) → Held n r.1
  | .text t, d, cur, text, s, r, hc, h => by
    rw [buildKid] at h
    cases h
    exact hc
  | .empty name attrs, d, cur, text, s, r, hc, h => by
    rw [buildKid] at h
    exact buildChild_held hc (fun e s r he hk => by cases hk; exact he) h
  | .elem name attrs ks, d, cur, text, s, r, hc, h => by
    rw [buildKid] at h
    exact buildChild_held hc (fun e s r he hk => buildKids_held ks he hk) h

theorem buildKids_held {n : NumLib} {os : List (Observer σ)} : ∀ (xs : List Xml) {d : Nat} {cur : Elem} {text : Str}
    {s : σ} {r : Elem × Str × σ}, Held n cur → buildKids n os d cur text s xs = .ok (some r) → Held n r.1
  | [], d, cur, text, s, r, hc, h => by
    rw [buildKids] at h
    cases h
    exact hc
  | x :: xs, d, cur, text, s, r, hc, h => by
    obtain ⟨c, t, s1, h1, h2⟩ := buildKids_cons_inv h
    exact buildKids_held xs (buildKid_held x hc h1) h2

end

theorem standsFor_held {n : NumLib} {p : Ty} {x : Xml} {c : Elem} (h : StandsFor n p x c) : Held n c := by
  obtain ⟨name, attrs, ks, d, e, _, hm, hb⟩ := h
  exact buildKnown_held (makeElement_held hm) (fun s r hk => buildKids_held ks (makeElement_held hm) hk) hb

/-! ### Rewriting -/

theorem finish_prefix (m : Moved) (p : Ty) (has : Bool) (name : Str) (x : Xml) :
    m.styles <+: (m.finish p has name x).2.styles := by
  unfold Moved.finish
  split
  · exact List.prefix_append _ _
  · dsimp only; split <;> exact List.prefix_rfl

mutual

theorem split_prefix : ∀ (x : Xml) (p : Ty) (has : Bool) (m : Moved), m.styles <+: (x.split p has m).2.styles
  | .text t, p, has, m => by rw [Xml.split]; exact List.prefix_rfl
  | .empty name attrs, p, has, m => by
    rw [Xml.split]
    split
    · exact finish_prefix (m.start name) p has name _
    · exact List.prefix_rfl
  | .elem name attrs ks, p, has, m => by
    rw [Xml.split]
    split
    · exact (splitOf_prefix ks (tyIn p name) false (m.start name)).trans (finish_prefix _ p has name _)
    · exact List.prefix_rfl

theorem splitOf_prefix : ∀ (xs : List Xml) (p : Ty) (has : Bool) (m : Moved), m.styles <+: (splitOf p has m xs).2.styles
  | [], p, has, m => by rw [splitOf]; exact List.prefix_rfl
  | x :: xs, p, has, m => by
    rw [splitOf]
    exact (split_prefix x p has m).trans (splitOf_prefix xs p _ _)

end

theorem AllMovable.prefix {n : NumLib} {l l' : List (Ty × Xml)} (h : AllMovable n l') (hp : l <+: l') : AllMovable n l :=
  fun s hs => h s (hp.subset hs)

/-- The splitter is as far as the rewriting. -/
structure Along (n : NumLib) (s : Splitter) (m : Moved) : Prop where
  doc : s.doc = m.doc
  update : s.inUpdate = m.update
  counter : s.counter = m.styles.length
  free : ∀ k, s.counter ≤ k → s.shared.get (uniqueId k) = none
  taken : Taken n m.styles s.added

theorem uniqueId_inj {a b : Nat} (h : uniqueId a = uniqueId b) : a = b := by
  have h1 : Nat.toDigits 10 a = Nat.toDigits 10 b := (List.cons.inj h).2
  have h2 := congrArg (fun l => Nat.ofDigitChars 10 l 0) h1
  simpa using h2

theorem along_new {n : NumLib} {s : Splitter} {m : Moved} (h : Along n s m) {p : Ty} {name : Str} {e : Elem}
    (he : e.ty = tyIn p name) : Along n (s.new e) (m.start name) := by
  refine ⟨?_, ?_, h.counter, h.free, h.taken⟩
  · show (s.doc || _) = (m.doc || _)
    rw [h.doc, isDocument_eq, he]
    congr 1
    rw [Bool.eq_iff_iff, decide_eq_true_eq, beq_iff_eq]
    exact tyIn_document p name
  · show (s.inUpdate || _) = (m.update || _)
    rw [h.update, isA_update, he]
    congr 1
    rw [Bool.eq_iff_iff, decide_eq_true_eq, beq_iff_eq]
    exact tyIn_update p name

theorem standsFor_id {n : NumLib} {p : Ty} {x : Xml} {c : Elem} (h : StandsFor n p x c)
    (hx : chars! "id" ∉ x.attributes.map (·.1)) : c.objectId = none := by
  obtain ⟨name, attrs, ks, hp, _, h2⟩ := standsFor_cases h
  have hattrs : x.attributes = attrs := by
    cases x with
    | text => cases hp
    | empty => cases hp; rfl
    | elem => cases hp; rfl
  rw [hattrs] at hx
  have hnone : attrValue (chars! "id") attrs = none := by
    unfold attrValue
    have : attrs.filter (fun a => decide (a.1 = chars! "id")) = [] := by
      rw [List.filter_eq_nil_iff]
      intro a ha h
      exact hx (List.mem_map.2 ⟨a, ha, of_decide_eq_true h⟩)
    rw [this]; rfl
  rcases h2 with ⟨hs, _⟩ | ⟨_, hc, slots, mis, unk, rfl⟩
  · obtain ⟨s, rfl⟩ := simple_field h hp hs
    rfl
  · rw [node_objectId hc]
    unfold tagId
    split
    · exact hnone
    · rfl

theorem standsFor_sane {n : NumLib} {p : Ty} {x : Xml} {c : Elem} (h : StandsFor n p x c) : Sane c := by
  obtain ⟨name, attrs, ks, hp, _, h2⟩ := standsFor_cases h
  rcases h2 with ⟨hs, _⟩ | ⟨_, hc, slots, mis, unk, rfl⟩
  · obtain ⟨s, rfl⟩ := simple_field h hp hs
    exact hs
  · exact hc

theorem style_complex {n : NumLib} {p : Ty} {x : Xml} {c : Elem} (hst : StandsFor n p x c)
    (hc : c.ty = Ty.«Style» ∨ c.ty = Ty.«StyleMap») : c.complex = true := by
  cases hcc : c with
  | node => rfl
  | field t s =>
    have hsane := standsFor_sane hst
    rw [hcc] at hsane hc
    have := abstract_types t (by
      simp only [Elem.ty] at hc
      simp only [List.mem_cons]
      tauto)
    rw [show Xsd.elementType t = .simple from hsane] at this
    cases this

theorem sharedStyle_id {n : NumLib} {p : Ty} {x : Xml} {c : Elem} (hst : StandsFor n p x c)
    (hc : c.ty = Ty.«Style» ∨ c.ty = Ty.«StyleMap») (id : Str) : (sharedStyle id c).objectId = some id := by
  have hcx := style_complex hst hc
  have h3 := (style_not_textual c.ty (by simpa using hc)).2.2.1
  cases c with
  | field => cases hcx
  | node t a slots mis unk =>
    simp only [sharedStyle, Elem.objectId]
    rw [if_pos (show (Elem.node t (setId id a) slots mis []).isA Ty.«Object» = true from h3)]
    simp [setId, StdMap.get_set]

/-- One style is moved. -/
theorem move_spec {n : NumLib} {p : Ty} {x : Xml} {c cur : Elem} {s : Splitter} {r : Bool × Elem × Splitter}
    (hst : StandsFor n p x c) (hc : c.ty = Ty.«Style» ∨ c.ty = Ty.«StyleMap») (hm : Movable n p x) {id : Str}
    (h : s.move n cur c id = .ok r) :
    r = (false, cur.setStyleUrl ('#' :: id),
      { s with
        counter := s.counter + 1
        shared := s.shared.set id (sharedStyle id c)
        added := s.added ++ [sharedStyle id c] }) := by
  have hmem : c.ty ∈ [Ty.«Style», Ty.«StyleMap»] := by simpa using hc
  obtain ⟨h1, h2, h3, h4⟩ := style_not_textual _ hmem
  obtain ⟨g1, g2, g3⟩ := hm.2 c hst
  have hid := standsFor_id hst hm.1
  have hheld := standsFor_held hst
  have hcx := style_complex hst hc
  have htarget : Held n ((newNode c.ty).withId id) := new_held h2 (setId_held h2 h3 id)
  have hmerge := (merge_main hheld g1 g2 g3 hcx ((newNode c.ty).withId id)
    ⟨htarget, .node (fun x hx => by cases hx) (fun m x hx => by cases hx) (fun x hx => by cases hx)⟩ rfl rfl).1
  rw [merged_shared hc hheld hcx hid] at hmerge
  unfold Splitter.move createStyleSelector at h
  rw [if_pos hc] at h
  simp only [hmerge, Outcome.ok_bind, Outcome.ok.injEq] at h
  rw [← h]
  have hobj := sharedStyle_id hst hc id
  rw [hobj]
  rfl


/-! ### Parsing along -/

theorem buildChildW_inv {n : NumLib} {w : Meddler σ} {d : Nat} {cur : Elem} {text : Str} {s : σ}
    {name : Str} {attrs : List (Str × Str)} {whole inner : Str} {height : Nat}
    {kids : Elem → σ → Outcome (Option (Elem × Str × σ))} {cur' : Elem} {text' : Str} {s' : σ}
    (h : buildChildW n w d cur text s name attrs whole inner height kids = .ok (some (cur', text', s'))) :
    d + 1 ≤ 100 ∧ text' = text ∧
    ((isKnown name = false ∧ makeElement n (some cur.ty) (Xsd.elementId name) attrs = none ∧
        d + 1 + height ≤ 100 ∧ cur' = addUnknownElement cur (whole ++ ['\n']) ∧ s' = s) ∨
     (isKnown name = true ∧ ∃ e child s2 r,
        makeElement n (some cur.ty) (Xsd.elementId name) attrs = some e ∧
        buildKnown n [w.watch] (d + 1) e s inner height kids = .ok (some (child, s2)) ∧
        w.finish s2 cur child = .ok r ∧ giveChild n r.1 r.2.1 child = .ok cur' ∧
        s' = w.added r.2.2 cur' child)) := by
  unfold buildChildW at h
  by_cases hd : d + 1 > 100
  · rw [if_pos hd] at h; cases h
  · rw [if_neg hd] at h
    refine ⟨by omega, ?_⟩
    have hkn := makeElement_isSome n (some cur.ty) name attrs
    rcases Option.eq_none_or_eq_some (makeElement n (some cur.ty) (Xsd.elementId name) attrs) with hm | ⟨e, hm⟩
    · rw [hm] at h hkn
      simp only at h
      by_cases hh : d + 1 + height > 100
      · rw [if_pos hh] at h; cases h
      · rw [if_neg hh] at h
        simp only [Outcome.ok.injEq, Option.some.injEq, Prod.mk.injEq] at h
        exact ⟨h.2.1.symm, Or.inl ⟨hkn.symm, hm, by omega, h.1.symm, h.2.2.symm⟩⟩
    · rw [hm] at h hkn
      simp only at h
      cases hb : buildKnown n [w.watch] (d + 1) e s inner height kids with
      | ok o =>
        rw [hb] at h
        cases o with
        | none => cases h
        | some q =>
          obtain ⟨child, s2⟩ := q
          simp only [Outcome.ok_bind] at h
          simp only [handOverW] at h
          cases hf : w.finish s2 cur child with
          | ok r =>
            rw [hf] at h
            simp only [Outcome.ok_bind] at h
            cases hg : giveChild n r.1 r.2.1 child with
            | ok c =>
              rw [hg] at h
              simp only [Outcome.ok_bind, Outcome.ok.injEq, Option.some.injEq, Prod.mk.injEq] at h
              obtain ⟨rfl, rfl, rfl⟩ := h
              exact ⟨rfl, Or.inr ⟨hkn.symm, e, child, s2, r, hm, hb, hf, hg, rfl⟩⟩
            | throws => rw [hg] at h; cases h
            | ub => rw [hg] at h; cases h
          | throws => rw [hf] at h; cases h
          | ub => rw [hf] at h; cases h
      | throws => rw [hb] at h; cases h
      | ub => rw [hb] at h; cases h

theorem buildKidsW_cons_inv {n : NumLib} {w : Meddler σ} {d : Nat} {cur : Elem} {text : Str} {s : σ}
    {x : Xml} {xs : List Xml} {r : Elem × Str × σ}
    (h : buildKidsW n w d cur text s (x :: xs) = .ok (some r)) :
    ∃ c t s1, buildKidW n w d cur text s x = .ok (some (c, t, s1)) ∧
      buildKidsW n w d c t s1 xs = .ok (some r) := by
  rw [buildKidsW] at h
  cases hk : buildKidW n w d cur text s x with
  | ok o =>
    rw [hk] at h
    cases o with
    | none => cases h
    | some q => exact ⟨q.1, q.2.1, q.2.2, rfl, h⟩
  | throws => rw [hk] at h; cases h
  | ub => rw [hk] at h; cases h

/-- A known child, without observers. -/
theorem buildChild_plain {n : NumLib} {d : Nat} {cur : Elem} {text : Str} {name : Str} {attrs : List (Str × Str)}
    {whole inner : Str} {height : Nat} {kids : Elem → Unit → Outcome (Option (Elem × Str × Unit))} {e child cur' : Elem}
    (hd : d + 1 ≤ 100) (hm : makeElement n (some cur.ty) (Xsd.elementId name) attrs = some e)
    (hb : buildKnown n ([] : List (Observer Unit)) (d + 1) e () inner height kids = .ok (some (child, ())))
    (hg : addElement n [] cur child = .ok cur') :
    buildChild n ([] : List (Observer Unit)) d cur text () name attrs whole inner height kids =
      .ok (some (cur', text, ())) := by
  unfold buildChild
  rw [if_neg (by omega)]
  simp only [hm, hb, Outcome.ok_bind, handOver, callAll, giveChild, if_true, hg]

/-- A known element, without observers. -/
theorem buildKnown_plain {n : NumLib} {d : Nat} {e e1 child : Elem} {text inner : Str} {height : Nat}
    {kids : Elem → Unit → Outcome (Option (Elem × Str × Unit))} (hx : e.ty ≠ Ty.«description»)
    (hk : kids e () = .ok (some (e1, text, ()))) (hf : finishElement n e1 text = .ok child) :
    buildKnown n ([] : List (Observer Unit)) d e () inner height kids = .ok (some (child, ())) := by
  unfold buildKnown
  simp only [callAll, if_neg hx, hk, Outcome.ok_bind, hf]

theorem buildKnown_plain_desc {n : NumLib} {d : Nat} {e child : Elem} {inner : Str} {height : Nat}
    {kids : Elem → Unit → Outcome (Option (Elem × Str × Unit))} (hx : e.ty = Ty.«description»)
    (hd : d + height ≤ 100) (hf : finishElement n e inner = .ok child) :
    buildKnown n ([] : List (Observer Unit)) d e () inner height kids = .ok (some (child, ())) := by
  unfold buildKnown
  simp only [callAll, if_pos hx, if_neg (show ¬ d + height > 100 by omega), Outcome.ok_bind, hf]

/-- The reference put in place of a style is read as setting it. -/
theorem styleRef_build {n : NumLib} {d : Nat} {cur : Elem} {text : Str} (hd : d + 1 ≤ 100)
    (hf : featureTypes.contains cur.ty = true) (hs : Sane cur) (k : Nat) :
    buildKid n ([] : List (Observer Unit)) d cur text () (styleRef k) =
      .ok (some (cur.setStyleUrl ('#' :: uniqueId k), text, ())) := by
  have hm : makeElement n (some cur.ty) (Xsd.elementId (chars! "styleUrl")) [] = some (.field Ty.«styleUrl» []) := by
    unfold makeElement
    rw [styleUrl_id, styleUrl_simple]
  unfold styleRef
  rw [buildKid]
  refine buildChild_plain hd hm (child := .field Ty.«styleUrl» ('#' :: uniqueId k)) ?_ (add_styleUrl hf hs _)
  refine buildKnown_plain (e1 := .field Ty.«styleUrl» []) (text := '#' :: uniqueId k) (by decide) ?_ ?_
  · simp only [buildKids, buildKid, Outcome.ok_bind, List.nil_append]
  · unfold finishElement
    rw [show (Elem.field Ty.«styleUrl» []).ty = Ty.«styleUrl» from rfl, simple_not_self styleUrl_simple]
    rfl

theorem setStyleUrl_head (e : Elem) (url : Str) : (e.setStyleUrl url).head = e.head := by cases e <;> rfl

/-- What is known after a piece was read along. -/
structure Kept (n : NumLib) (d : Nat) (cur : Elem) (text : Str) (has : Bool) (x' : Xml) (m' : Moved) (cur' : Elem)
    (text' : Str) (s' : Splitter) : Prop where
  build : buildKid n ([] : List (Observer Unit)) d cur text () x' = .ok (some (cur', text', ()))
  along : Along n s' m'
  head : cur'.head = cur.head
  url : featureTypes.contains cur.ty = true → (has || x'.named (chars! "styleUrl")) = cur'.hasStyleUrl

/-- A known child ends. -/
theorem finish_along {n : NumLib} {d : Nat} {cur : Elem} {text : Str} {has : Bool} {m2 : Moved} {s2 : Splitter} {name : Str}
    {x' : Xml} {child cur' : Elem} {r : Bool × Elem × Splitter} (hd : d + 1 ≤ 100) (hs : Sane cur)
    (ha : Along n s2 m2) (hurl : featureTypes.contains cur.ty = true → has = cur.hasStyleUrl)
    (hst : StandsFor n cur.ty x' child) (hname : x'.named (chars! "styleUrl") = decide (name = chars! "styleUrl"))
    (hty : child.ty = tyIn cur.ty name) (hfin : s2.finish n cur child = .ok r)
    (hg : giveChild n r.1 r.2.1 child = .ok cur')
    (hbuild : ∀ c, addElement n [] cur child = .ok c →
      buildKid n ([] : List (Observer Unit)) d cur text () x' = .ok (some (c, text, ())))
    (hmov : AllMovable n (m2.finish cur.ty has name x').2.styles) :
    Kept n d cur text has (m2.finish cur.ty has name x').1 (m2.finish cur.ty has name x').2 cur' text r.2.2 := by
  have hcs := standsFor_sane hst
  have hsel : child.isA Ty.«StyleSelector» = (name == chars! "Style" || name == chars! "StyleMap") := by
    rw [isA_selector hcs, hty, Bool.eq_iff_iff]
    simp only [Bool.or_eq_true, decide_eq_true_eq, beq_iff_eq, tyIn_style, tyIn_styleMap]
  have hfree := ha.free s2.counter (Nat.le_refl _)
  unfold Splitter.finish at hfin
  rw [hsel, plainFeature_iff hs, ha.doc, ha.update, hfree] at hfin
  by_cases hcond : ((name == chars! "Style" || name == chars! "StyleMap") && m2.doc && !m2.update &&
      featureTypes.contains cur.ty && !has) = true
  · have hmf : m2.finish cur.ty has name x' =
        (styleRef m2.styles.length, { m2 with styles := m2.styles ++ [(cur.ty, x')] }) := by
      unfold Moved.finish; rw [if_pos hcond]
    rw [hmf] at hmov ⊢
    simp only [Bool.and_eq_true, Bool.not_eq_true'] at hcond
    obtain ⟨⟨⟨⟨c1, c2⟩, c3⟩, c4⟩, c5⟩ := hcond
    have c6 : cur.hasStyleUrl = false := by rw [← hurl c4]; exact c5
    rw [if_pos (by rw [c1, c2, c3, c4, c6]; rfl)] at hfin
    have hc : child.ty = Ty.«Style» ∨ child.ty = Ty.«StyleMap» := by
      rw [hty, tyIn_style, tyIn_styleMap]
      simpa using c1
    have hmv := move_spec hst hc (hmov (cur.ty, x') (by simp)) hfin
    subst hmv
    simp only [giveChild, Bool.false_eq_true, if_false, Outcome.ok.injEq] at hg
    subst hg
    rw [← ha.counter]
    refine ⟨styleRef_build hd c4 hs _, ⟨ha.doc, ha.update, ?_, ?_, ?_⟩, setStyleUrl_head _ _, ?_⟩
    · simp [ha.counter]
    · intro k hk
      dsimp only at hk ⊢
      rw [StdMap.get_set, if_neg]
      · exact ha.free k (by omega)
      · intro h
        have := uniqueId_inj h
        omega
    · obtain ⟨t1, t2⟩ := ha.taken
      refine ⟨by simp [t1], fun k p x hk => ?_⟩
      rw [List.getElem?_append] at hk
      dsimp only
      split at hk
      · obtain ⟨c, h1, h2, h3⟩ := t2 k p x hk
        exact ⟨c, h1, h2, by rw [List.getElem?_append_left (by omega)]; exact h3⟩
      · rename_i hlt
        have hk' : k = m2.styles.length ∧ (cur.ty, x') = (p, x) := by
          rw [List.getElem?_singleton] at hk
          split at hk
          · simp only [Option.some.injEq] at hk
            exact ⟨by omega, hk⟩
          · cases hk
        obtain ⟨rfl, h2⟩ := hk'
        cases h2
        refine ⟨child, hst, hc, ?_⟩
        rw [← t1, List.getElem?_append_right (Nat.le_refl _), Nat.sub_self, ha.counter, t1]
        rfl
    · intro _
      have : (styleRef s2.counter).named (chars! "styleUrl") = true := rfl
      rw [this, Bool.or_true]
      cases cur with
      | field t s =>
        exfalso
        have := abstract_types t (by
          have := List.contains_iff_mem.1 c4
          simp only [List.mem_cons]
          exact .inr (.inr (.inr (.inr this))))
        rw [show Xsd.elementType t = .simple from hs] at this
        cases this
      | node => simp [Elem.setStyleUrl, Elem.hasStyleUrl, setSlot]
  · have hmf : m2.finish cur.ty has name x' =
        (x', if name = chars! "Update" then { m2 with update := false } else m2) := by
      unfold Moved.finish; rw [if_neg hcond]
    rw [hmf]
    rw [if_neg] at hfin
    · simp only [Outcome.ok.injEq] at hfin
      subst hfin
      simp only [giveChild, if_true] at hg
      refine ⟨hbuild _ hg, ?_, (addElement_head hg).1, ?_⟩
      · dsimp only
        rw [isA_update, hty]
        by_cases hup : name = chars! "Update"
        · rw [if_pos hup, if_pos (decide_eq_true ((tyIn_update _ _).2 hup))]
          exact ⟨rfl, rfl, ha.counter, ha.free, ha.taken⟩
        · rw [if_neg hup, if_neg (by rw [decide_eq_true_eq, tyIn_update]; exact hup)]
          exact ha
      · intro hf
        dsimp only
        rw [give_hasUrl hf hs hcs hg, hurl hf, hname, hty]
        congr 1
        exact decide_eq_decide.2 (tyIn_styleUrl _ _).symm
    · intro h
      apply hcond
      simp only [Bool.and_eq_true] at h ⊢
      obtain ⟨⟨⟨⟨⟨h1, h2⟩, h3⟩, h4⟩, h5⟩, h6⟩ := h
      exact ⟨⟨⟨⟨h3, h2⟩, h1⟩, h4⟩, by rw [hurl h4]; exact h5⟩


theorem named_split (x : Xml) (p : Ty) (has : Bool) (m : Moved) (h : ∀ name a, x ≠ .empty name a)
    (h' : ∀ name a ks, x ≠ .elem name a ks) : (x.split p has m).1 = x := by
  cases x with
  | text => rw [Xml.split]
  | empty => exact absurd rfl (h _ _)
  | elem => exact absurd rfl (h' _ _ _)

theorem splitter_new {n : NumLib} {s : Splitter} {e : Elem} :
    callAll (fun o s => o.new s e) [(splitter n).watch] s = (true, s.new e) := rfl

theorem head_ty {e e' : Elem} (h : e'.head = e.head) : e'.ty = e.ty := congrArg (·.1) h

mutual

theorem kid_along {n : NumLib} : ∀ (x : Xml) {d : Nat} {cur : Elem} {text : Str} {s : Splitter} {m : Moved} {has : Bool}
    {cur' : Elem} {text' : Str} {s' : Splitter}, Sane cur → Along n s m →
    (featureTypes.contains cur.ty = true → has = cur.hasStyleUrl) → AllMovable n (x.split cur.ty has m).2.styles →
    buildKidW n (splitter n) d cur text s x = .ok (some (cur', text', s')) →
    Kept n d cur text has (x.split cur.ty has m).1 (x.split cur.ty has m).2 cur' text' s'
  | .text t, d, cur, text, s, m, has, cur', text', s', hs, ha, hurl, hmov, h => by
    rw [buildKidW] at h
    cases h
    rw [Xml.split]
    exact ⟨by rw [buildKid], ha, rfl, fun hf => by simp [Xml.named, hurl hf]⟩
  | .empty name attrs, d, cur, text, s, m, has, cur', text', s', hs, ha, hurl, hmov, h => by
    rw [buildKidW] at h
    rw [Xml.split] at hmov ⊢
    obtain ⟨hd, ht, h3⟩ := buildChildW_inv h
    subst ht
    rcases h3 with ⟨hk, hm, hh, hc, hs'⟩ | ⟨hk, e, child, s2, r, hm, hb, hfin, hg, hs'⟩
    · rw [hk, if_neg (by simp)]
      subst hs' hc
      have hne : name ≠ chars! "styleUrl" := by
        rintro rfl
        rw [styleUrl_known] at hk
        cases hk
      refine ⟨?_, ha, ?_, fun hf => ?_⟩
      · rw [buildKid]
        unfold buildChild
        rw [if_neg (by omega)]
        simp only [hm, if_neg (show ¬ d + 1 + 0 > 100 by omega)]
      · cases cur <;> rfl
      · rw [addUnknown_hasUrl, hurl hf]
        simp [Xml.named, hne]
    · rw [hk, if_pos rfl] at hmov ⊢
      have hty := makeElement_tyIn hm
      obtain ⟨s1, h1, h2⟩ := buildKnown_inv hb
      rw [splitter_new] at h1
      cases h1
      have hplain : buildKnown n ([] : List (Observer Unit)) (d + 1) e () [] 0
          (fun e s => .ok (some (e, [], s))) = .ok (some (child, ())) ∧ s2 = s.new e := by
        rcases h2 with ⟨hx, hdd, hf, rfl⟩ | ⟨hx, e1, text, hkids, hf⟩
        · exact ⟨buildKnown_plain_desc hx hdd hf, rfl⟩
        · cases hkids
          exact ⟨buildKnown_plain hx rfl hf, rfl⟩
      obtain ⟨hplain, rfl⟩ := hplain
      have hst : StandsFor n cur.ty (.empty name attrs) child := by
        refine ⟨name, attrs, [], d, e, .inl ⟨rfl, rfl⟩, hm, ?_⟩
        have : (fun (e : Elem) (s : Unit) => buildKids n ([] : List (Observer Unit)) (d + 1) e [] s []) =
            fun e s => .ok (some (e, [], s)) := by
          funext e s; rw [buildKids]
        rw [this]
        exact hplain
      have hcty : child.ty = tyIn cur.ty name := by
        obtain ⟨name', attrs', ks', hp, h1, _⟩ := standsFor_cases hst
        cases hp
        exact h1
      subst hs'
      exact finish_along hd hs (along_new ha hty) hurl hst rfl hcty hfin hg
        (fun c hc => by rw [buildKid]; exact buildChild_plain hd hm hplain hc) hmov
  | .elem name attrs ks, d, cur, text, s, m, has, cur', text', s', hs, ha, hurl, hmov, h => by
    rw [buildKidW] at h
    rw [Xml.split] at hmov ⊢
    obtain ⟨hd, ht, h3⟩ := buildChildW_inv h
    subst ht
    rcases h3 with ⟨hk, hm, hh, hc, hs'⟩ | ⟨hk, e, child, s2, r, hm, hb, hfin, hg, hs'⟩
    · rw [hk, if_neg (by simp)]
      subst hs' hc
      have hne : name ≠ chars! "styleUrl" := by
        rintro rfl
        rw [styleUrl_known] at hk
        cases hk
      refine ⟨?_, ha, ?_, fun hf => ?_⟩
      · rw [buildKid]
        unfold buildChild
        rw [if_neg (by omega)]
        simp only [hm, if_neg (show ¬ d + 1 + depthOf ks > 100 by omega)]
      · cases cur <;> rfl
      · rw [addUnknown_hasUrl, hurl hf]
        simp [Xml.named, hne]
    · have hty := makeElement_tyIn hm
      have hdesc := makeElement_description hm
      obtain ⟨s1, h1, h2⟩ := buildKnown_inv hb
      rw [splitter_new] at h1
      cases h1
      rcases h2 with ⟨hx, hdd, hf, rfl⟩ | ⟨hx, e1, text1, hkids, hf⟩
      · have hn := hdesc.1 hx
        subst hn
        rw [if_neg (by simp)] at hmov ⊢
        have hplain := buildKnown_plain_desc (kids := fun e s => buildKids n ([] : List (Observer Unit)) (d + 1) e [] s ks)
          hx hdd hf
        have hst : StandsFor n cur.ty (.elem (chars! "description") attrs ks) child :=
          ⟨_, attrs, ks, d, e, .inr rfl, hm, hplain⟩
        have hcty : child.ty = tyIn cur.ty (chars! "description") := by
          obtain ⟨name', attrs', ks', hp, h1, _⟩ := standsFor_cases hst
          cases hp
          exact h1
        have hstart : m.start (chars! "description") = m := by
          unfold Moved.start
          simp [show (chars! "description" == chars! "Document") = false by decide,
            show (chars! "description" == chars! "Update") = false by decide]
        have hfinm : ∀ x, m.finish cur.ty has (chars! "description") x = (x, m) := by
          intro x
          unfold Moved.finish
          rw [if_neg (by simp [show (chars! "description" == chars! "Style") = false by decide,
            show (chars! "description" == chars! "StyleMap") = false by decide]), if_neg (by decide)]
        have hal := along_new ha hty
        rw [hstart] at hal
        subst hs'
        have := finish_along (text := text') (x' := .elem (chars! "description") attrs ks) hd hs hal hurl hst rfl hcty hfin hg
          (fun c hc => by rw [buildKid]; exact buildChild_plain hd hm hplain hc) (by rw [hfinm]; exact hmov)
        rw [hfinm] at this
        exact this
      · have hn : name ≠ chars! "description" := fun h => hx (hdesc.2 h)
        rw [if_pos (by simp [hk, hn])] at hmov ⊢
        have hmk := make_sane hm
        have hkids' := kids_along ks (has := false) hmk (along_new ha hty) (fun _ => by
            rcases makeElement_cases hm with ⟨_, he⟩ | ⟨_, _, he⟩
            · rw [he]; rfl
            · rw [he]; rfl)
          (by rw [hty]; exact hmov.prefix (finish_prefix _ _ _ _ _)) hkids
        rw [hty] at hkids'
        obtain ⟨k1, k2, k3⟩ := hkids'
        have hplain : buildKnown n ([] : List (Observer Unit)) (d + 1) e ()
            (renderAll (splitOf (tyIn cur.ty name) false (m.start name) ks).1)
            (depthOf (splitOf (tyIn cur.ty name) false (m.start name) ks).1)
            (fun e s => buildKids n ([] : List (Observer Unit)) (d + 1) e [] s
              (splitOf (tyIn cur.ty name) false (m.start name) ks).1) = .ok (some (child, ())) :=
          buildKnown_plain hx k1 hf
        have hst : StandsFor n cur.ty
            (.elem name attrs (splitOf (tyIn cur.ty name) false (m.start name) ks).1) child :=
          ⟨name, attrs, _, d, e, .inr rfl, hm, hplain⟩
        have hcty : child.ty = tyIn cur.ty name := by
          obtain ⟨name', attrs', ks', hp, h1, _⟩ := standsFor_cases hst
          cases hp
          exact h1
        subst hs'
        exact finish_along hd hs k2 hurl hst rfl hcty hfin hg
          (fun c hc => by rw [buildKid]; exact buildChild_plain hd hm hplain hc) hmov

theorem kids_along {n : NumLib} : ∀ (xs : List Xml) {d : Nat} {cur : Elem} {text : Str} {s : Splitter} {m : Moved}
    {has : Bool} {cur' : Elem} {text' : Str} {s' : Splitter}, Sane cur → Along n s m →
    (featureTypes.contains cur.ty = true → has = cur.hasStyleUrl) → AllMovable n (splitOf cur.ty has m xs).2.styles →
    buildKidsW n (splitter n) d cur text s xs = .ok (some (cur', text', s')) →
    buildKids n ([] : List (Observer Unit)) d cur text () (splitOf cur.ty has m xs).1 = .ok (some (cur', text', ())) ∧
      Along n s' (splitOf cur.ty has m xs).2 ∧ cur'.head = cur.head
  | [], d, cur, text, s, m, has, cur', text', s', hs, ha, hurl, hmov, h => by
    rw [buildKidsW] at h
    cases h
    rw [splitOf]
    exact ⟨by rw [buildKids], ha, rfl⟩
  | x :: xs, d, cur, text, s, m, has, cur', text', s', hs, ha, hurl, hmov, h => by
    obtain ⟨c, t, s1, h1, h2⟩ := buildKidsW_cons_inv h
    rw [splitOf] at hmov ⊢
    have k := kid_along x hs ha hurl (hmov.prefix (splitOf_prefix _ _ _ _)) h1
    have hcty := head_ty k.head
    have := kids_along xs (has := has || (x.split cur.ty has m).1.named (chars! "styleUrl")) (sane_head k.head hs) k.along
      (fun hf => by rw [hcty] at hf; exact k.url hf) (by rw [hcty]; exact hmov) h2
    rw [hcty] at this
    refine ⟨?_, this.2.1, this.2.2.trans k.head⟩
    rw [buildKids, k.build]
    simp only [Outcome.ok_bind]
    exact this.1

end

theorem along_init (n : NumLib) : Along n Splitter.init Moved.init :=
  ⟨rfl, rfl, rfl, fun _ _ => rfl, rfl, fun k p x h => by cases h⟩

theorem buildRootW_of_parse {n : NumLib} {w : Meddler σ} {s : σ} {name : Str}
    {attrs : List (Str × Str)} {ks : List Xml} (hold : (Xml.elem name attrs ks).All NotOldSchema)
    (htame : (Xml.elem name attrs ks).Tame) {e : Elem} {s' : σ}
    (h : parseWith n w s (Xml.elem name attrs ks).events = .ok (some e, s')) :
    buildRootW n w s name attrs ks = .ok (some (e, s')) := by
  have hrun := run_rootW n w s name attrs ks hold htame
  cases hb : buildRootW n w s name attrs ks with
  | ok o =>
    rw [hb] at hrun
    cases o with
    | none => exact absurd (hrun _ h) (by simp)
    | some r =>
      rw [h] at hrun
      simp only [Outcome.ok.injEq, Prod.mk.injEq, Option.some.injEq] at hrun
      obtain ⟨rfl, rfl⟩ := hrun
      rfl
  | throws => rw [hb, h] at hrun; cases hrun
  | ub => rw [hb, h] at hrun; cases hrun

theorem root_along {n : NumLib} {name : Str} {attrs : List (Str × Str)} {ks : List Xml} {e : Elem} {s : Splitter}
    (hmov : AllMovable n (splitRoot name ks).2.styles)
    (h : buildRootW n (splitter n) Splitter.init name attrs ks = .ok (some (e, s))) :
    buildRoot n ([] : List (Observer Unit)) () name attrs (splitRoot name ks).1 = .ok (some (e, ())) ∧
      Along n s (splitRoot name ks).2 := by
  unfold buildRootW at h
  unfold buildRoot
  rcases Option.eq_none_or_eq_some (makeElement n none (Xsd.elementId name) attrs) with hm | ⟨e0, hm⟩
  · rw [hm] at h; cases h
  · rw [hm] at h ⊢
    simp only at h ⊢
    have hty := makeElement_root hm
    obtain ⟨s1, h1, h2⟩ := buildKnown_inv h
    rw [splitter_new] at h1
    cases h1
    have hnodesc : e0.ty = Ty.«description» ↔ name = chars! "description" := by
      rw [hty]
      constructor
      · intro h
        refine name_of_row (nm := chars! "description") (k := .simple) h (by decide) ?_
        exact description_row
      · rintro rfl
        exact description_id
    have hal : Along n (Splitter.init.new e0) (Moved.init.start name) := by
      by_cases hi : Xsd.elementId name = Ty.«Icon» ∧ Ty.Unknown = Ty.«IconStyle»
      · exact absurd hi.2 (by decide)
      · exact along_new (p := Ty.Unknown) (along_init n) (by rw [hty]; unfold tyIn; rw [if_neg hi])
    rcases h2 with ⟨hx, hdd, hf, rfl⟩ | ⟨hx, e1, text1, hkids, hf⟩
    · have hn := hnodesc.1 hx
      unfold splitRoot
      rw [if_pos hn]
      exact ⟨buildKnown_plain_desc hx hdd hf, hal⟩
    · have hn : name ≠ chars! "description" := fun h => hx (hnodesc.2 h)
      unfold splitRoot at hmov ⊢
      rw [if_neg hn] at hmov ⊢
      have hkids' := kids_along ks (has := false) (make_sane hm) hal (fun _ => by
            rcases makeElement_cases hm with ⟨_, he⟩ | ⟨_, _, he⟩
            · rw [he]; rfl
            · rw [he]; rfl)
          (by rw [hty]; exact hmov) hkids
      rw [hty] at hkids'
      obtain ⟨k1, k2, k3⟩ := hkids'
      exact ⟨buildKnown_plain hx k1 hf, k2⟩


/-! ### The rewritten document -/

theorem finish_piece (P : Xml → Prop) (m : Moved) (p : Ty) (has : Bool) (name : Str) (x : Xml) (h : P x)
    (hr : ∀ k, P (styleRef k)) : P (m.finish p has name x).1 := by
  unfold Moved.finish
  split
  · exact hr _
  · exact h

mutual

theorem split_old : ∀ (x : Xml) (p : Ty) (has : Bool) (m : Moved), x.All NotOldSchema → (x.split p has m).1.All NotOldSchema
  | .text t, p, has, m, h => by rw [Xml.split]; exact h
  | .empty name attrs, p, has, m, h => by
    rw [Xml.split]
    split
    · exact finish_piece (fun x => x.All NotOldSchema) _ p has name (.empty name attrs) h fun k => ⟨(fun h => by cases h), trivial, trivial⟩
    · exact h
  | .elem name attrs ks, p, has, m, h => by
    rw [Xml.split]
    split
    · refine finish_piece (fun x => x.All NotOldSchema) _ p has name _ ?_ fun k => ⟨(fun h => by cases h), trivial, trivial⟩
      exact ⟨h.1, splitOf_old ks _ _ _ h.2⟩
    · exact h

theorem splitOf_old : ∀ (xs : List Xml) (p : Ty) (has : Bool) (m : Moved), AllOf NotOldSchema xs →
    AllOf NotOldSchema (splitOf p has m xs).1
  | [], p, has, m, h => by rw [splitOf]; exact h
  | x :: xs, p, has, m, h => by
    rw [splitOf]
    exact ⟨split_old x p has m h.1, splitOf_old xs p _ _ h.2⟩

end

theorem styleRef_tame (k : Nat) : (styleRef k).Tame := by
  simp only [styleRef, Xml.Tame]
  rw [if_neg (by decide), if_pos styleUrl_known]
  exact ⟨trivial, trivial⟩

mutual

theorem split_tame : ∀ (x : Xml) (p : Ty) (has : Bool) (m : Moved), x.Tame → (x.split p has m).1.Tame
  | .text t, p, has, m, h => by rw [Xml.split]; exact h
  | .empty name attrs, p, has, m, h => by
    rw [Xml.split]
    split
    · exact finish_piece Xml.Tame _ p has name (.empty name attrs) h styleRef_tame
    · exact h
  | .elem name attrs ks, p, has, m, h => by
    rw [Xml.split]
    split
    · rename_i hk
      simp only [Bool.and_eq_true, bne_iff_ne, ne_eq] at hk
      refine finish_piece Xml.Tame _ p has name _ ?_ styleRef_tame
      simp only [Xml.Tame, if_neg hk.2, if_pos hk.1] at h ⊢
      exact splitOf_tame ks _ _ _ h
    · exact h

theorem splitOf_tame : ∀ (xs : List Xml) (p : Ty) (has : Bool) (m : Moved), TameAll xs → TameAll (splitOf p has m xs).1
  | [], p, has, m, h => by rw [splitOf]; exact h
  | x :: xs, p, has, m, h => by
    rw [splitOf]
    exact ⟨split_tame x p has m h.1, splitOf_tame xs p _ _ h.2⟩

end

end Kml.Dom
