import Verif.Lemmas.FileObs
import Verif.Lemmas.Import
import Verif.Props.Walk

/-!
# C37, C55, C56 and C74: files, ids, shared styles and links

A parsed document is given as its tree (Spec/XmlTree.lean).  Spec/Listen.lean lists its start tags and the elements in
elements; Spec/File.lean says which id, shared style and link each of them stands for.
-/

namespace Kml.Dom

open Kml

attribute [local irreducible] kml22Elements Xsd.tagToId classes inc dec uintSize

theorem bind_eq_ok {α β : Type} {x : Outcome α} {f : α → Outcome β} {b : β} (h : (x >>= f) = .ok b) :
    ∃ a, x = .ok a ∧ f a = .ok b := by
  cases x with
  | ok a => exact ⟨a, rfl, h⟩
  | throws => cases h
  | ub => cases h

/-- What a parse gives a file is what the start tags and inner elements of the document say. -/
theorem parseFile_took {n : NumLib} {name : Str} {attrs : List (Str × Str)} {ks : List Xml}
    (hold : (Xml.elem name attrs ks).All NotOldSchema) (htame : (Xml.elem name attrs ks).Tame) {e : Elem} {s : FileState}
    (h : parseFile n (Xml.elem name attrs ks).events = .ok (some e, s)) :
    ∃ l, Took l s ∧ Each (About n) (docTells name attrs ks) l := by
  obtain ⟨l, hl, ht⟩ := buildRoot_hears file_listens _ (buildRoot_of_parse hold htame h)
  exact ⟨l, file_took ht, buildRoot_about hl⟩

/-! ## C37 Lookup by id -/

/-- **C37, lookup.** After a parse, looking up an id gives the last object in document order with that id.  (Objects are
known by the number of their start tag.)

The full property is about every document; this leaves out old-style schemas and `description` inside unknown
elements. -/
theorem C37_last_partial (n : NumLib) (name : Str) (attrs : List (Str × Str)) (ks : List Xml)
    (hold : (Xml.elem name attrs ks).All NotOldSchema) (htame : (Xml.elem name attrs ks).Tame) (e : Elem) (s : FileState)
    (h : parseFile n (Xml.elem name attrs ks).events = .ok (some e, s)) (id : Str) (i : Nat) :
    s.getObjectById id = some i ↔ IsLast (docIds name attrs ks) id i := by
  obtain ⟨l, hl, ha⟩ := parseFile_took hold htame h
  unfold FileState.getObjectById
  rw [hl.ids, about_ids ha]
  rfl

/-- **C37, absent.** It gives nothing exactly if no object of the document has that id. -/
theorem C37_absent_partial (n : NumLib) (name : Str) (attrs : List (Str × Str)) (ks : List Xml)
    (hold : (Xml.elem name attrs ks).All NotOldSchema) (htame : (Xml.elem name attrs ks).Tame) (e : Elem) (s : FileState)
    (h : parseFile n (Xml.elem name attrs ks).events = .ok (some e, s)) (id : Str) :
    s.getObjectById id = none ↔ some id ∉ docIds name attrs ks := by
  have key := C37_last_partial n name attrs ks hold htame e s h id
  have exists_last : ∀ l : List (Option Str), some id ∈ l → ∃ i, IsLast l id i := by
    intro l
    refine snoc_ind (P := fun l => some id ∈ l → ∃ i, IsLast l id i) ?_ ?_ l
    · intro h; cases h
    · intro l x ih hm
      cases x with
      | none =>
        obtain ⟨i, hi⟩ := ih (by simpa using hm)
        exact ⟨i, isLast_snoc_none.2 hi⟩
      | some k =>
        by_cases hk : k = id
        · exact ⟨l.length, isLast_snoc_some.2 (by rw [if_pos hk])⟩
        · obtain ⟨i, hi⟩ := ih (by
            rcases List.mem_append.1 hm with h | h
            · exact h
            · exact absurd (Option.some.inj (List.mem_singleton.1 h)).symm hk)
          exact ⟨i, isLast_snoc_some.2 (by rw [if_neg hk]; exact hi)⟩
  constructor
  · intro hn hm
    obtain ⟨i, hi⟩ := exists_last _ hm
    rw [(key i).2 hi] at hn
    cases hn
  · intro hm
    rcases Option.eq_none_or_eq_some (s.getObjectById id) with hn | ⟨i, hi⟩
    · exact hn
    · exact absurd (List.mem_of_getElem? ((key i).1 hi).1) hm

/-- **C37, strict parse.** A parse with the strict id observer gives a root exactly if a parse without observers does and
no two objects of the document have the same id; it is the same root. -/
theorem C37_strict_partial (n : NumLib) (name : Str) (attrs : List (Str × Str)) (ks : List Xml)
    (hold : (Xml.elem name attrs ks).All NotOldSchema) (htame : (Xml.elem name attrs ks).Tame) (e : Elem) :
    (∃ s, parseEvents n [objectIdObserver true, counting] .init (Xml.elem name attrs ks).events = .ok (some e, s)) ↔
      parseEvents n ([] : List (Observer Unit)) () (Xml.elem name attrs ks).events = .ok (some e, ()) ∧
      ((docIds name attrs ks).filterMap id).Nodup := by
  have hids : ∀ l, Each (About n) (docTells name attrs ks) l →
      (news l).filterMap Elem.objectId = (docIds name attrs ks).filterMap id := by
    intro l hl
    unfold docIds docStarts
    rw [← about_ids hl, List.filterMap_map]
    rfl
  have up : ∀ {σ : Type} {os : List (Observer σ)} {s s' : σ}, buildRoot n os s name attrs ks = .ok (some (e, s')) →
      parseEvents n os s (Xml.elem name attrs ks).events = .ok (some e, s') := by
    intro σ os s s' hb
    have := run_root n os s name attrs ks hold htame
    rw [hb] at this
    exact this
  constructor
  · rintro ⟨s, h⟩
    obtain ⟨l, hl, ht⟩ := buildRoot_hears id_listens _ (buildRoot_of_parse hold htame h)
    refine ⟨up ?_, ?_⟩
    · rw [buildRoot_heard nobody () hl]
      show Outcome.ok (Option.bind (some (e, l)) _) = _
      rw [Option.bind_some, takeIn_unit]
      rfl
    · rw [← hids l (buildRoot_about hl)]
      rcases idStep_isSome l with ⟨hn, _⟩ | ⟨_, hn⟩
      · exact hn
      · rw [ht] at hn; cases hn
  · rintro ⟨h, hn⟩
    obtain ⟨l, hl, _⟩ := buildRoot_hears nobody _ (buildRoot_of_parse hold htame h)
    rw [← hids l (buildRoot_about hl)] at hn
    rcases idStep_isSome l with ⟨_, s, hs, _⟩ | ⟨hno, _⟩
    · refine ⟨s, up ?_⟩
      rw [buildRoot_heard id_listens .init hl]
      show Outcome.ok (Option.bind (some (e, l)) _) = _
      rw [Option.bind_some, hs]
      rfl
    · exact absurd hn hno

/-- **C37, import.** Looking up an id in a file made from a tree gives the last object found in the tree with that id. -/
theorem C37_imported (root : Elem) (strict : Bool) (m : StdMap (List Step) × StdMap (List Step))
    (h : importFile root strict = some m) (id : Str) : m.1.get id = (lastWithId root id).map (·.1) := by
  rw [importFile_eq] at h
  split at h
  · cases h
  · cases h
    exact C38_map root id

theorem dups_nil (root : Elem) : (mapIds root).2 = [] ↔
    ((([], root) :: getChildElements root true).filterMap fun r => r.2.objectId).Nodup := by
  have split2 : ∀ (l : List (List Step × Elem)), (¬ ∃ l1 r l2 r' l3 id, l = l1 ++ r :: l2 ++ r' :: l3 ∧
      r.2.objectId = some id ∧ r'.2.objectId = some id) ↔ (l.filterMap fun r => r.2.objectId).Nodup := by
    intro l
    induction l with
    | nil => simp
    | cons r l ih =>
      constructor
      · intro hno
        have hl : (l.filterMap fun r => r.2.objectId).Nodup := by
          refine ih.1 ?_
          rintro ⟨l1, r1, l2, r2, l3, id, h, h1, h2⟩
          exact hno ⟨r :: l1, r1, l2, r2, l3, id, by rw [h]; rfl, h1, h2⟩
        rcases Option.eq_none_or_eq_some r.2.objectId with hr | ⟨id, hr⟩
        · simp only [List.filterMap_cons, hr]; exact hl
        · simp only [List.filterMap_cons, hr, List.nodup_cons]
          refine ⟨fun hm => ?_, hl⟩
          obtain ⟨r', hr', h'⟩ := List.mem_filterMap.1 hm
          obtain ⟨l2, l3, h⟩ := List.append_of_mem hr'
          exact hno ⟨[], r, l2, r', l3, id, by rw [h]; rfl, hr, h'⟩
      · rintro hn ⟨l1, r1, l2, r2, l3, id, h, h1, h2⟩
        rw [h] at hn
        simp only [List.filterMap_append, List.filterMap_cons, h1, h2] at hn
        have := (List.nodup_append.1 hn).2.2 id (by simp) id (by simp)
        exact this rfl
  rw [← split2, List.eq_nil_iff_forall_not_mem]
  constructor
  · rintro h ⟨l1, r, l2, r', l3, id, h1, h2, h3⟩
    exact h r.1 ((C38_duplicates root r.1).2 ⟨l1, r, l2, r', l3, id, h1, rfl, h2, h3⟩)
  · intro h p hp
    obtain ⟨l1, r, l2, r', l3, id, h1, _, h2, h3⟩ := (C38_duplicates root p).1 hp
    exact h ⟨l1, r, l2, r', l3, id, h1, h2, h3⟩

/-- **C37, strict import** refuses exactly the trees in which two objects that are found have the same id; an import that
is not strict refuses none. -/
theorem C37_refused (root : Elem) (strict : Bool) : importFile root strict = none ↔
    strict = true ∧ ¬ ((([], root) :: getChildElements root true).filterMap fun r => r.2.objectId).Nodup := by
  rw [importFile_eq, ← dups_nil]
  cases strict <;> cases h : (mapIds root).2 <;> simp

/-- **C37, strict import of a parsed tree.** If no misplaced element is complex, a strict import refuses exactly the trees
with two objects with the same id, and looking up an id gives the object with that id.

With misplaced objects it is false (`C37_misplaced_violated`). -/
theorem C37_import_partial (n : NumLib) (root : Elem) (h : Held n root) (ht : Everywhere Tidy root) :
    ((importFile root true).isSome = true ↔ DistinctIds root) ∧
    ∀ m, importFile root true = some m → ∀ id p,
      (m.1.get id = some p ↔ ∃ x, root.at p = some x ∧ x.objectId = some id) := by
  have hiff : (importFile root true).isSome = true ↔ DistinctIds root := by
    have hnone : (importFile root true).isSome = true ↔ ¬ importFile root true = none := by
      cases importFile root true <;> simp
    rw [hnone, C37_refused, ← dups_nil]
    simp only [true_and]
    rw [Classical.not_not, dups_nil]
    have hnd : (([], root) :: getChildElements root true).Pairwise fun a b => a.1 ≠ b.1 := by
      have h1 := saved_nodup root
      have h2 : ∀ r ∈ saved root, ([] : List Step) ≠ r.1 := by
        rintro ⟨p, x⟩ hr rfl
        exact not_inMember_nil ((mem_saved h).1 hr).2.2
      rw [List.pairwise_cons]
      exact ⟨h2, List.pairwise_map.1 h1⟩
    constructor
    · intro hn p q x y id hp hq hx hy
      have hp := (mem_visited h ht (objectId_complex hx)).2 hp
      have hq := (mem_visited h ht (objectId_complex hy)).2 hq
      have : ∀ l : List (List Step × Elem), (l.filterMap fun r => r.2.objectId).Nodup →
          (p, x) ∈ l → (q, y) ∈ l → p = q := by
        intro l
        induction l with
        | nil => intro _ h; cases h
        | cons r l ih =>
          intro hn h1 h2
          have hin : ∀ {q : List Step} {y : Elem}, y.objectId = some id → (q, y) ∈ l →
              id ∈ l.filterMap fun r => r.2.objectId := fun hy h => List.mem_filterMap.2 ⟨_, h, hy⟩
          rcases Option.eq_none_or_eq_some r.2.objectId with hr | ⟨k, hr⟩
          · simp only [List.filterMap_cons, hr] at hn
            refine ih hn ?_ ?_
            · rcases List.mem_cons.1 h1 with rfl | h
              · rw [hx] at hr; cases hr
              · exact h
            · rcases List.mem_cons.1 h2 with rfl | h
              · rw [hy] at hr; cases hr
              · exact h
          · simp only [List.filterMap_cons, hr, List.nodup_cons] at hn
            rcases List.mem_cons.1 h1 with h1 | h1 <;> rcases List.mem_cons.1 h2 with h2 | h2
            · rw [← h2] at h1; cases h1; rfl
            · rw [← h1, hx] at hr
              cases hr
              exact absurd (hin hy h2) hn.1
            · rw [← h2, hy] at hr
              cases hr
              exact absurd (hin hx h1) hn.1
            · exact ih hn.2 h1 h2
      exact this _ hn hp hq
    · intro hd
      have : ∀ l : List (List Step × Elem), (∀ r ∈ l, root.at r.1 = some r.2) → (l.Pairwise fun a b => a.1 ≠ b.1) →
          (l.filterMap fun r => r.2.objectId).Nodup := by
        intro l
        induction l with
        | nil => intros; exact List.nodup_nil
        | cons r l ih =>
          intro hat hp
          rw [List.pairwise_cons] at hp
          have hl := ih (fun r hr => hat r (List.mem_cons_of_mem _ hr)) hp.2
          rcases Option.eq_none_or_eq_some r.2.objectId with hr | ⟨k, hr⟩
          · simp only [List.filterMap_cons, hr]; exact hl
          · simp only [List.filterMap_cons, hr, List.nodup_cons]
            refine ⟨fun hm => ?_, hl⟩
            obtain ⟨r', hr', h'⟩ := List.mem_filterMap.1 hm
            exact hp.1 r' hr' (hd _ _ _ _ _ (hat r (List.mem_cons_self ..)) (hat r' (List.mem_cons_of_mem _ hr')) hr h')
      refine this _ ?_ hnd
      intro r hr
      rcases List.mem_cons.1 hr with rfl | hr
      · rfl
      · exact ((mem_saved (p := r.1) (x := r.2) h).1 hr).1
  refine ⟨hiff, fun m hm id p => ?_⟩
  have hd := hiff.1 (by rw [hm]; rfl)
  rw [C37_imported root true m hm]
  constructor
  · intro hl
    obtain ⟨r, hr, rfl⟩ := Option.map_eq_some_iff.1 hl
    obtain ⟨h1, h2⟩ := lastWith_some hr
    exact ⟨r.2, (mem_visited (p := r.1) h ht (objectId_complex h2)).1 h1, h2⟩
  · rintro ⟨x, hx, hid⟩
    rw [distinct_last h ht hd hx hid]
    rfl

/-- `<Document id="d"><Style id="a"/><Folder id="b"><Style id="a"/><href>x</href></Folder></Document>` -/
def sampleAttrs : List (Str × Str) := [(chars! "id", chars! "d")]

def sampleKids : List Xml :=
  [.empty (chars! "Style") [(chars! "id", chars! "a")],
    .elem (chars! "Folder") [(chars! "id", chars! "b")]
      [.empty (chars! "Style") [(chars! "id", chars! "a")], .elem (chars! "styleUrl") [] [.text (chars! "#a")]],
    .elem (chars! "NetworkLink") [] [.elem (chars! "Link") [] [.elem (chars! "href") [] [.text (chars! "x.kml")]]]]

def sampleDoc : Xml := .elem (chars! "Document") sampleAttrs sampleKids

/-- What the file of the sample holds. -/
def sampleFile : Option (StdMap Nat × List (Str × Ty) × List Nat) :=
  match parseFile NumLib.integers sampleDoc.events with
  | .ok (some _, s) => some (s.ids, s.styles.map (fun e => (e.1, e.2.ty)), s.linkParents)
  | _ => none

/-- A document that meets the hypotheses: the second style with id `a` is found, and it is start tag number 3. -/
example : sampleDoc.All NotOldSchema ∧ sampleDoc.Tame ∧
    sampleFile = some ([(chars! "a", 3), (chars! "b", 2), (chars! "d", 0)], [(chars! "a", Ty.«Style»)], [5]) ∧
    docIds (chars! "Document") sampleAttrs sampleKids =
      [some (chars! "d"), some (chars! "a"), some (chars! "b"), some (chars! "a"), none, none, none, none] ∧
    IsLast (docIds (chars! "Document") sampleAttrs sampleKids) (chars! "a") 3 := by
  have hd : docIds (chars! "Document") sampleAttrs sampleKids =
      [some (chars! "d"), some (chars! "a"), some (chars! "b"), some (chars! "a"), none, none, none, none] := by
    decide +kernel
  have h : ∀ m ∈ [chars! "Document", chars! "Style", chars! "Folder", chars! "styleUrl", chars! "NetworkLink", chars! "Link",
    chars! "href"], isKnown m = true := by decide +kernel
  have h1 := h (chars! "Document") (by simp)
  have h2 := h (chars! "Folder") (by simp)
  have h3 := h (chars! "styleUrl") (by simp)
  have h4 := h (chars! "NetworkLink") (by simp)
  have h5 := h (chars! "Link") (by simp)
  have h6 := h (chars! "href") (by simp)
  refine ⟨by simp [sampleDoc, sampleKids, Xml.All, AllOf, NotOldSchema],
    by simp [sampleDoc, sampleKids, Xml.Tame, TameAll, h1, h2, h3, h4, h5, h6], by decide +kernel, hd, ?_⟩
  rw [hd]
  refine ⟨rfl, fun j hj => ?_⟩
  rcases Nat.lt_or_ge j 8 with h | h
  · have : j = 4 ∨ j = 5 ∨ j = 6 ∨ j = 7 := by omega
    rcases this with rfl | rfl | rfl | rfl <;> simp
  · rw [List.getElem?_eq_none (by simpa using h)]
    simp

/-- **C37 fails: misplaced objects.** A strict import accepts the tree of
`<Placemark><Folder id="a"/><Folder id="a"/></Placemark>`, and looking up `a` in it gives nothing. -/
theorem C37_misplaced_violated :
    (rootOf [.start (chars! "Placemark") [], .start (chars! "Folder") [(chars! "id", chars! "a")],
      .stop (chars! "Folder"), .start (chars! "Folder") [(chars! "id", chars! "a")], .stop (chars! "Folder"),
      .stop (chars! "Placemark")]).map (fun e => (importFile e true).map fun m => m.1) = some (some []) := by
  decide +kernel

/-! ## C55 Shared styles -/

/-- The last style selector in a `Document` with an id, in the order of end tags. -/
def lastShared (name : Str) (attrs : List (Str × Str)) (ks : List Xml) (id : Str) : Option (Ty × Xml) :=
  ((docChildren name attrs ks).filter fun t => t.1 = Ty.«Document» ∧ styleId t.2 = some id).getLast?

/-- **C55, which style.** After a parse the shared style for an id is the last style selector with that id that is a
child of a `Document`; it is the element that piece of the document stands for. -/
theorem C55_which_partial (n : NumLib) (name : Str) (attrs : List (Str × Str)) (ks : List Xml)
    (hold : (Xml.elem name attrs ks).All NotOldSchema) (htame : (Xml.elem name attrs ks).Tame) (e : Elem) (s : FileState)
    (h : parseFile n (Xml.elem name attrs ks).events = .ok (some e, s)) (id : Str) :
    match lastShared name attrs ks id with
    | none => s.getSharedStyleById id = none
    | some t => ∃ c, s.getSharedStyleById id = some c ∧ StandsFor n t.1 t.2 c := by
  obtain ⟨l, hl, ha⟩ := parseFile_took hold htame h
  have he := about_adds ha
  have hf := he.filter (f := fun t => decide (t.1 = Ty.«Document» ∧ styleId t.2 = some id)) (g := sharedAs id)
    fun a b hab => shared_stands hab.1 hab.2 id
  unfold lastShared FileState.getSharedStyleById docChildren
  rw [hl.styles]
  rcases hf.getLast? with ⟨h1, h2⟩ | ⟨a, b, h1, h2, h3⟩
  · rw [h1, h2]; rfl
  · rw [h1, h2]
    exact ⟨b.2, rfl, h3.2⟩

/-- **C55, exactly.** For an id that is not empty there is a shared style exactly if a style selector with that id is a
child of a `Document` of the document.

For the empty id it is false (`C55_unnamed_violated`). -/
theorem C55_exists_partial (n : NumLib) (name : Str) (attrs : List (Str × Str)) (ks : List Xml)
    (hold : (Xml.elem name attrs ks).All NotOldSchema) (htame : (Xml.elem name attrs ks).Tame) (e : Elem) (s : FileState)
    (h : parseFile n (Xml.elem name attrs ks).events = .ok (some e, s)) (id : Str) (hid : id ≠ []) :
    (s.getSharedStyleById id).isSome = true ↔
      ∃ x nm as content, (Ty.«Document», x) ∈ docChildren name attrs ks ∧ x.parts = some (nm, as, content) ∧
        (newNode (Xsd.elementId nm)).isA Ty.«StyleSelector» = true ∧ attrValue (chars! "id") as = some id := by
  have key := C55_which_partial n name attrs ks hold htame e s h id
  have hstyle : ∀ x, styleId x = some id ↔ ∃ nm as content, x.parts = some (nm, as, content) ∧
      (newNode (Xsd.elementId nm)).isA Ty.«StyleSelector» = true ∧ attrValue (chars! "id") as = some id := by
    intro x
    unfold styleId
    rcases Option.eq_none_or_eq_some x.parts with hn | ⟨⟨nm, as, content⟩, hx⟩
    · rw [hn]; simp
    · rw [hx, Option.bind_some]
      simp only [Option.some.injEq, Prod.mk.injEq]
      constructor
      · intro h
        split at h
        · rename_i hsel
          refine ⟨nm, as, content, ⟨rfl, rfl, rfl⟩, hsel, ?_⟩
          simp only [Option.some.injEq] at h
          cases hv : attrValue (chars! "id") as with
          | none => rw [hv] at h; exact absurd h.symm hid
          | some v => rw [hv] at h; exact congrArg some h
        · cases h
      · rintro ⟨_, _, _, ⟨rfl, rfl, rfl⟩, h1, h2⟩
        rw [if_pos h1, h2]
        rfl
  have hmem : (s.getSharedStyleById id).isSome = true ↔ (lastShared name attrs ks id).isSome = true := by
    rcases Option.eq_none_or_eq_some (lastShared name attrs ks id) with hn | ⟨t, ht⟩
    · rw [hn] at key ⊢
      simp only at key
      rw [key]
      simp
    · rw [ht] at key ⊢
      obtain ⟨c, hc, _⟩ := key
      rw [hc]
      simp
  rw [hmem]
  unfold lastShared
  have hlast : ∀ l : List (Ty × Xml), l.getLast?.isSome = true ↔ ∃ t, t ∈ l := by
    intro l
    cases l with
    | nil => simp
    | cons a l => rw [List.getLast?_cons]; simp only [Option.isSome_some, true_iff]; exact ⟨a, List.mem_cons_self ..⟩
  rw [hlast]
  simp only [List.mem_filter, decide_eq_true_eq, hstyle]
  constructor
  · rintro ⟨⟨t, x⟩, h1, rfl, nm, as, content, h2⟩
    exact ⟨x, nm, as, content, h1, h2⟩
  · rintro ⟨x, nm, as, content, h1, h2⟩
    exact ⟨(_, x), h1, rfl, nm, as, content, h2⟩

/-- In the sample of C37 the style in the document is the shared style `a`; the one in the folder is not shared. -/
example : (docChildren (chars! "Document") sampleAttrs sampleKids).map (fun t => (t.1, t.2.parts.map (·.1), styleId t.2)) =
      [(Ty.«Document», some (chars! "Style"), some (chars! "a")), (Ty.«Folder», some (chars! "Style"), some (chars! "a")),
       (Ty.«Folder», some (chars! "styleUrl"), none), (Ty.«Document», some (chars! "Folder"), none),
       (Ty.«Link», some (chars! "href"), none), (Ty.«NetworkLink», some (chars! "Link"), none),
       (Ty.«Document», some (chars! "NetworkLink"), none)] := by
  decide +kernel

/-- **C55 fails: styles without an id.** In `<Document><Style/></Document>` looking up the empty id gives the style,
although it has no id. -/
theorem C55_unnamed_violated :
    (match parseFile NumLib.integers [.start (chars! "Document") [], .start (chars! "Style") [], .stop (chars! "Style"),
      .stop (chars! "Document")] with
    | .ok (some _, s) => (s.getSharedStyleById []).map fun c => (c.ty, c.objectId)
    | _ => none) = some (Ty.«Style», none) := by
  decide +kernel

/-- **C55, import.** In a file made from a tree the shared style for an id is the last object found with that id, if it is
a style selector in a `Document`. -/
theorem C55_imported_partial (n : NumLib) (root : Elem) (h : Held n root) (strict : Bool)
    (m : StdMap (List Step) × StdMap (List Step)) (hm : importFile root strict = some m) (id : Str) (p : List Step) :
    m.2.get id = some p ↔ (∃ x, lastWithId root id = some (p, x)) ∧ SharedAt root p := by
  rw [importFile_eq] at hm
  split at hm
  · cases hm
  · cases hm
    rw [import_shared h, C38_map]
    refine and_congr_left fun _ => ?_
    constructor
    · intro hl
      obtain ⟨r, hr, rfl⟩ := Option.map_eq_some_iff.1 hl
      exact ⟨r.2, hr⟩
    · rintro ⟨x, hx⟩
      rw [hx]; rfl

/-- **C55, import of trees with distinct ids.** If ids are distinct and no misplaced element is complex, the shared style
for an id is the style selector with that id that is in a `Document`.

With duplicate ids it is false (`C55_hidden_violated`). -/
theorem C55_import_partial (n : NumLib) (root : Elem) (h : Held n root) (ht : Everywhere Tidy root)
    (hd : DistinctIds root) (strict : Bool) (m : StdMap (List Step) × StdMap (List Step))
    (hm : importFile root strict = some m) (id : Str) (p : List Step) :
    m.2.get id = some p ↔ SharedAt root p ∧ ∃ x, root.at p = some x ∧ x.objectId = some id := by
  rw [C55_imported_partial n root h strict m hm, and_comm]
  refine and_congr_right fun _ => ?_
  constructor
  · rintro ⟨x, hx⟩
    obtain ⟨h1, h2⟩ := lastWith_some hx
    exact ⟨x, (mem_visited h ht (objectId_complex h2)).1 h1, h2⟩
  · rintro ⟨x, hx, hid⟩
    exact ⟨x, distinct_last h ht hd hx hid⟩

/-- Events of `<Document><Style id="a"/></Document>` with more in it. -/
def withStyle (more : List Ev) : List Ev :=
  [.start (chars! "Document") [], .start (chars! "Style") [(chars! "id", chars! "a")], .stop (chars! "Style")] ++ more ++
    [.stop (chars! "Document")]

example : (rootOf (withStyle [])).map (fun e => (importFile e true).map fun m => m.2) =
    some (some [(chars! "a", [.slot M.«styleselector_array» 0])]) := by
  decide +kernel

/-- **C55 fails: an id used again.** In the tree of `<Document><Style id="a"/><Placemark id="a"/></Document>` an import
finds no shared style `a`. -/
theorem C55_hidden_violated :
    (rootOf (withStyle [.start (chars! "Placemark") [(chars! "id", chars! "a")], .stop (chars! "Placemark")])).map
      (fun e => (importFile e false).map fun m => m.2) = some (some []) := by
  decide +kernel

/-! ## C56 Links -/

/-- **C56.** Collecting the links of a document that parses gives, in document order and each one once, the text of every
`href` and `styleUrl`, of every `targetHref` in an `Alias`, and the schema address of every `SchemaData`. -/
theorem C56_links_partial (n : NumLib) (name : Str) (attrs : List (Str × Str)) (ks : List Xml)
    (hold : (Xml.elem name attrs ks).All NotOldSchema) (htame : (Xml.elem name attrs ks).Tame) (links : List Str)
    (h : getLinks n (Xml.elem name attrs ks).events = .ok (true, links)) :
    links = (docChildren name attrs ks).filterMap fun t => linkOf t.1 t.2 := by
  unfold getLinks at h
  obtain ⟨⟨o, s⟩, hr, hs⟩ := bind_eq_ok h
  simp only [Outcome.ok.injEq, Prod.mk.injEq] at hs
  obtain ⟨h1, rfl⟩ := hs
  obtain ⟨e, rfl⟩ := Option.isSome_iff_exists.1 h1
  obtain ⟨l, hl, ht⟩ := buildRoot_hears links_listens _ (buildRoot_of_parse hold htame hr)
  rw [links_took ht]
  exact ((about_adds (buildRoot_about hl)).filterMap (f := fun t => linkOf t.1 t.2) (g := linkAt)
    fun a b hab => linkOf_stands hab.1 hab.2).symm

/-- **C56, whenever it parses.** Collecting links succeeds exactly if the document parses. -/
theorem C56_parses_partial (n : NumLib) (name : Str) (attrs : List (Str × Str)) (ks : List Xml)
    (hold : (Xml.elem name attrs ks).All NotOldSchema) (htame : (Xml.elem name attrs ks).Tame) :
    (∃ links, getLinks n (Xml.elem name attrs ks).events = .ok (true, links)) ↔
      ∃ e, parseEvents n ([] : List (Observer Unit)) () (Xml.elem name attrs ks).events = .ok (some e, ()) := by
  have up : ∀ {σ : Type} {os : List (Observer σ)} {s s' : σ} {e : Elem},
      buildRoot n os s name attrs ks = .ok (some (e, s')) →
      parseEvents n os s (Xml.elem name attrs ks).events = .ok (some e, s') := by
    intro σ os s s' e hb
    have := run_root n os s name attrs ks hold htame
    rw [hb] at this
    exact this
  constructor
  · rintro ⟨links, h⟩
    unfold getLinks at h
    obtain ⟨⟨o, s⟩, hr, hs⟩ := bind_eq_ok h
    simp only [Outcome.ok.injEq, Prod.mk.injEq] at hs
    obtain ⟨h1, rfl⟩ := hs
    obtain ⟨e, rfl⟩ := Option.isSome_iff_exists.1 h1
    obtain ⟨l, hl, _⟩ := buildRoot_hears links_listens _ (buildRoot_of_parse hold htame hr)
    refine ⟨e, up ?_⟩
    rw [buildRoot_heard nobody () hl]
    show Outcome.ok (Option.bind (some (e, l)) _) = _
    rw [Option.bind_some, takeIn_unit]
    rfl
  · rintro ⟨e, h⟩
    obtain ⟨l, hl, _⟩ := buildRoot_hears nobody _ (buildRoot_of_parse hold htame h)
    have hsome : ∀ l : List Notice, ∃ s, takeIn linkStep [] l = some s := by
      refine snoc_ind ⟨_, rfl⟩ ?_
      rintro l x ⟨s, hs⟩
      rw [takeIn_snoc, hs, Option.bind_some]
      cases x <;> exact ⟨_, rfl⟩
    obtain ⟨s, hs⟩ := hsome l
    refine ⟨s, ?_⟩
    have : parseEvents n [linksObserver] [] (Xml.elem name attrs ks).events = .ok (some e, s) := by
      refine up ?_
      rw [buildRoot_heard links_listens [] hl]
      show Outcome.ok (Option.bind (some (e, l)) _) = _
      rw [Option.bind_some, hs]
      rfl
    unfold getLinks
    rw [this]
    rfl

example : getLinks NumLib.integers sampleDoc.events = .ok (true, [chars! "#a", chars! "x.kml"]) := by decide +kernel

/-! ## C74 Link parents -/

/-- **C74.** After a parse the link parents of a file are, in document order and each one once, exactly the elements that
can hold a link: overlays, `ItemIcon`s, `IconStyle`s, `NetworkLink`s and `Model`s. -/
theorem C74_parents_partial (n : NumLib) (name : Str) (attrs : List (Str × Str)) (ks : List Xml)
    (hold : (Xml.elem name attrs ks).All NotOldSchema) (htame : (Xml.elem name attrs ks).Tame) (e : Elem) (s : FileState)
    (h : parseFile n (Xml.elem name attrs ks).events = .ok (some e, s)) :
    s.linkParents.Pairwise (· < ·) ∧ ∀ i, i ∈ s.linkParents ↔
      ∃ t as, (docStarts name attrs ks)[i]? = some (t, as) ∧
        t ∈ [Ty.«PhotoOverlay», Ty.«GroundOverlay», Ty.«ScreenOverlay», Ty.«ItemIcon», Ty.«IconStyle», Ty.«NetworkLink»,
          Ty.«Model»] := by
  obtain ⟨l, hl, ha⟩ := parseFile_took hold htame h
  have hty := about_types ha
  rw [hl.parents]
  unfold indices
  refine ⟨(List.pairwise_lt_range).filter _, fun i => ?_⟩
  rw [List.mem_filter, List.mem_range]
  have hi : ∀ i : Nat, ((news l)[i]?).map Elem.ty = ((docStarts name attrs ks)[i]?).map (·.1) := by
    intro i
    rw [← List.getElem?_map, ← List.getElem?_map, hty]
    rfl
  constructor
  · rintro ⟨hlt, hany⟩
    have hx := List.getElem?_eq_getElem hlt
    have hi := hi i
    rw [hx] at hany hi
    obtain ⟨t, ht, htt⟩ := Option.map_eq_some_iff.1 hi.symm
    refine ⟨t.1, t.2, ht, ?_⟩
    rw [htt]
    exact of_decide_eq_true hany
  · rintro ⟨t, as, h1, h2⟩
    have hi := hi i
    rw [h1] at hi
    obtain ⟨x, hx, hxt⟩ := Option.map_eq_some_iff.1 hi
    refine ⟨(List.getElem?_eq_some_iff.1 hx).1, ?_⟩
    rw [hx]
    refine decide_eq_true ?_
    rw [hxt]
    exact h2

end Kml.Dom
