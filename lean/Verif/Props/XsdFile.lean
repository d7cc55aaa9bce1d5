import Verif.Lemmas.XsdDoc

/-!
# C66, C67, C68, C69, C73: XSD files

Documents are XML trees (Spec/XmlTree.lean), given to the handler as the events an XML parser delivers.  What a document
declares is read off the tree in Spec/XsdFile.lean.
-/

namespace Kml.XsdDoc

open Kml
open Kml.Dom (Xml)

/-! ## C68: parsing -/

theorem tidy_of_ok {x : Xml} {f : File} (h : createFromParse x.events = .ok f) : RootOk x ∧ Tidy x ∧ f = fileOf x := by
  unfold createFromParse at h
  obtain ⟨st, h1, _⟩ := bind_ok h
  obtain ⟨_, _, _, h2, h3⟩ := tidy_of_run x [] {} st h1
  have ht := h2 rfl
  have hr : RootOk x := by
    rcases h3 with h3 | h3
    · exact absurd rfl h3
    · exact h3
  have := createFromParse_tidy hr ht
  unfold createFromParse at this
  rw [this] at h
  cases h
  exact ⟨hr, ht, rfl⟩

theorem ok_of_parse {x : Xml} {f : File} (h : createFromParse x.events = .ok f) : f.Ok := by
  rw [(tidy_of_ok h).2.2]
  exact fileOf_ok x

/-- **C68, safety.** Processing a document has no undefined behaviour exactly if its root is not an `<element>` that
declares something, and every `<complexType>` and `<simpleType>` has a name and contains no other type.

Missing from the full property: documents with anonymous or nested types; see `C68_anonymous_violated`. -/
theorem C68_safe_iff_partial (x : Xml) : (createFromParse x.events).Safe ↔ RootOk x ∧ Tidy x := by
  constructor
  · rintro ⟨f, h⟩
    exact ⟨(tidy_of_ok h).1, (tidy_of_ok h).2.1⟩
  · rintro ⟨h1, h2⟩
    exact ⟨_, createFromParse_tidy h1 h2⟩

/-- **C68, completeness.** The file holds exactly what the document declares: the global elements and the types, under
their names, the last one of each name, and the schema of the last `<schema>`. -/
theorem C68_records (x : Xml) (f : File) (h : createFromParse x.events = .ok f) (k : Str) :
    f.findElement k = ((globals (tags [] x)).reverse.find? fun e => e.name_ == k) ∧
    f.findType k = ((typeDecls x).reverse.find? fun t => t.name == k) ∧
    f.schema = (lastSchema (tags [] x)).bind fun a => Schema.create (Dom.attrMap a) := by
  rw [(tidy_of_ok h).2.2]
  refine ⟨?_, ?_, ?_⟩
  · unfold File.findElement fileOf effTypes
    simp only
    rw [effTags_elements, get_fold]
    cases List.find? (fun e => e.name_ == k) (globals (tags [] x)).reverse <;> rfl
  · unfold File.findType fileOf effTypes
    simp only
    rw [effTags_types_same, get_fold]
    cases List.find? (fun e => e.name == k) (typeDecls x).reverse <;> rfl
  · unfold fileOf effTypes
    simp only
    rw [effTags_schema]
    cases lastSchema (tags [] x) <;> rfl

/-- Every declared global element and type is found under its name, if no other has the name. -/
theorem C68_all_found (x : Xml) (f : File) (h : createFromParse x.events = .ok f) :
    (∀ e ∈ globals (tags [] x), (∀ e' ∈ globals (tags [] x), e'.name_ = e.name_ → e' = e) → f.findElement e.name_ = some e) ∧
    (∀ t ∈ typeDecls x, (∀ t' ∈ typeDecls x, t'.name = t.name → t' = t) → f.findType t.name = some t) := by
  have key : ∀ {β : Type} (key : β → Str) (l : List β) (e : β), e ∈ l → (∀ e' ∈ l, key e' = key e → e' = e) →
      (l.reverse.find? fun e' => key e' == key e) = some e := by
    intro β key l e he hu
    rcases Option.eq_none_or_eq_some (l.reverse.find? fun e' => key e' == key e) with h' | ⟨e', h'⟩
    · rw [List.find?_eq_none] at h'
      exact absurd (beq_self_eq_true (key e)) (h' e (List.mem_reverse.2 he))
    · rw [h']
      have h1 := List.find?_some h'
      have h2 := List.mem_reverse.1 (List.mem_of_find?_eq_some h')
      rw [hu e' h2 (by simpa using h1)]
  refine ⟨fun e he hu => ?_, fun t ht hu => ?_⟩
  · rw [(C68_records x f h e.name_).1]
    exact key Element.name_ _ e he hu
  · rw [(C68_records x f h t.name).2.1]
    exact key XType.name _ t ht hu

/-- A schema with two types, the second extending the first, an enumeration, and three elements. -/
def sampleXsd : Xml :=
  .elem (chars! "schema") [(chars! "targetNamespace", chars! "u"), (chars! "xmlns:k", chars! "u")]
    [.elem (chars! "complexType") [(chars! "name", chars! "A")] [.elem (chars! "sequence") []
       [.empty (chars! "element") [(chars! "ref", chars! "k:c")]]],
     .elem (chars! "complexType") [(chars! "name", chars! "B")] [.empty (chars! "extension") [(chars! "base", chars! "k:A")]],
     .elem (chars! "simpleType") [(chars! "name", chars! "E")] [.elem (chars! "restriction") [(chars! "base", chars! "string")]
       [.empty (chars! "enumeration") [(chars! "value", chars! "v")]]],
     .empty (chars! "element") [(chars! "name", chars! "a"), (chars! "abstract", chars! "true"), (chars! "type", chars! "k:A")],
     .empty (chars! "element") [(chars! "name", chars! "b"), (chars! "type", chars! "k:B")],
     .text ['\n'],
     .empty (chars! "element") [(chars! "name", chars! "c"), (chars! "type", chars! "double")]]

theorem sampleXsd_tidy : RootOk sampleXsd ∧ Tidy sampleXsd := by
  refine ⟨?_, ?_⟩
  · rintro ⟨h, _⟩
    exact absurd h (by decide)
  · simp only [sampleXsd, Tidy, TidyAll, tagsOf, tags]
    decide

/-- The file of the sample. -/
def sampleFile : File := fileOf sampleXsd

theorem sample_parsed : createFromParse sampleXsd.events = .ok sampleFile :=
  createFromParse_tidy sampleXsd_tidy.1 sampleXsd_tidy.2

example : (createFromParse sampleXsd.events).Safe := ⟨_, sample_parsed⟩

example : (sampleFile.findElement (chars! "b")).map (·.type_) = some (chars! "k:B") := by decide

example : sampleFile.findType (chars! "E") = some (.simple ⟨chars! "E", chars! "string", [chars! "v"]⟩) := by decide

/-- **C68 fails: anonymous types.** `<element name="a"><complexType/></element>`, the usual way of giving an element its
own type, dereferences a NULL pointer. -/
theorem C68_anonymous_violated :
    ¬ (createFromParse (Xml.elem (chars! "schema") [] [.elem (chars! "element") [(chars! "name", chars! "a")]
      [.empty (chars! "complexType") []]]).events).Safe := by
  rw [C68_safe_iff_partial]
  rintro ⟨_, h⟩
  simp only [Tidy, TidyAll] at h
  revert h
  decide

/-- **C68 fails: nested types**, even with names. -/
theorem C68_nested_violated :
    ¬ (createFromParse (Xml.elem (chars! "schema") [] [.elem (chars! "complexType") [(chars! "name", chars! "a")]
      [.empty (chars! "simpleType") [(chars! "name", chars! "b")]]]).events).Safe := by
  rw [C68_safe_iff_partial]
  rintro ⟨_, h⟩
  simp only [Tidy, TidyAll, tagsOf, tags] at h
  revert h
  decide

/-- **C68 fails: the root**: a document that is just an `<element name="a"/>`. -/
theorem C68_root_violated : createFromParse (Xml.empty (chars! "element") [(chars! "name", chars! "a")]).events = .ub := by
  rfl

/-! ## C66: hierarchies -/

/-- **C66, the result.** Whenever the walk over the base types ends, it has delivered the chain of bases, and it returns
true exactly if the chain is complete. -/
theorem C66_chain (x : Xml) (f : File) (h : createFromParse x.events = .ok f) (s : Schema) (hs : f.schema = some s)
    (c : Complex) (fuel : Nat) (done : Bool) (l : List Complex) (hr : f.getTypeHierarchy fuel c = some (done, l)) :
    Chain f s c l done ∧ ∀ b, b ∈ l ↔ Ancestor f s c b := by
  unfold File.getTypeHierarchy at hr
  rw [hs] at hr
  have hc := hierarchyLoop_chain (ok_of_parse h) hr
  exact ⟨hc, fun b => ancestor_chain (ok_of_parse h) hc⟩

/-- **C66, termination.** The walk ends exactly if no type among the type and its ancestors is its own ancestor; then it
takes at most as many rounds as there are types, and one.

Missing from the full property: cyclic files, on which it does not end; see `C66_cycle_violated`. -/
theorem C66_terminates_partial (x : Xml) (f : File) (h : createFromParse x.events = .ok f) (s : Schema)
    (hs : f.schema = some s) (c : Complex) :
    ((∃ fuel r, f.getTypeHierarchy fuel c = some r) ↔ ¬ Cyclic f s c) ∧
    (¬ Cyclic f s c → ∃ r, f.getTypeHierarchy (f.types.length + 1) c = some r) := by
  have hf := ok_of_parse h
  have h2 : ¬ Cyclic f s c → ∃ r, f.getTypeHierarchy (f.types.length + 1) c = some r := by
    intro hc
    unfold File.getTypeHierarchy
    rw [hs]
    exact hierarchyLoop_ends hf hc (by omega)
  refine ⟨⟨?_, fun hc => ⟨_, h2 hc⟩⟩, h2⟩
  rintro ⟨fuel, ⟨done, l⟩, hr⟩
  unfold File.getTypeHierarchy at hr
  rw [hs] at hr
  exact chain_acyclic hf (hierarchyLoop_chain hf hr)

/-- Without a schema there is nothing to walk. -/
theorem C66_no_schema (f : File) (hs : f.schema = none) (fuel : Nat) (c : Complex) :
    f.getTypeHierarchy fuel c = some (false, []) := by
  unfold File.getTypeHierarchy
  rw [hs]

/-- **C66, searching.** For a type of the file whose hierarchy is not cyclic, the search ends, and finds a type of the file
exactly if it is the type itself or one of its ancestors. -/
theorem C66_search_partial (x : Xml) (f : File) (h : createFromParse x.events = .ok f) (s : Schema) (hs : f.schema = some s)
    (c t : Complex) (hc : XType.complex c ∈ f.getAllTypes) (ht : XType.complex t ∈ f.getAllTypes) (hn : ¬ Cyclic f s c) :
    ∃ b, f.searchTypeHierarchy (f.types.length + 1) c t = some b ∧ (b = true ↔ t = c ∨ Ancestor f s c t) := by
  have hf := ok_of_parse h
  obtain ⟨⟨done, l⟩, hr⟩ := (C66_terminates_partial x f h s hs c).2 hn
  have hch := (C66_chain x f h s hs c _ done l hr).1
  have hanc := (C66_chain x f h s hs c _ done l hr).2
  have same : ∀ {a b : Complex}, XType.complex a ∈ f.getAllTypes → XType.complex b ∈ f.getAllTypes → a.name = b.name → a = b := by
    intro a b ha hb hab
    unfold File.getAllTypes at ha hb
    obtain ⟨⟨k, ta⟩, h1, h2⟩ := List.mem_map.1 ha
    obtain ⟨⟨k', tb⟩, h3, h4⟩ := List.mem_map.1 hb
    simp only at h2 h4
    subst h2 h4
    have e1 := hf.types_named _ _ h1
    have e2 := hf.types_named _ _ h3
    simp only [XType.name] at e1 e2
    rw [← e1] at h1
    rw [← e2, ← hab] at h3
    have := StdMap.get_of_mem hf.types_sorted h1
    rw [StdMap.get_of_mem hf.types_sorted h3] at this
    cases this
    rfl
  have inAll : ∀ {a b : Complex}, Ancestor f s a b → XType.complex b ∈ f.getAllTypes := by
    intro a b hab
    induction hab with
    | base h =>
      obtain ⟨n, _, _, h⟩ := h
      exact List.mem_map.2 ⟨_, h, rfl⟩
    | step _ _ ih => exact ih
  have hlen : l.length < f.types.length + 1 := by
    have hlen : ∀ {fuel : Nat} {c : Complex} {r : Bool × List Complex}, f.hierarchyLoop s fuel c = some r → r.2.length < fuel := by
      intro fuel
      induction fuel with
      | zero => intro c r hr; cases hr
      | succ fuel ih =>
        intro c r hr
        simp only [File.hierarchyLoop] at hr
        split at hr
        · cases hr; simp
        · split at hr
          · cases hr; simp
          · simp only [Option.map_eq_some_iff] at hr
            obtain ⟨r', h1, h2⟩ := hr
            cases h2
            have := ih h1
            simp
            omega
    unfold File.getTypeHierarchy at hr
    rw [hs] at hr
    exact hlen hr
  refine ⟨_, search_ends hf hs hch hlen, ?_⟩
  rw [decide_eq_true_iff]
  constructor
  · rintro (h1 | ⟨b, hb, h1⟩)
    · exact .inl (same ht hc h1)
    · right
      have := (hanc b).1 hb
      rw [same ht (inAll this) h1]
      exact this
  · rintro (rfl | h1)
    · exact .inl rfl
    · exact .inr ⟨t, (hanc t).2 h1, rfl⟩

/-- The sample's two complex types. -/
def sampleA : Complex := ⟨chars! "A", [], [{ ref_ := true, name_ := chars! "k:c" }]⟩
def sampleB : Complex := ⟨chars! "B", chars! "k:A", []⟩

example : sampleFile.getTypeHierarchy 10 sampleB = some (true, [sampleA]) ∧ sampleFile.schema = some ⟨chars! "u", chars! "k"⟩ := by
  decide

example : ¬ Cyclic sampleFile ⟨chars! "u", chars! "k"⟩ sampleB :=
  (C66_terminates_partial sampleXsd sampleFile sample_parsed ⟨chars! "u", chars! "k"⟩ (by decide) sampleB).1.1
    ⟨10, (true, [sampleA]), by decide⟩

example : sampleFile.searchTypeHierarchy 4 sampleB sampleA = some true ∧
    sampleFile.searchTypeHierarchy 4 sampleA sampleB = some false := by decide

/-- A type that extends itself. -/
def cyclicXsd : Xml :=
  .elem (chars! "schema") [(chars! "targetNamespace", chars! "u"), (chars! "xmlns:k", chars! "u")]
    [.elem (chars! "complexType") [(chars! "name", chars! "A")] [.empty (chars! "extension") [(chars! "base", chars! "k:A")]]]

/-- **C66 fails on cycles.** The file of a well-formed document with a type that extends itself is made, the type is in it,
and walking its hierarchy never ends. -/
theorem C66_cycle_violated : ∃ f c, createFromParse cyclicXsd.events = .ok f ∧ f.findType (chars! "A") = some (.complex c) ∧
    ∀ fuel, f.getTypeHierarchy fuel c = none := by
  have hp : createFromParse cyclicXsd.events = .ok (fileOf cyclicXsd) := by
    apply createFromParse_tidy
    · rintro ⟨h, _⟩
      exact absurd h (by decide)
    · simp only [cyclicXsd, Tidy, TidyAll, tagsOf, tags]
      decide
  refine ⟨_, ⟨chars! "A", chars! "k:A", []⟩, hp, by decide, fun fuel => ?_⟩
  rcases Option.eq_none_or_eq_some ((fileOf cyclicXsd).getTypeHierarchy fuel ⟨chars! "A", chars! "k:A", []⟩) with h | ⟨r, h⟩
  · exact h
  · exfalso
    refine (C66_terminates_partial cyclicXsd _ hp ⟨chars! "u", chars! "k"⟩ (by decide) _).1.1 ⟨fuel, r, h⟩ ?_
    refine ⟨_, .inl rfl, .base ⟨chars! "A", by decide, by decide, ?_⟩⟩
    exact StdMap.mem_of_get (show (fileOf cyclicXsd).types.get _ = _ by decide)

/-! ## C67: the element list -/

theorem hasType_not_builtin {f : File} {e : Element} {t : XType} (h : HasType f e t) : ¬ HasBuiltin e := by
  obtain ⟨s, n, _, _, h, _⟩ := h
  unfold HasBuiltin
  rw [h]
  intro hm
  have : ∀ t ∈ primitiveNames, ':' ∉ t := by decide
  exact this _ hm (by simp)

/-- **C67.** The list is what was in the vector, then all abstract elements, then all other elements of a complex type, then
all other elements of a built-in or simple type; the two indices are where the second and the third group begin; nothing
occurs twice.  (Elements of no known type are in none of the groups.) -/
theorem C67_groups (x : Xml) (f : File) (h : createFromParse x.events = .ok f) (v : List Element) :
    ∃ ab co si, f.generateElementIdVector v = (v ++ ab ++ co ++ si, v.length + ab.length, v.length + ab.length + co.length) ∧
      (ab ++ co ++ si).Nodup ∧
      (∀ e, e ∈ ab ↔ (∃ k, (k, e) ∈ f.elements) ∧ e.abstract_ = true) ∧
      (∀ e, e ∈ co ↔ (∃ k, (k, e) ∈ f.elements) ∧ e.abstract_ = false ∧ ∃ c, HasType f e (.complex c)) ∧
      (∀ e, e ∈ si ↔ (∃ k, (k, e) ∈ f.elements) ∧ e.abstract_ = false ∧ (HasBuiltin e ∨ ∃ c, HasType f e (.simple c))) := by
  have hf := ok_of_parse h
  have hco : ∀ e, e ∈ f.getComplexElements ↔
      (∃ k, (k, e) ∈ f.elements) ∧ e.abstract_ = false ∧ ∃ c, HasType f e (.complex c) := by
    intro e
    unfold File.getComplexElements
    rw [List.mem_filter, ← mem_allElements]
    constructor
    · rintro ⟨h1, h2⟩
      simp only [Bool.and_eq_true, Bool.not_eq_true', Option.isSome_iff_exists] at h2
      obtain ⟨h2, c, h3⟩ := h2
      rw [asComplex_some, findElementType_some hf h1] at h3
      rcases h3 with ⟨_, h3⟩ | ⟨_, h3⟩
      · cases h3
      · exact ⟨h1, h2, c, h3⟩
    · rintro ⟨h1, h2, c, h3⟩
      refine ⟨h1, ?_⟩
      simp only [Bool.and_eq_true, Bool.not_eq_true', Option.isSome_iff_exists]
      exact ⟨h2, c, asComplex_some.2 ((findElementType_some hf h1).2 (.inr ⟨hasType_not_builtin h3, h3⟩))⟩
  have hsi : ∀ e, e ∈ f.getSimpleElements ↔
      (∃ k, (k, e) ∈ f.elements) ∧ e.abstract_ = false ∧ (HasBuiltin e ∨ ∃ c, HasType f e (.simple c)) := by
    intro e
    unfold File.getSimpleElements
    rw [List.mem_filter, ← mem_allElements]
    constructor
    · rintro ⟨h1, h2⟩
      simp only [Bool.and_eq_true, Bool.not_eq_true', Bool.or_eq_true, Option.isSome_iff_exists] at h2
      obtain ⟨h2, h3⟩ := h2
      refine ⟨h1, h2, ?_⟩
      obtain ⟨k, hk⟩ := mem_allElements.1 h1
      have hp : e.isPrimitive = true ↔ HasBuiltin e := by
        unfold Element.isPrimitive HasBuiltin
        rw [hf.type_ids k e hk, bne_iff_ne, ne_eq, getTypeId_zero]
        exact Decidable.not_not
      rcases h3 with h3 | ⟨c, h3⟩
      · exact .inl (hp.1 h3)
      · rw [asSimple_some, findElementType_some hf h1] at h3
        rcases h3 with ⟨_, h3⟩ | ⟨_, h3⟩
        · cases h3
        · exact .inr ⟨c, h3⟩
    · rintro ⟨h1, h2, h3⟩
      refine ⟨h1, ?_⟩
      obtain ⟨k, hk⟩ := mem_allElements.1 h1
      have hp : e.isPrimitive = true ↔ HasBuiltin e := by
        unfold Element.isPrimitive HasBuiltin
        rw [hf.type_ids k e hk, bne_iff_ne, ne_eq, getTypeId_zero]
        exact Decidable.not_not
      simp only [Bool.and_eq_true, Bool.not_eq_true', Bool.or_eq_true, Option.isSome_iff_exists]
      refine ⟨h2, ?_⟩
      rcases h3 with h3 | ⟨c, h3⟩
      · exact .inl (hp.2 h3)
      · exact .inr ⟨c, asSimple_some.2 ((findElementType_some hf h1).2 (.inr ⟨hasType_not_builtin h3, h3⟩))⟩
  have hab : ∀ e, e ∈ f.getAbstractElements ↔ (∃ k, (k, e) ∈ f.elements) ∧ e.abstract_ = true := by
    intro e
    unfold File.getAbstractElements
    rw [List.mem_filter, ← mem_allElements]
  refine ⟨f.getAbstractElements, f.getComplexElements, f.getSimpleElements, ?_, ?_, hab, hco, hsi⟩
  · simp [File.generateElementIdVector, Nat.add_assoc]
  · have hn := allElements_nodup hf
    rw [List.nodup_append, List.nodup_append]
    refine ⟨⟨hn.filter _, hn.filter _, ?_⟩, hn.filter _, ?_⟩
    · rintro a ha b hb rfl
      have h1 := ((hab a).1 ha).2
      rw [((hco a).1 hb).2.1] at h1
      cases h1
    · rintro a ha b hb rfl
      rcases List.mem_append.1 ha with ha | ha
      · have h1 := ((hab a).1 ha).2
        rw [((hsi a).1 hb).2.1] at h1
        cases h1
      · obtain ⟨_, _, c, h1⟩ := (hco a).1 ha
        obtain ⟨_, _, h2⟩ := (hsi a).1 hb
        rcases h2 with h2 | ⟨c', h2⟩
        · exact hasType_not_builtin h1 h2
        · obtain ⟨s, n, e1, e2, e3, e4⟩ := h1
          obtain ⟨s', n', g1, g2, g3, g4⟩ := h2
          rw [e1] at g1
          cases g1
          rw [e3] at g3
          have hnn : n = n' := by simpa using g3
          subst hnn
          have := StdMap.get_of_mem hf.types_sorted e4
          rw [StdMap.get_of_mem hf.types_sorted g4] at this
          cases this

example : (sampleFile.generateElementIdVector []).1.map (·.name_) = [chars! "a", chars! "b", chars! "c"] ∧
    (sampleFile.generateElementIdVector []).2 = (1, 2) := by decide

/-! ## C69: qualified names and primitive types -/

/-- **C69, names.** A qualified name is split exactly if it is the prefix of the target namespace, a colon and a local
part that is not empty; the result is the local part. -/
theorem C69_split (s : Schema) (q l : Str) : s.splitNsName q = some l ↔ l ≠ [] ∧ q = s.pre ++ ':' :: l :=
  splitNsName_eq_some

example : (Schema.mk (chars! "u") (chars! "kml")).splitNsName (chars! "kml:LookAt") = some (chars! "LookAt") := by decide

/-- **C69, primitive types.** Every id from 1 to 22 has a name, whose id it is; a name has id 0 exactly if no id has it
as its name. -/
theorem C69_types (i : Nat) (s : Str) (hi : 0 < i) : getTypeName i = .ok s ↔ getTypeId s = i := by
  constructor
  · intro h
    obtain ⟨k, rfl⟩ : ∃ k, i = k + 1 := ⟨i - 1, by omega⟩
    unfold getTypeName at h
    simp only at h
    split at h
    · next s' hs =>
      cases h
      have hk : k < 22 := by
        have := (List.getElem?_eq_some_iff.1 hs).1
        simpa [primitiveNames] using this
      have hall : ∀ j < 22, (primitiveNames[j]?).map getTypeId = some (j + 1) := by decide
      have := hall k hk
      rw [hs] at this
      simpa using this
    · cases h
  · intro h
    have h0 : typeIdFrom s 1 primitiveNames ≠ 0 := by
      unfold getTypeId at h
      omega
    have := typeIdFrom_get h0
    unfold getTypeId at h
    rw [h] at this
    obtain ⟨k, rfl⟩ : ∃ k, i = k + 1 := ⟨i - 1, by omega⟩
    unfold getTypeName
    simp only
    rw [show k + 1 - 1 = k by omega] at this
    rw [this.2]

/-- The ids that have a name are those from 1 to 22; asking for the name of any other is undefined. -/
theorem C69_range (i : Nat) : (getTypeName i).Safe ↔ 0 < i ∧ i ≤ 22 := by
  constructor
  · rintro ⟨s, h⟩
    cases i with
    | zero => cases h
    | succ k =>
      unfold getTypeName at h
      simp only at h
      split at h
      · next s' hs =>
        have := (List.getElem?_eq_some_iff.1 hs).1
        refine ⟨by omega, ?_⟩
        have hl : primitiveNames.length = 22 := rfl
        omega
      · cases h
  · rintro ⟨h1, h2⟩
    have hall : ∀ j < 22, primitiveNames[j]?.isSome = true := by decide
    obtain ⟨k, rfl⟩ : ∃ k, i = k + 1 := ⟨i - 1, by omega⟩
    obtain ⟨s, hs⟩ := Option.isSome_iff_exists.1 (hall k (by omega))
    refine ⟨s, ?_⟩
    unfold getTypeName
    simp only [hs]

example : getTypeId (chars! "boolean") = 2 ∧ getTypeName 2 = .ok (chars! "boolean") ∧ getTypeId (chars! "foo") = 0 := by decide

/-! ## C73: child elements -/

/-- **C73.** The child elements of an element of a complex type are those of the type's sequence, in order, where each
reference `prefix:name` to a global element stands for that element, and any other reference gives NULL. -/
theorem C73_children (x : Xml) (f : File) (h : createFromParse x.events = .ok f) (e : Element) (c : Complex)
    (he : (e.name_, e) ∈ f.elements) (hc : HasType f e (.complex c)) :
    (f.getChildElements e.name_).length = c.sequence.length ∧
    ∀ (i : Nat) (d : Element), c.sequence[i]? = some d → ∃ r, (f.getChildElements e.name_)[i]? = some r ∧
      (d.ref_ = false → r = some d) ∧
      (d.ref_ = true → ∀ g, r = some g ↔
        ∃ s n, f.schema = some s ∧ n ≠ [] ∧ d.name_ = s.pre ++ ':' :: n ∧ (n, g) ∈ f.elements) := by
  have hf := ok_of_parse h
  have h1 : f.findElement e.name_ = some e := StdMap.get_of_mem hf.elements_sorted he
  have h2 : f.findElementType (some e) = some (.complex c) :=
    (findElementType_some hf (mem_allElements.2 ⟨_, he⟩)).2 (.inr ⟨hasType_not_builtin hc, hc⟩)
  have h3 : f.getChildElements e.name_ = c.sequence.map fun d => if d.ref_ then f.resolveRef d.name_ else some d := by
    unfold File.getChildElements
    rw [h1, h2]
    rfl
  rw [h3]
  refine ⟨by simp, fun i d hd => ⟨if d.ref_ then f.resolveRef d.name_ else some d, by simp [hd], ?_, ?_⟩⟩
  · intro hr
    simp [hr]
  · intro hr g
    simp only [hr, if_true]
    unfold File.resolveRef
    constructor
    · intro hg
      split at hg
      · cases hg
      · next s hs =>
        split at hg
        · cases hg
        · next n hn =>
          rw [splitNsName_eq_some] at hn
          exact ⟨s, n, hs, hn.1, hn.2, StdMap.mem_of_get hg⟩
    · rintro ⟨s, n, hs, h4, h5, h6⟩
      simp only [hs, splitNsName_eq_some.2 ⟨h4, h5⟩]
      exact StdMap.get_of_mem hf.elements_sorted h6

example : (sampleFile.getChildElements (chars! "a")).map (fun r => r.map (·.name_)) = [some (chars! "c")] := by decide

/-- An element with no complex type has no child elements. -/
theorem C73_no_children (x : Xml) (f : File) (h : createFromParse x.events = .ok f) (k : Str)
    (hk : ∀ e c, (k, e) ∈ f.elements → ¬ HasType f e (.complex c)) : f.getChildElements k = [] := by
  have hf := ok_of_parse h
  unfold File.getChildElements
  rcases Option.eq_none_or_eq_some (f.findElement k) with h1 | ⟨e, h1⟩
  · rw [h1]; rfl
  · rw [h1]
    have hm := StdMap.mem_of_get h1
    rcases Option.eq_none_or_eq_some (asComplex (f.findElementType (some e))) with h2 | ⟨c, h2⟩
    · rw [h2]; rfl
    · rw [asComplex_some, findElementType_some hf (mem_allElements.2 ⟨_, hm⟩)] at h2
      rcases h2 with ⟨_, h2⟩ | ⟨_, h2⟩
      · cases h2
      · exact absurd h2 (hk e c hm)

example : sampleFile.getChildElements (chars! "c") = [] := by decide

/-- Aliases: the last alias of a name is found, and there is none for other names. -/
theorem C73_alias (f : File) (r a k : Str) : (f.setAlias r a).getAlias k = if r = k then a else f.getAlias k := by
  unfold File.setAlias File.getAlias
  simp only [StdMap.get_set]
  split <;> rfl

/-- Alias lines: after `alias real other`, the alias of `real` is `other`, and no other alias has changed.  A line of another
length or with another first word changes none. -/
theorem C73_xst (f : File) (line : List Str) (k : Str) :
    (∀ r a, line = [chars! "alias", r, a] → (parseXstLine f line).getAlias k = if r = k then a else f.getAlias k) ∧
    ((∀ r a, line ≠ [chars! "alias", r, a]) → parseXstLine f line = f) := by
  refine ⟨?_, fun h => ?_⟩
  · rintro r a rfl
    exact C73_alias f r a k
  · unfold parseXstLine
    split
    · rfl
    · split
      · rename_i w rest hw
        unfold parseXstAlias
        split
        · rename_i _ r a heq
          cases heq
          exact absurd rfl (by rw [hw] at h; exact h r a)
        · rfl
      · rfl

example : (parseXstLine (parseXstLine {} [chars! "alias", chars! "Old", chars! "New"]) [chars! "foo"]).getAlias (chars! "Old") =
    chars! "New" := by decide

end Kml.XsdDoc
