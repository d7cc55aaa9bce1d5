import Verif.Props.XsdMake
/-! C66: the elements of a type; C73: names without alias. -/
namespace Kml.XsdDoc
open Kml Kml.Attributes Kml.Dom

theorem hasType_complex {f : File} (hf : f.Ok) {e : Element} (he : e ∈ f.getAllElements) {c : Complex} :
    asComplex (f.findElementType (some e)) = some c ↔ HasType f e (.complex c) := by
  constructor
  · intro h
    cases ht : f.findElementType (some e) with
    | none => rw [ht] at h; exact nomatch h
    | some t =>
      rw [ht] at h
      cases t with
      | primitive i => exact nomatch h
      | simple q => exact nomatch h
      | complex d =>
        injection h with h
        subst h
        rcases (findElementType_some hf he).1 ht with ⟨_, h2⟩ | ⟨_, h2⟩
        · exact nomatch h2
        · exact h2
  · intro h
    have hb : ¬ HasBuiltin e := by
      obtain ⟨s, n, _, _, h3, _⟩ := h
      unfold HasBuiltin
      rw [h3]
      exact colon_not_primitive _ _
    rw [(findElementType_some hf he).2 (.inr ⟨hb, h⟩)]
    rfl

/-- **C66, elements of a type.** In a file whose types do not extend each other in a circle, `GetElementsOfType` ends, and
gives, in the order of the file, exactly the elements whose type is the given one or has it as an ancestor. -/
theorem C66_elements_partial (x : Xml) (f : File) (h : createFromParse x.events = .ok f) (s : Schema)
    (hs : f.schema = some s) (t : Complex) (ht : XType.complex t ∈ f.getAllTypes)
    (hn : ∀ c, XType.complex c ∈ f.getAllTypes → ¬ Cyclic f s c) :
    ∃ l, f.getElementsOfType (f.types.length + 1) t = some l ∧ l.Sublist f.getAllElements ∧
      ∀ e, e ∈ l ↔ (∃ k, (k, e) ∈ f.elements) ∧ ∃ c, HasType f e (.complex c) ∧ (t = c ∨ Ancestor f s c t) := by
  have hf := ok_of_parse h
  have key : ∀ es : List Element, (∀ e ∈ es, e ∈ f.getAllElements) →
      ∃ l, f.elementsOfTypeLoop (f.types.length + 1) t es = some l ∧ l.Sublist es ∧
        ∀ e, e ∈ l ↔ e ∈ es ∧ ∃ c, HasType f e (.complex c) ∧ (t = c ∨ Ancestor f s c t) := by
    intro es
    induction es with
    | nil => intro _; exact ⟨[], rfl, .slnil, by simp⟩
    | cons e es ih =>
      intro hall
      obtain ⟨l, h1, h2, h3⟩ := ih (fun e' he' => hall e' (List.mem_cons_of_mem _ he'))
      have he := hall e List.mem_cons_self
      cases hc : asComplex (f.findElementType (some e)) with
      | none =>
        refine ⟨l, by simp only [File.elementsOfTypeLoop, hc, h1], h2.cons e, fun e' => ?_⟩
        rw [h3, List.mem_cons]
        refine ⟨fun h => ⟨.inr h.1, h.2⟩, ?_⟩
        rintro ⟨rfl | h4, h5⟩
        · obtain ⟨c, h6, _⟩ := h5
          rw [(hasType_complex hf he).2 h6] at hc
          exact nomatch hc
        · exact ⟨h4, h5⟩
      | some c =>
        have hty := (hasType_complex hf he).1 hc
        have hmem : XType.complex c ∈ f.getAllTypes := by
          obtain ⟨_, n, _, _, _, h6⟩ := hty
          exact List.mem_map.2 ⟨_, h6, rfl⟩
        obtain ⟨b, hb, hb'⟩ := C66_search_partial x f h s hs c t hmem ht (hn c hmem)
        have huniq : ∀ d, HasType f e (.complex d) → d = c := by
          intro d hd
          have := (hasType_complex hf he).2 hd
          rw [hc] at this
          exact (Option.some.inj this).symm
        cases b with
        | true =>
          refine ⟨e :: l, by simp [File.elementsOfTypeLoop, hc, h1, hb], h2.cons_cons e, fun e' => ?_⟩
          rw [List.mem_cons, h3, List.mem_cons]
          constructor
          · rintro (rfl | h4)
            · exact ⟨.inl rfl, c, hty, hb'.1 rfl⟩
            · exact ⟨.inr h4.1, h4.2⟩
          · rintro ⟨rfl | h4, h5⟩
            · exact .inl rfl
            · exact .inr ⟨h4, h5⟩
        | false =>
          refine ⟨l, by simp [File.elementsOfTypeLoop, hc, h1, hb], h2.cons e, fun e' => ?_⟩
          rw [h3, List.mem_cons]
          refine ⟨fun h => ⟨.inr h.1, h.2⟩, ?_⟩
          rintro ⟨rfl | h4, h5⟩
          · obtain ⟨d, h6, h7⟩ := h5
            rw [huniq d h6] at h7
            exact nomatch hb'.2 h7
          · exact ⟨h4, h5⟩
  obtain ⟨l, h1, h2, h3⟩ := key f.getAllElements (fun _ h => h)
  exact ⟨l, h1, h2, fun e => by rw [h3, mem_allElements]⟩

example : XType.complex sampleA ∈ sampleFile.getAllTypes ∧
    (sampleFile.getElementsOfType (sampleFile.types.length + 1) sampleA).isSome := by decide

/-- **C73, no alias.** After any lines, a name that no alias line names has no alias. -/
theorem C73_none (lines : List (List Str)) (k : Str) (h : ∀ a, [chars! "alias", k, a] ∉ lines) :
    (lines.foldl parseXstLine {}).getAlias k = [] := by
  have key : ∀ (lines : List (List Str)) (f : File), (∀ a, [chars! "alias", k, a] ∉ lines) →
      (lines.foldl parseXstLine f).getAlias k = f.getAlias k := by
    intro lines
    induction lines with
    | nil => intro f _; rfl
    | cons line lines ih =>
      intro f h
      rw [List.foldl_cons, ih _ (fun a ha => h a (List.mem_cons_of_mem _ ha))]
      by_cases hl : ∃ r a, line = [chars! "alias", r, a]
      · obtain ⟨r, a, hl⟩ := hl
        rw [(C73_xst f line k).1 r a hl, if_neg]
        rintro rfl
        exact h a (hl ▸ List.mem_cons_self)
      · rw [(C73_xst f line k).2 (fun r a hr => hl ⟨r, a, hr⟩)]
  exact key lines {} h

example : ∀ a, [chars! "alias", chars! "New", a] ∉ [[chars! "alias", chars! "Old", chars! "New"], [chars! "foo"]] := by
  intro a; simp

end Kml.XsdDoc
