import Verif.Lemmas.SafeBuild
import Verif.Lemmas.Nesting
import Verif.Spec.Numbers

/-!
# Properties of the parser

A document is an `Xml` tree (`Verif/Spec/XmlTree.lean`); `parseEvents` runs the parser on the events of it.
-/

namespace Kml.Dom

open Kml

variable {σ : Type}

attribute [local irreducible] kml22Elements Xsd.tagToId classes inc dec uintSize

/-! ## C27 Parsing depth is bounded -/

/-- **C27, rejection.** Whatever the observers do, no document nested more than 100 deep gives a root. -/
theorem C27_too_deep (n : NumLib) (os : List (Observer σ)) (s : σ) (name : Str)
    (attrs : List (Str × Str)) (ks : List Xml) (h : (Xml.elem name attrs ks).depth > 100)
    (r : Option Elem × σ) (hr : parseEvents n os s (Xml.elem name attrs ks).events = .ok r) : r.1 = none := by
  unfold parseEvents at hr
  cases hrun : (Handler.init s).run n os (Xml.elem name attrs ks).events with
  | ok h1 =>
    rw [hrun] at hr
    simp only [Outcome.ok_bind, Outcome.ok.injEq] at hr
    have hc := (counts_one n os (Xml.elem name attrs ks) (Handler.init s) rfl (Nat.zero_le _) h1 hrun).1
    rcases hc with hc | ⟨hc, _⟩
    · rw [← hr, hc]; rfl
    · exact absurd hc (by show ¬ (0 + _ ≤ 100); omega)
  | throws => rw [hrun] at hr; cases hr
  | ub => rw [hrun] at hr; cases hr

theorem placemark_made : Xsd.elementType Ty.«Placemark» = .complex ∧
    (classOf Ty.«Placemark»).isSome = true := by decide +kernel

/-- A known root is never taken for an unknown one. -/
theorem root_made (n : NumLib) (p : Option Ty) (old name : Str) (attrs : List (Str × Str))
    (h : isKnown name = true) : ∃ e, makeElement n p (typeOfName old name) attrs = some e := by
  unfold typeOfName
  split
  · obtain ⟨c, hc⟩ := Option.isSome_iff_exists.1 placemark_made.2
    unfold makeElement
    rw [placemark_made.1, hc]
    exact ⟨_, rfl⟩
  · have := makeElement_isSome n p name attrs
    rw [h] at this
    exact Option.isSome_iff_exists.1 this

/-- **C27, acceptance.** Without observers, the parser is never stopped in a document with a known root that is
nested at most 100 deep. -/
theorem C27_not_refused (n : NumLib) (s : σ) (name : Str) (attrs : List (Str × Str)) (ks : List Xml)
    (hk : isKnown name = true) (hd : (Xml.elem name attrs ks).depth ≤ 100) (h : Handler σ)
    (hr : (Handler.init s).run n [] (Xml.elem name attrs ks).events = .ok h) : h.stopped = false := by
  have hu := uintSize_val
  have hinc : inc 0 = 1 := inc_eq (by omega)
  have hd' : 1 + depthOf ks ≤ 100 := by
    have : depthOf ks + 1 ≤ 100 := hd
    omega
  rw [show (Xml.elem name attrs ks).events = .start name attrs :: (eventsOf ks ++ [.stop name]) from rfl] at hr
  simp only [Handler.run, Handler.step] at hr
  have hstart : ∃ h1 : Handler σ, (Handler.init s).startElement n [] name attrs = .ok h1 ∧
      h1.nesting = 1 ∧ h1.stack ≠ [] ∧ h1.stopped = false := by
    have hz : (Handler.init s).nesting = 0 := rfl
    have hi : (Handler.init s).inDesc = 0 := rfl
    have hk0 : (Handler.init s).skip = 0 := rfl
    simp only [Handler.startElement, hz, hinc, maxNestingDepth]
    rw [if_neg (by omega)]
    simp only [hi, hk0, Nat.lt_irrefl, gt_iff_lt, if_false, false_and]
    unfold Handler.startPlain
    by_cases hx : name = chars! "Schema"
    · obtain ⟨e, he⟩ := root_made n none (findOldSchemaName attrs []) name attrs hk
      simp only [if_pos hx, Handler.init, List.head?_nil, Option.map_none, he]
      obtain ⟨a, b, c⟩ := startKnown_nesting ([] : List (Observer σ)) ⟨[], [[]], 0, 0, 1, false,
        findOldSchemaName attrs [], [], [], 0, false, s⟩ e
      exact ⟨_, rfl, a, by rw [b]; exact List.cons_ne_nil _ _, by rw [c rfl]⟩
    · obtain ⟨e, he⟩ := root_made n none [] name attrs hk
      simp only [if_neg hx, Handler.init, List.head?_nil, Option.map_none, he]
      obtain ⟨a, b, c⟩ := startKnown_nesting ([] : List (Observer σ)) ⟨[], [[]], 0, 0, 1, false,
        [], [], [], 0, false, s⟩ e
      exact ⟨_, rfl, a, by rw [b]; exact List.cons_ne_nil _ _, by rw [c rfl]⟩
  obtain ⟨h1, h1e, hn1, hs1, hst1⟩ := hstart
  rw [h1e] at hr
  simp only [Outcome.ok_bind, hst1] at hr
  rw [if_neg (by decide), run_append n [] _ _ h1 hst1] at hr
  cases h2e : h1.run n [] (eventsOf ks) with
  | ok h2 =>
    rw [h2e] at hr
    simp only [Outcome.ok_bind] at hr
    have hc := (counts_all n [] ks h1 hst1 (by omega) h2 h2e).2 hs1 rfl (by omega)
    rw [if_neg (by rw [hc.1]; decide), Handler.run, Handler.step] at hr
    cases h3e : h2.endElement n [] name with
    | ok h3 =>
      rw [h3e] at hr
      simp only [Outcome.ok_bind, Handler.run, ite_self, Outcome.ok.injEq] at hr
      have := ((endElement_nesting h3e).2 hc.2 rfl).1
      rw [← hr, this, hc.1]
    | throws => rw [h3e] at hr; cases hr
    | ub => rw [h3e] at hr; cases hr
  | throws => rw [h2e] at hr; cases hr
  | ub => rw [h2e] at hr; cases hr

/-- A document `<kml>` nested in itself. -/
def kmlNest : Nat → Xml
  | 0 => .elem (chars! "kml") [] []
  | k + 1 => .elem (chars! "kml") [] [kmlNest k]

/-- Whether a parse gave a root. -/
def hasRoot (r : Outcome (Option Elem × σ)) : Bool :=
  match r with
  | .ok (some _, _) => true
  | _ => false

example : (kmlNest 99).depth = 100 ∧
    hasRoot (parseEvents NumLib.integers [] () (kmlNest 99).events) = true := by decide +kernel

example : (kmlNest 100).depth = 101 ∧
    hasRoot (parseEvents NumLib.integers [] () (kmlNest 100).events) = false := by decide +kernel

/-! ## C28 Parsing a well-formed document yields its root -/

/-- **C28, what holds.** Parsing a document with a known root that is nested at most 100 deep gives a root
element of the type the name stands for, without crashing, if

 * it has no old-style schema (a `Schema` with both `parent` and `name`);
 * `description` does not occur inside unknown elements;
 * the texts of `coordinates`, `gx:coord`, `gx:angles` and of the colours can be read
   (`C23_parse_partial` and `C03_safe_partial` say which can).

The full property asks it of every well-formed document; the theorems below show that it is false
without these conditions. -/
theorem C28_root_partial (n : NumLib) (s : σ) (name : Str) (attrs : List (Str × Str)) (ks : List Xml)
    (hk : isKnown name = true) (hd : (Xml.elem name attrs ks).depth ≤ 100)
    (hold : (Xml.elem name attrs ks).All NotOldSchema) (htame : (Xml.elem name attrs ks).Tame)
    (hr : (Xml.elem name attrs ks).Readable n) :
    ∃ e, parseEvents n [] s (Xml.elem name attrs ks).events = .ok (some e, s) ∧
      e.ty = Xsd.elementId name := by
  have hrun := run_root n [] s name attrs ks hold htame
  suffices ∃ e, buildRoot n [] s name attrs ks = .ok (some (e, s)) ∧ e.ty = Xsd.elementId name by
    obtain ⟨e, he, hty⟩ := this
    rw [he] at hrun
    exact ⟨e, hrun, hty⟩
  have hd' : 1 + depthOf ks ≤ 100 := by
    have : depthOf ks + 1 ≤ 100 := hd
    omega
  unfold buildRoot
  have hsome := makeElement_isSome n none name attrs
  rw [hk] at hsome
  obtain ⟨e, he⟩ := Option.isSome_iff_exists.1 hsome
  have hty : e.ty = Xsd.elementId name := by
    unfold makeElement at he
    split at he
    · split at he
      · cases he
      · simp only [Option.some.injEq] at he
        subst he
        show (if _ then _ else _) = _
        rw [if_neg (fun hx => by cases hx.2)]
    · cases he; rfl
    · cases he
  rw [he]
  simp only [buildKnown, callAll]
  by_cases hx : e.ty = Ty.«description»
  · rw [if_pos hx, if_neg (by omega)]
    have hfin : finishElement n e (renderAll ks) = .ok (setCharData e (renderAll ks)) := by
      unfold finishElement
      rw [hx]
      rfl
    rw [hfin]
    exact ⟨_, rfl, by rw [setCharData_ty, hty]⟩
  · rw [if_neg hx]
    obtain ⟨e1, h1, h2⟩ := buildKids_ok n ks 1 e [] s hr.2 hd'
    rw [h1]
    simp only [Outcome.ok_bind, List.nil_append]
    obtain ⟨g1, g2⟩ := readable_elem he hr.1 e1 h2
    obtain ⟨e', he'⟩ := finishElement_safe n e1 (directText ks) g1 g2
    rw [he']
    exact ⟨e', rfl, by rw [finishElement_ty he', h2, hty]⟩

/-- `<kml><Placemark><name>x</name><foo><b/></foo></Placemark></kml>` meets the conditions. -/
example : let doc := Xml.elem (chars! "kml") [] [.elem (chars! "Placemark") [(chars! "id", chars! "a")]
      [.elem (chars! "name") [] [.text (chars! "x")], .elem (chars! "foo") [] [.empty (chars! "b") []]]]
    isKnown (chars! "kml") = true ∧ doc.depth ≤ 100 ∧ doc.All NotOldSchema ∧ doc.Tame ∧
      doc.Readable NumLib.integers ∧
      hasRoot (parseEvents NumLib.integers [] () doc.events) = true := by
  refine ⟨by decide +kernel, by decide, ?_, ?_, ?_, by decide +kernel⟩
  · simp [Xml.All, AllOf, NotOldSchema]
  · have h : isKnown (chars! "kml") = true ∧ isKnown (chars! "Placemark") = true := by decide +kernel
    simp [Xml.Tame, TameAll, AllOf, Xml.All, h.1, h.2]
  · simp [Xml.Readable, ReadableAll, ReadableText]

/-- Whether a parse ended in undefined behaviour. -/
def isUb (r : Outcome (Option Elem × σ)) : Bool :=
  match r with
  | .ub => true
  | _ => false

/-- **C28 fails: uninitialised number.** `<gx:Track><gx:coord/></gx:Track>` reads a number that was never
set. -/
theorem C28_uninitialised_violated : isUb (parseEvents NumLib.integers [] ()
    (Xml.elem (chars! "gx:Track") [] [.empty (chars! "gx:coord") []]).events) = true := by decide +kernel

/-- **C28 fails: endless loop.** `<coordinates> </coordinates>` is never done. -/
theorem C28_hang_violated : isUb (parseEvents NumLib.integers [] ()
    (Xml.elem (chars! "Point") [] [.elem (chars! "coordinates") [] [.text [' ']]]).events) = true := by
  decide +kernel

/-- **C28 fails: no root.** Three nested `description`s inside an unknown element make the parser miss the ends of the
next two `description`s: this document has a known root, is five deep, and no root comes out. -/
theorem C28_description_violated :
    let real := Xml.elem (chars! "Placemark") [] [.elem (chars! "description") [] [.text (chars! "d")]]
    let doc := Xml.elem (chars! "Folder") [] [
      .elem (chars! "foo") [] [.elem (chars! "description") [] [.elem (chars! "description") []
        [.empty (chars! "description") []]]], real, real]
    isKnown (chars! "Folder") = true ∧ doc.depth = 5 ∧
      isUb (parseEvents NumLib.integers [] () doc.events) = false ∧
      hasRoot (parseEvents NumLib.integers [] () doc.events) = false := by decide +kernel

end Kml.Dom
