import Verif.Lemmas.OldSchemaDoc
import Verif.Props.Parser
import Verif.Model.Style

/-!
# C70: documents with an old-style schema

`<Schema name="N" parent="Placemark">` with `<SimpleField name="f"/>` declares elements `<N>` with fields `<f>`.
-/

namespace Kml.Dom

open Kml

variable {σ : Type}

/-- **C70 (partly).** A document with an old-style schema is read as the modern document it stands for (`Upgrade`): the schema has
the id `N_id`, and every `<N>` is a `<Placemark>` with its fields, in order, as the `<SimpleData>` of a `<SchemaData>` that refers to
that id.  The two differ in nothing but the attribute `parent` of the schema.

Missing: `N` has the name of a KML element (`C70_crash_violated`), elements inside a field (`C70_field_violated`), fields outside of
an `<N>` (`C70_leak_violated`), schemas after the first (`C70_schema_violated`), elements `<N>` written as empty tags or inside one
another, and observers. -/
theorem C70_modern_partial (n : NumLib) (N : Str) (fs : List Str) (hN : N ≠ []) (hU : isKnown N = false) (x x' : Xml)
    (h : Upgrade N fs x x') (s s' : σ) (e' : Elem) (hp : parseEvents n [] s x'.events = .ok (some e', s')) :
    ∃ e, parseEvents n [] s x.events = .ok (some e, s') ∧ e.withoutParent = e'.withoutParent :=
  upgrade_parse hN hU h hp

/-- **C70 (partly).** It is parsed without crashing: a root comes out whenever the modern document is not too deep and its numbers
can be read. -/
theorem C70_parses_partial (n : NumLib) (N : Str) (fs : List Str) (hN : N ≠ []) (hU : isKnown N = false) (x x' : Xml)
    (h : Upgrade N fs x x') (s : σ) (hd : x'.depth ≤ 100) (hr : x'.Readable n) :
    ∃ e, parseEvents n [] s x.events = .ok (some e, s) := by
  have hg := upgrade_good h
  suffices ∃ e', parseEvents n [] s x'.events = .ok (some e', s) by
    obtain ⟨e', he⟩ := this
    obtain ⟨e, h1, _⟩ := C70_modern_partial n N fs hN hU x x' h s s e' he
    exact ⟨e, h1⟩
  cases h with
  | schema hk =>
    obtain ⟨e, h1, _⟩ := C28_root_partial n s _ _ _ hk hd hg.1 hg.2 hr
    exact ⟨e, h1⟩
  | inside hk =>
    obtain ⟨e, h1, _⟩ := C28_root_partial n s _ _ _ hk hd hg.1 hg.2 hr
    exact ⟨e, h1⟩

/-! ### An example -/

/-- `<Schema name="Pub" parent="Placemark">` with the fields `beer` and `seats`. -/
def oldSchemaPub : Xml := .elem (chars! "Schema") [(chars! "name", chars! "Pub"), (chars! "parent", chars! "Placemark")]
  [.text ['\n'], .empty (chars! "SimpleField") [(chars! "type", chars! "string"), (chars! "name", chars! "beer")],
    .elem (chars! "SimpleField") [(chars! "name", chars! "seats"), (chars! "type", chars! "int")] []]

/-- The same with an id. -/
def newSchemaPub : Xml := .elem (chars! "Schema") [(chars! "id", chars! "Pub_id"), (chars! "name", chars! "Pub")]
  [.text ['\n'], .empty (chars! "SimpleField") [(chars! "type", chars! "string"), (chars! "name", chars! "beer")],
    .elem (chars! "SimpleField") [(chars! "name", chars! "seats"), (chars! "type", chars! "int")] []]

/-- A folder with a `<Pub>` after the schema, and another after the folder. -/
def oldPubs : Xml := .elem (chars! "Document") [] [
  .elem (chars! "name") [] [.text (chars! "pubs")], oldSchemaPub,
  .elem (chars! "Folder") [] [.elem (chars! "Pub") [(chars! "id", ['a'])] [
    .elem (chars! "beer") [] [.text (chars! "bitter")], .elem (chars! "name") [] [.text (chars! "The Crown")],
    .elem (chars! "seats") [] [.text (chars! "40")]]],
  .elem (chars! "Pub") [] [.empty (chars! "beer") []]]

/-- The modern form. -/
def newPubs : Xml := .elem (chars! "Document") [] [
  .elem (chars! "name") [] [.text (chars! "pubs")], newSchemaPub,
  .elem (chars! "Folder") [] [.elem (chars! "Placemark") [(chars! "id", ['a'])] [
    .elem (chars! "name") [] [.text (chars! "The Crown")],
    .elem (chars! "ExtendedData") [] [.elem (chars! "SchemaData") [(chars! "schemaUrl", chars! "Pub_id")] [
      .elem (chars! "SimpleData") [(chars! "name", chars! "beer")] [.text (chars! "bitter")],
      .elem (chars! "SimpleData") [(chars! "name", chars! "seats")] [.text (chars! "40")]]]]],
  .elem (chars! "Placemark") [] [
    .elem (chars! "ExtendedData") [] [.elem (chars! "SchemaData") [(chars! "schemaUrl", chars! "Pub_id")] [
      .elem (chars! "SimpleData") [(chars! "name", chars! "beer")] [.text []]]]]]

theorem pubs_known : isKnown (chars! "Document") = true ∧ isKnown (chars! "Folder") = true ∧ isKnown (chars! "name") = true ∧
    isKnown (chars! "SimpleField") = true ∧ isKnown (chars! "Pub") = false := by decide +kernel

theorem pubs_foreign : Foreign (chars! "beer") ∧ Foreign (chars! "seats") := by
  constructor
  · show Xsd.elementType _ = _
    decide +kernel
  · show Xsd.elementType _ = _
    decide +kernel

section

attribute [local irreducible] kml22Elements Xsd.tagToId classes inc dec uintSize

theorem pubs_upgrade : Upgrade (chars! "Pub") [chars! "beer", chars! "seats"] oldPubs newPubs := by
  have hname : ∀ s, (Xml.elem (chars! "name") [] [.text s]).Tame := fun s => by
    unfold Xml.Tame
    rw [if_neg (by decide), if_pos pubs_known.2.2.1]
    exact ⟨trivial, trivial⟩
  have hord : ∀ s, (Xml.elem (chars! "name") [] [.text s]).All (Ordinary (chars! "Pub") [chars! "beer", chars! "seats"]) := fun s =>
    ⟨⟨by decide, by decide, .inl pubs_known.2.2.1⟩, trivial, trivial⟩
  refine Upgrade.schema (pre := [.elem (chars! "name") [] [.text (chars! "pubs")]]) (p := chars! "Placemark") pubs_known.1 (by decide)
    (by decide) ⟨⟨fun h => absurd h (by decide), trivial, trivial⟩, trivial⟩ ⟨hname _, trivial⟩ (.inl rfl) ?_ ?_ rfl ?_
  · exact ⟨trivial, ⟨by decide, by decide, .inl pubs_known.2.2.2.1⟩, ⟨⟨by decide, by decide, .inl pubs_known.2.2.2.1⟩, trivial⟩, trivial⟩
  · refine ⟨trivial, trivial, ?_, trivial⟩
    unfold Xml.Tame
    rw [if_neg (by decide), if_pos pubs_known.2.2.2.1]
    trivial
  · refine .cons (.inside pubs_known.2.1 (by decide) ⟨by decide, by decide, .inl pubs_known.2.1⟩ (.cons ?_ .nil)) (.cons ?_ .nil)
    · refine .feature (fields := [(chars! "beer", chars! "bitter"), (chars! "seats", chars! "40")])
        (others := [.elem (chars! "name") [] [.text (chars! "The Crown")]])
        (.field (.elem (by decide) pubs_foreign.1 (by decide) ?_) (.other (hord _) (hname _)
          (.field (.elem (by decide) pubs_foreign.2 (by decide) ?_) .nil)))
      all_goals
        intro x hx
        exact ⟨_, List.mem_singleton.1 hx⟩
    · exact .feature (fields := [(chars! "beer", [])]) (others := []) (.field (.empty (by decide) pubs_foreign.1 (by decide)) .nil)

end

/-- The hypotheses of the theorems are met, and both documents have a root. -/
example : chars! "Pub" ≠ [] ∧ isKnown (chars! "Pub") = false ∧ Upgrade (chars! "Pub") [chars! "beer", chars! "seats"] oldPubs newPubs ∧
    newPubs.depth ≤ 100 ∧ hasRoot (parseEvents NumLib.integers [] () newPubs.events) = true ∧
    hasRoot (parseEvents NumLib.integers [] () oldPubs.events) = true :=
  ⟨by decide, pubs_known.2.2.2.2, pubs_upgrade, by decide +kernel, by decide +kernel, by decide +kernel⟩

/-! ### Where it fails -/

/-- **C70, violated: crashes.** A schema for elements named `Schema`, or named as the element it stands in, makes the parser use a
NULL pointer. -/
theorem C70_crash_violated :
    isUb (parseEvents NumLib.integers [] () (Xml.elem (chars! "Document") [] [.elem (chars! "Schema")
      [(chars! "name", chars! "Schema"), (chars! "parent", chars! "Placemark")] []]).events) = true ∧
    isUb (parseEvents NumLib.integers [] () (Xml.elem (chars! "Document") [] [.elem (chars! "Schema")
      [(chars! "name", chars! "Document"), (chars! "parent", chars! "Placemark")] []]).events) = true := by
  constructor <;> decide +kernel

/-- **C70, violated: a crash.** An unknown element inside a field makes the parser use the top of an empty stack. -/
theorem C70_field_violated :
    isUb (parseEvents NumLib.integers [] () (Xml.elem (chars! "Document") [] [oldSchemaPub, .elem (chars! "Pub") []
      [.elem (chars! "beer") [] [.empty (chars! "foo") []]]]).events) = true := by decide +kernel

/-- What the document holds in the members named: the texts of the schema data of its features. -/
def pubData (r : Outcome (Option Elem × Unit)) : List (List (Str × Str)) :=
  match r with
  | .ok (some e, _) => (e.items M.«feature_array»).map fun f => (f.items M.«extendeddata»).flatMap fun ed =>
      (ed.items M.«schemadata_array»).flatMap fun sd => (sd.items M.«simpledata_array»).map fun d =>
        (match d with
          | .node _ a _ _ _ => (a.known.get (chars! "name")).getD []
          | .field _ _ => [], d.text M.«text»)
  | _ => []

/-- The ids of the schemas of the document. -/
def schemaIds (r : Outcome (Option Elem × Unit)) : List (Option Str) :=
  match r with
  | .ok (some e, _) => (e.items M.«schema_array»).map fun s =>
      match s with
      | .node _ a _ _ _ => a.known.get (chars! "id")
      | .field _ _ => none
  | _ => []

/-- **C70, violated.** A field written outside of a `<Pub>`, here in a `<Placemark>`, is given to the next `<Pub>`. -/
theorem C70_leak_violated :
    pubData (parseEvents NumLib.integers [] () (Xml.elem (chars! "Document") [] [oldSchemaPub,
      .elem (chars! "Placemark") [] [.elem (chars! "beer") [] [.text (chars! "stout")]],
      .elem (chars! "Pub") [] [.elem (chars! "seats") [] [.text (chars! "9")]]]).events) =
      [[], [(chars! "beer", chars! "stout"), (chars! "seats", chars! "9")]] := by decide +kernel

/-- **C70, violated.** A modern schema with an id of its own that stands after an old-style one is given the id of that. -/
theorem C70_schema_violated :
    schemaIds (parseEvents NumLib.integers [] () (Xml.elem (chars! "Document") [] [oldSchemaPub,
      .elem (chars! "Schema") [(chars! "id", chars! "mine"), (chars! "name", chars! "Other")] []]).events) =
      [some (chars! "Pub_id"), some (chars! "Pub_id")] := by decide +kernel

/-- What the theorems say of the example. -/
example : pubData (parseEvents NumLib.integers [] () oldPubs.events) = [[], [(chars! "beer", [])]] ∧
    schemaIds (parseEvents NumLib.integers [] () oldPubs.events) = [some (chars! "Pub_id")] := by
  constructor <;> decide +kernel

end Kml.Dom
