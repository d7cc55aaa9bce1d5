import Verif.Lemmas.Print
import Verif.Lemmas.Children

/-! # Writing text and tags: C25, C26 -/

namespace Kml.Dom

open Kml
open Kml.Attributes (Attributes)

/-! ### C25: text content survives writing and reading -/

/-- A text written with the serializer's quoting is read back as exactly the same text, if it is one of those
the serializer quotes correctly: characters XML allows and no carriage return; no `]]>` unless `<![CDATA[`
occurs too; and in that case no `"` and no `&`, or a single `&` before every `"`.  Missing from the full
property: all other texts, for which it is false. -/
theorem C25_quoted_partial (s : Str) (h : Quotable s) : readXml (maybeQuote s) = some (charEvents s) := by
  obtain ⟨k, hk⟩ := reads_quoted h 0
  exact readXml_of_reads hk

/-- The same for a whole simple element, as `SerializeRaw` writes it: it is read as its start tag, exactly its
text and its end tag, or as an empty-element tag if it has no text. -/
theorem C25_element_partial (t : Ty) (s : Str) (ht : Xsd.isValid t = true) (h : Quotable s) :
    ∃ out, serializeRaw (.field t s) = .ok out ∧
      readXml out = some (if s = [] then [.empty (Xsd.elementName t) []]
        else .start (Xsd.elementName t) [] :: charEvents s ++ [.stop (Xsd.elementName t)]) := by
  refine ⟨_, serialize_eq [] [] (.field t s), ?_⟩
  have := reads_field ht h 0
  rw [docOf, Doc.print, pad_nil, List.nil_append, List.append_nil]
  rw [readXml_of_reads this]
  by_cases hs : s = []
  · rw [if_pos hs, if_pos hs]
    rfl
  · rw [if_neg hs, if_neg hs]
    simp [Xml.events, eventsOf]

theorem quotable_example : Quotable (chars! "a < b && c ]] \"d\" 'e' >") :=
  ⟨by decide, fun _ => findFrom_not_infix (by decide), fun h => absurd h (findFrom_not_infix (by decide))⟩

/-- The hypotheses are met by texts with all markup characters, quoted in either way. -/
example : readXml (maybeQuote (chars! "a < b && c ]] \"d\" 'e' >")) = some (charEvents (chars! "a < b && c ]] \"d\" 'e' >")) :=
  C25_quoted_partial _ quotable_example

example : Quotable (chars! "<![CDATA[ < & ' \" ]]>") :=
  ⟨by decide, fun h => absurd (findFrom_isSome_iff_infix.1 (by decide)) h,
    fun _ => .inr ⟨chars! "<![CDATA[ < ", chars! " ' \" ]]>", by decide, by decide, by decide, by decide⟩⟩

example : serializeRaw (.field Ty.«name» (chars! "a&b")) = .ok (chars! "<name><![CDATA[a&b]]></name>") := by
  decide +kernel

/-- The property is false for a text that contains `]]>`: the CDATA section ends there, and the document is
not well-formed. -/
theorem C25_end_mark_violated : readXml (maybeQuote (chars! "a]]>b")) = none := by decide

/-- It is false for a text with a CDATA mark and a `"`: the `&` of `&quot;` is escaped again. -/
theorem C25_quot_violated :
    readXml (maybeQuote (chars! "<![CDATA[\"")) = some (charEvents (chars! "<![CDATA[&quot;")) := by decide +kernel

/-- It is false for a text with a CDATA mark and two `&`: the second is not escaped. -/
theorem C25_amp_violated : readXml (maybeQuote (chars! "<![CDATA[&&")) = none ∧
    readXml (maybeQuote (chars! "<![CDATA[& &lt;")) = some (charEvents (chars! "<![CDATA[& <")) := by
  decide +kernel

/-- It is false for control characters, which XML does not allow, and for a carriage return, which is read as
a line feed. -/
theorem C25_control_violated : readXml (maybeQuote ['\x01']) = none ∧
    readXml (maybeQuote ['a', '\r', 'b']) = some (charEvents (chars! "a\nb")) := by decide

/-! ### C26: the output is well nested -/

/-- Serializing any element ends normally, with no tag left open and no start tag or attribute left unwritten. -/
theorem C26_ends (nl ind : Str) (e : Elem) :
    ∃ s, (Ser.new nl ind).run (calls e) = .ok s ∧ s.tags = [] ∧ s.pending = false ∧ s.attrs = [] := by
  refine ⟨(Ser.new nl ind).put ((docOf e).print nl ind 0 false), ?_, rfl, rfl, rfl⟩
  rw [← docOf_calls, ser_doc _ ⟨rfl, rfl⟩]
  rfl

mutual

theorem balanced_xml : (x : Xml) → ∀ (ns : List Str) (evs : List Ev), balanced ns (x.events ++ evs) = balanced ns evs
  | .text s, ns, evs => by
    rw [Xml.events]
    induction s with
    | nil => rfl
    | cons c s ih =>
      rw [charEvents_cons, List.append_assoc]
      rw [← ih]
      cases ns <;> rfl
  | .empty n a, ns, evs => by
    rw [Xml.events]
    cases ns <;> rfl
  | .elem n a ks, ns, evs => by
    rw [Xml.events, List.cons_append, List.cons_append, balanced, List.append_assoc, balanced_all ks]
    simp [balanced]

theorem balanced_all : (xs : List Xml) → ∀ (ns : List Str) (evs : List Ev),
    balanced ns (eventsOf xs ++ evs) = balanced ns evs
  | [], _, _ => by rw [eventsOf, List.nil_append]
  | x :: xs, ns, evs => by
    rw [eventsOf, List.append_assoc, balanced_xml x, balanced_all xs]

end

/-- The output is a well-formed text in which every start tag is closed by one matching end tag, properly
nested, for every element whose own texts are well-formed: attribute values without `"`, `<`, `&` and line
breaks, quotable texts, and unknown content that is itself well-formed.  `nl` and `ind` are the line break and
the indentation, any white space. -/
theorem C26_nested (nl ind : Str) (hnl : ∀ c ∈ nl, xmlSpace c = true) (hind : ∀ c ∈ ind, xmlSpace c = true)
    (e : Elem) (h : ∀ c ∈ calls e, c.Fine) :
    ∃ out evs, serialize nl ind e = .ok out ∧ readXml out = some evs ∧ balanced [] evs = true := by
  obtain ⟨k, hk⟩ := reads_doc hnl hind (docOf e) (ok_of_fine _ (by rw [docOf_calls]; exact h)) 0 false 0
  refine ⟨_, _, serialize_eq nl ind e, readXml_of_reads hk, ?_⟩
  have := balanced_all ((docOf e).xml rawPieces nl ind 0 false) [] []
  rw [List.append_nil] at this
  rw [this]
  rfl

/-- It is read as the tree of the element: one root with the element's name and attributes and, in order, its
content. -/
theorem C26_tree (nl ind : Str) (hnl : ∀ c ∈ nl, xmlSpace c = true) (hind : ∀ c ∈ ind, xmlSpace c = true)
    (e : Elem) (h : ∀ c ∈ calls e, c.Fine) :
    ∃ out, serialize nl ind e = .ok out ∧
      readXml out = some (eventsOf ((docOf e).xml rawPieces nl ind 0 false)) := by
  obtain ⟨k, hk⟩ := reads_doc hnl hind (docOf e) (ok_of_fine _ (by rw [docOf_calls]; exact h)) 0 false 0
  exact ⟨_, serialize_eq nl ind e, readXml_of_reads hk⟩

/-- Pretty output is raw output with white space put in, for every element. -/
theorem C26_pretty_raw (e : Elem) :
    ∃ p r, serializePretty e = .ok p ∧ serializeRaw e = .ok r ∧ Spaced r p :=
  ⟨_, _, serialize_eq _ _ e, serialize_eq _ _ e, spaced_doc (by decide) _ _ _⟩

/-- A placemark with an attribute, a name, a misplaced child and an unknown child. -/
def sample : Elem :=
  .node Ty.«Placemark» ⟨[(chars! "id", chars! "p1")], [], []⟩
    (setSlot (fun _ => []) M.«name» [.field Ty.«name» (chars! "a<b")])
    [.field Ty.«coordinates» (chars! "1,2")] [chars! "<foo bar=\"1\"><baz/></foo>\n"]

theorem sample_calls : calls sample = [.beginElem Ty.«Placemark» [(chars! "id", chars! "p1")],
    .field Ty.«name» (chars! "a<b"), .field Ty.«coordinates» (chars! "1,2"), .indent,
    .content (chars! "<foo bar=\"1\"><baz/></foo>\n") false, .endElem] := by decide +kernel

theorem sample_fine : ∀ c ∈ calls sample, c.Fine := by
  rw [sample_calls]
  have q : Quotable (chars! "a<b") :=
    ⟨by decide, fun _ => findFrom_not_infix (by decide), fun h => absurd h (findFrom_not_infix (by decide))⟩
  have q' : Quotable (chars! "1,2") :=
    ⟨by decide, fun _ => findFrom_not_infix (by decide), fun h => absurd h (findFrom_not_infix (by decide))⟩
  have v : Xsd.isValid Ty.«Placemark» = true ∧ Xsd.isValid Ty.«name» = true ∧ Xsd.isValid Ty.«coordinates» = true := by
    decide
  intro c hc
  simp only [List.mem_cons, List.not_mem_nil, or_false] at hc
  rcases hc with rfl | rfl | rfl | rfl | rfl | rfl
  · refine ⟨v.1, by decide, ?_⟩
    intro e he
    rw [List.mem_singleton.1 he]
    exact ⟨⟨'i', ['d'], rfl, by decide, by decide⟩, by unfold PlainAttr; decide⟩
  · exact ⟨v.2.1, q⟩
  · exact ⟨v.2.2, q'⟩
  · trivial
  · exact ⟨[.elem (chars! "foo") [(chars! "bar", chars! "1")] [.empty (chars! "baz") []], .text ['\n']],
      by decide, by decide, by decide +kernel⟩
  · trivial

/-- The hypotheses are met by a placemark with all kinds of content. -/
example : ∃ out evs, serialize ['\n'] (chars! "  ") sample = .ok out ∧ readXml out = some evs ∧ balanced [] evs = true :=
  C26_nested _ _ (by decide) (by decide) sample sample_fine

example : serializePretty sample = .ok
    (chars! "<Placemark id=\"p1\">\n  <name><![CDATA[a<b]]></name>\n  <coordinates>1,2</coordinates>\n  <foo bar=\"1\"><baz/></foo>\n</Placemark>\n") := by
  decide +kernel

/-- Attribute values are written as they are: with a `"` in one, the output is not well nested. -/
theorem C11_nesting_violated :
    ∃ out, serializeRaw (.node Ty.«Placemark» ⟨[(chars! "id", chars! "\"><x a=\"")], [], []⟩ (fun _ => []) [] []) = .ok out ∧
      ∃ evs, readXml out = some evs ∧ balanced [] evs = false := by
  refine ⟨chars! "<Placemark id=\"\"><x a=\"\"/>", by decide +kernel, _, by rfl, by decide⟩

end Kml.Dom
