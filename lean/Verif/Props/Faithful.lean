import Verif.Lemmas.FaithfulBuild
import Verif.Props.RoundTrip

/-!
# C77: reading, writing and reading again

`Xml.Faithful` (Spec/Faithful.lean) says which documents come through.  Every condition is about the document: nothing is
parsed or written there, except the points of one `coordinates`.
-/

namespace Kml.Dom

open Kml

section

attribute [local irreducible] kml22Elements Xsd.tagToId classes inc dec uintSize

/-- **C77, pretty output.** A document that comes through, written with `SerializePretty` after it was parsed, is text
that parses to the same element again, and so on for ever. -/
theorem C77_pretty_partial (n : NumLib) (name : Str) (attrs : List (Str × Str)) (ks : List Xml) (e : Elem)
    (hold : (Xml.elem name attrs ks).All NotOldSchema) (htame : (Xml.elem name attrs ks).Tame)
    (hF : (Xml.elem name attrs ks).Faithful n true none)
    (h : parseEvents n [] () (Xml.elem name attrs ks).events = .ok (some e, ())) :
    reread n ['\n'] (chars! "  ") e = .ok (some e) :=
  C30_pretty_partial n e (parsed_canonical hold htame hF h)

/-- **C77, raw output.** The same with `SerializeRaw`. -/
theorem C77_raw_partial (n : NumLib) (name : Str) (attrs : List (Str × Str)) (ks : List Xml) (e : Elem)
    (hold : (Xml.elem name attrs ks).All NotOldSchema) (htame : (Xml.elem name attrs ks).Tame)
    (hF : (Xml.elem name attrs ks).Faithful n false none)
    (h : parseEvents n [] () (Xml.elem name attrs ks).events = .ok (some e, ())) : reread n [] [] e = .ok (some e) :=
  C30_raw_partial n e (parsed_canonical hold htame hF h)

end

/-! ### A document that comes through -/

/-- `<Placemark id="p" foo="1"><name>a&lt;b</name><visibility>yes</visibility><description>x<b/></description><foo>u</foo>
<north>7</north><Point><coordinates>1,2</coordinates></Point></Placemark>`: with a value that is not written as it was read,
markup in a description, an unknown element and one that does not belong there. -/
def fKids : List Xml :=
  [.elem (chars! "name") [] [.text (chars! "a<b")], .elem (chars! "visibility") [] [.text (chars! "yes")],
    .elem (chars! "description") [] [.text ['x'], .empty ['b'] []], .elem (chars! "foo") [] [.text ['u']],
    .elem (chars! "north") [] [.text ['7']],
    .elem (chars! "Point") [] [.elem (chars! "coordinates") [] [.text (chars! "1,2")]]]

def fAttrs : List (Str × Str) := [(chars! "id", ['p']), (chars! "foo", ['1'])]

theorem clean_of {s : Str} (h : s.all legalChar = true) (h1 : findFrom (chars! "]]>") s = none)
    (h2 : findFrom (chars! "<![CDATA[") s = none) : Clean s :=
  ⟨List.all_eq_true.1 h, findFrom_not_infix h2, findFrom_not_infix h1⟩

theorem faithful_of {n : NumLib} {pretty : Bool} {parent : Option Str} {name : Str} {attrs : List (Str × Str)} {ks : List Xml}
    (hv : ∀ e ∈ attrs, XmlName e.1 ∧ PlainAttr e.2)
    (hn : name ∉ [chars! "Schema", chars! "xal:LocalityName", chars! "IconStyleIcon", chars! "Snippet", chars! "linkSnippet",
      chars! "SimpleData", chars! "coordinates"])
    (hc : Clean (if name = chars! "description" then renderAll ks else directText ks)) :
    FaithfulElem n pretty parent name attrs ks where
  values := hv
  schema h := absurd (by rw [h]; decide) hn
  locality h := absurd (by rw [h]; decide) hn
  icon h := absurd (by rw [h]; decide) hn
  simple _ := hc
  text h := by rcases h with h | h | h <;> exact absurd (by rw [h]; decide) hn
  points h := absurd (by rw [h]; decide) hn

theorem fKnown : isKnown (chars! "Placemark") = true ∧ isKnown (chars! "name") = true ∧ isKnown (chars! "visibility") = true ∧
    isKnown (chars! "description") = true ∧ isKnown (chars! "north") = true ∧ isKnown (chars! "Point") = true ∧
    isKnown (chars! "coordinates") = true ∧ isKnown (chars! "foo") = false ∧
    Xsd.elementType (Xsd.elementId (chars! "name")) = .simple ∧ Xsd.elementType (Xsd.elementId (chars! "visibility")) = .simple ∧
    Xsd.elementType (Xsd.elementId (chars! "description")) = .simple ∧ Xsd.elementType (Xsd.elementId (chars! "north")) = .simple := by
  decide +kernel

set_option maxRecDepth 100000 in
theorem fParse : ∃ e, parseEvents NumLib.integers [] () (Xml.elem (chars! "Placemark") fAttrs fKids).events = .ok (some e, ()) :=
  ⟨_, rfl⟩

/-- What is written of it. -/
theorem fWritten : (match parseEvents NumLib.integers [] () (Xml.elem (chars! "Placemark") fAttrs fKids).events with
    | .ok (some e, _) => serializeRaw e
    | _ => .ub) = .ok (chars! "<Placemark foo=\"1\" id=\"p\"><name><![CDATA[a<b]]></name><visibility>0</visibility><description><![CDATA[x<b></b>]]></description><Point><coordinates>1,2,0\n</coordinates></Point><north>7</north><foo>u</foo>\n</Placemark>") := by
  decide +kernel

section

attribute [local irreducible] kml22Elements Xsd.tagToId classes inc dec uintSize

theorem fHold : (Xml.elem (chars! "Placemark") fAttrs fKids).All NotOldSchema := by
  simp [Xml.All, AllOf, fKids, NotOldSchema]

theorem fTame : (Xml.elem (chars! "Placemark") fAttrs fKids).Tame := by
  simp [Xml.Tame, TameAll, fKids, AllOf, Xml.All, fKnown.1, fKnown.2.1, fKnown.2.2.1, fKnown.2.2.2.2.1, fKnown.2.2.2.2.2.1,
    fKnown.2.2.2.2.2.2.1, fKnown.2.2.2.2.2.2.2.1]

theorem fFaithful (pretty : Bool) : (Xml.elem (chars! "Placemark") fAttrs fKids).Faithful NumLib.integers pretty none := by
  obtain ⟨k1, k2, k3, k4, k5, k6, k7, k8, s1, s2, s3, s4⟩ := fKnown
  have none : ∀ e ∈ ([] : List (Str × Str)), XmlName e.1 ∧ PlainAttr e.2 := by intro e he; cases he
  rw [Xml.Faithful, if_pos k1]
  refine ⟨faithful_of ?_ (by decide) (clean_of (by decide) (by decide) (by decide)), .inr ?_⟩
  · intro e he
    simp only [fAttrs, List.mem_cons, List.not_mem_nil, or_false] at he
    rcases he with rfl | rfl
    · exact ⟨⟨'i', _, rfl, by decide, by decide⟩, by unfold PlainAttr; decide⟩
    · exact ⟨⟨'f', _, rfl, by decide, by decide⟩, by unfold PlainAttr; decide⟩
  · refine ⟨?_, ?_, ?_, ?_, ?_, ?_, trivial⟩
    · rw [Xml.Faithful, if_pos k2]
      exact ⟨faithful_of none (by decide) (clean_of (by decide) (by decide) (by decide)), .inl s1⟩
    · rw [Xml.Faithful, if_pos k3]
      exact ⟨faithful_of none (by decide) (clean_of (by decide) (by decide) (by decide)), .inl s2⟩
    · rw [Xml.Faithful, if_pos k4]
      exact ⟨faithful_of none (by decide) (clean_of (by decide) (by decide) (by decide)), .inl s3⟩
    · rw [Xml.Faithful, if_neg (by rw [k8]; intro h; cases h)]
      exact ⟨⟨'f', _, rfl, by decide, by decide⟩, noAttrs, by rw [Xml.Plain]; decide, trivial⟩
    · rw [Xml.Faithful, if_pos k5]
      exact ⟨faithful_of none (by decide) (clean_of (by decide) (by decide) (by decide)), .inl s4⟩
    · rw [Xml.Faithful, if_pos k6]
      refine ⟨faithful_of none (by decide) (clean_of (by decide) (by decide) (by decide)), .inr ⟨?_, trivial⟩⟩
      rw [Xml.Faithful, if_pos k7]
      refine ⟨⟨none, fun h => absurd h (by decide), fun h => absurd h (by decide), by decide,
        fun _ => clean_of (by decide) (by decide) (by decide), fun h => absurd h (by decide), fun _ => ⟨rfl, ?_, .inr ?_⟩⟩, .inr ⟨trivial, trivial⟩⟩
      · intro x hx
        rw [List.mem_singleton.1 hx]
        rfl
      · intro pts hp
        have : Coords.parse NumLib.integers (directText [Xml.text (chars! "1,2")]).length (directText [Xml.text (chars! "1,2")]) [] =
          some (.ok [⟨['1'], ['2'], ['0'], false⟩]) := by rfl
        rw [this] at hp
        cases hp
        decide

example : ∃ e, parseEvents NumLib.integers [] () (Xml.elem (chars! "Placemark") fAttrs fKids).events = .ok (some e, ()) ∧
    reread NumLib.integers ['\n'] (chars! "  ") e = .ok (some e) ∧ reread NumLib.integers [] [] e = .ok (some e) := by
  obtain ⟨e, he⟩ := fParse
  exact ⟨e, he, C77_pretty_partial _ _ _ _ e fHold fTame (fFaithful true) he, C77_raw_partial _ _ _ _ e fHold fTame (fFaithful false) he⟩

end

/-! ### Where it is false -/

/-- The raw texts of what a document is read as, and of what that is read as after it was written with the given line
break and indentation. -/
def twice (newline indent : Str) (x : Xml) : Option (Str × Option Str) :=
  match parseEvents NumLib.integers [] () x.events with
  | .ok (some e, _) =>
    match serializeRaw e with
    | .ok s => some (s, rereadRaw newline indent e)
    | _ => none
  | _ => none

/-- **C77 fails: text in pretty output.** Each time a document is saved and loaded, its snippets grow. -/
theorem C77_snippet_violated :
    twice ['\n'] (chars! "  ") (.elem (chars! "Placemark") [] [.elem (chars! "Snippet") [] [.text ['a']]]) =
      some (chars! "<Placemark><Snippet>a</Snippet></Placemark>",
        some (chars! "<Placemark><Snippet>\na  </Snippet></Placemark>")) := by decide +kernel

/-- **C77 fails: escapes in an unknown element.** They are read, but not written again: what is written is not XML. -/
theorem C77_escape_violated :
    twice ['\n'] (chars! "  ") (.elem (chars! "Placemark") [] [.elem (chars! "foo") [] [.text (chars! "a&b")]]) =
      some (chars! "<Placemark><foo>a&b</foo>\n</Placemark>", none) := by decide +kernel

/-- **C77 fails: escapes in attributes**, for the same reason. -/
theorem C77_attribute_violated :
    twice ['\n'] (chars! "  ") (.elem (chars! "Placemark") [(chars! "id", chars! "a<b")] []) =
      some (chars! "<Placemark id=\"a<b\"/>", none) := by decide +kernel

/-- The types of the misplaced children. -/
def misplacedTypes : Elem → List Ty
  | .field _ _ => []
  | .node _ _ _ mis _ => mis.map Elem.ty

/-- **C77 fails: a tag of the name the library uses for the icon of an icon style.** It is written as `Icon`, and
that is read as a different element, without the hot spot. -/
theorem C77_icon_violated :
    (match parseEvents NumLib.integers [] () (Xml.elem (chars! "Folder") [] [.empty (chars! "IconStyleIcon") []]).events with
      | .ok (some e, _) =>
        match reread NumLib.integers [] [] e with
        | .ok (some e') => some (misplacedTypes e, misplacedTypes e')
        | _ => none
      | _ => none) = some ([Ty.«IconStyleIcon»], [Ty.«Icon»]) := by decide +kernel

end Kml.Dom
