import Verif.Lemmas.Unknown
import Verif.Props.Parser

/-! # C31: unknown content is preserved -/

namespace Kml.Dom

open Kml
open Kml.Attributes (Attributes)

variable {σ : Type}

attribute [local irreducible] kml22Elements Xsd.tagToId classes inc dec uintSize

/-- **C31, kept by the parser.** The element parsed from a document keeps exactly the unknown elements among
its children, in order, each as its text, for every document without old-style schema in which `description`
does not occur in unknown elements, and every root that is an instance of a class. -/
theorem C31_kept_partial (n : NumLib) (os : List (Observer σ)) (s s' : σ) (name : Str) (attrs : List (Str × Str))
    (ks : List Xml) (e : Elem) (hold : (Xml.elem name attrs ks).All NotOldSchema)
    (htame : (Xml.elem name attrs ks).Tame) (hc : Xsd.elementType (Xsd.elementId name) = .complex)
    (h : parseEvents n os s (Xml.elem name attrs ks).events = .ok (some e, s')) :
    e.unknown = (unknownAmong ks).map fun x => x.render ++ ['\n'] := by
  have hb := buildRoot_of_parse hold htame h
  unfold buildRoot at hb
  rcases Option.eq_none_or_eq_some (makeElement n none (Xsd.elementId name) attrs) with hm | ⟨e0, hm⟩
  · rw [hm] at hb
    cases hb
  · rw [hm] at hb
    have hd : e0.ty ≠ Ty.«description» := by
      rw [makeElement_root hm]
      intro hx
      rw [hx] at hc
      have : Xsd.elementType Ty.«description» = .simple := by decide +kernel
      rw [this] at hc
      cases hc
    have hnode : e0.isNode = true ∧ e0.unknown = [] := by
      unfold makeElement at hm
      rw [hc] at hm
      simp only at hm
      split at hm
      · cases hm
      · simp only [Option.some.injEq] at hm
        subst hm
        exact ⟨rfl, rfl⟩
    exact buildKnown_unknown hnode.1 hnode.2 hd hb

/-- The same for an element at any depth `d`: reading the content `ks` into an instance of a class adds exactly
the unknown elements among `ks`. (`run_root` shows that parsing does what `buildKids` does.) -/
theorem C31_kept_inside (n : NumLib) (os : List (Observer σ)) (d : Nat) (ks : List Xml) (cur cur' : Elem)
    (text text' : Str) (s s' : σ) (hn : cur.isNode = true)
    (h : buildKids n os d cur text s ks = .ok (some (cur', text', s'))) :
    cur'.unknown = cur.unknown ++ (unknownAmong ks).map fun x => x.render ++ ['\n'] :=
  (buildKids_unknown ks hn h).2

/-- **C31, written.** Every unknown child of every element that is written, at any depth, occurs in the output
unchanged. -/
theorem C31_written (nl ind : Str) (e : Elem) (x : Str) (h : Call.content x false ∈ calls e) :
    ∃ out, serialize nl ind e = .ok out ∧ x <:+: out := by
  refine ⟨_, serialize_eq nl ind e, raw_in_print _ _ _ ?_⟩
  rw [docOf_calls]
  exact h

/-- Every instance of a class but `coordinates` writes its unknown children. -/
theorem C31_each (e : Elem) (x : Str) (hx : x ∈ e.unknown) (ht : e.ty ≠ Ty.«coordinates») :
    Call.content x false ∈ calls e := by
  cases e with
  | field t s => cases hx
  | node t a slots mis unk =>
    have ht' : ¬ t = Ty.«coordinates» := ht
    rw [calls, if_neg ht']
    have : Call.content x false ∈ unknownCalls unk := List.mem_flatMap.2 ⟨x, hx, by simp⟩
    simp [this]

/-- **C31, read again.** The text kept for an unknown element is read back as that element, if its names are
XML names, its attribute values are plain and its texts have no markup characters; `<a/>` is written as
`<a></a>`.  Missing from the full property: texts and attribute values with characters that need escaping, for
which it is false. -/
theorem C31_reread_partial (x : Xml) (h : x.Plain) : readXml x.render = some x.full.events := by
  obtain ⟨k, hk⟩ := reads_render x h 0
  exact readXml_of_reads hk

/-- Reading and keeping it once more gives the same text. -/
theorem C31_stable (x : Xml) : x.full.render = x.render := full_render x

/-- **C31, attributes.** An attribute that the class of an element does not know is written with the value it
was read with, and no such attribute is invented.  (`xmlns:xmlns` is not allowed in XML.) -/
theorem C31_attribute (n : NumLib) (t : Ty) (c : Class) (hc : classOf t = some c) (m : Attributes)
    (hs : StdMap.Sorted m) (hx : m.get (chars! "xmlns:xmlns") = none) (k : Str) (hk : k ∉ c.reads.map (·.1)) :
    (serializeAttributes c (parseAttributes n c m)).get k = m.get k :=
  unknown_attribute hc hs hx hk

/-- A document with two unknown elements, one nested, in a placemark. -/
def withUnknown : Xml := .elem (chars! "Placemark") [(chars! "foo", chars! "1"), (chars! "xmlns:gx", chars! "u")]
  [.empty (chars! "foo") [(chars! "a", chars! "b")], .elem (chars! "name") [] [.text (chars! "n")],
   .elem (chars! "bar") [] [.text (chars! "t "), .elem (chars! "Point") [] []]]

/-- What is written after parsing. -/
def reserialized (r : Outcome (Option Elem × Unit)) : Option Str :=
  match r with
  | .ok (some e, _) =>
    match serializeRaw e with
    | .ok s => some s
    | _ => none
  | _ => none

example : reserialized (parseEvents NumLib.integers [] () withUnknown.events) =
    some (chars! "<Placemark foo=\"1\" xmlns:gx=\"u\"><name>n</name><foo a=\"b\"></foo>\n<bar>t <Point></Point></bar>\n</Placemark>") := by
  decide +kernel

example : (Xml.elem (chars! "foo") [(chars! "a", chars! "b")] [.text (chars! "t "), .empty (chars! "Point") []]).Plain := by
  refine ⟨⟨'f', _, rfl, by decide, by decide⟩, ⟨by decide, ?_⟩, ?_, ⟨⟨'P', _, rfl, by decide, by decide⟩, noAttrs⟩, trivial⟩
  · intro e he
    rw [List.mem_singleton.1 he]
    exact ⟨⟨'a', [], rfl, by decide, by decide⟩, by unfold PlainAttr; decide⟩
  · rw [Xml.Plain]
    decide

example : ((classOf Ty.«Placemark»).any fun c => chars! "foo" ∉ c.reads.map (·.1)) = true := by decide +kernel

/-- **C31 fails: escaping.** The text and the attribute values of unknown elements are kept decoded and written
without escaping: from `<foo>&lt;</foo>` the output is not well-formed, and `&amp;lt;` is changed to `<`. -/
theorem C31_escape_violated :
    (reserialized (parseEvents NumLib.integers [] ()
      (Xml.elem (chars! "Placemark") [] [.elem (chars! "foo") [] [.text ['<']]]).events)).map readXml = some none ∧
    ((reserialized (parseEvents NumLib.integers [] ()
      (Xml.elem (chars! "Placemark") [] [.elem (chars! "foo") [] [.text (chars! "&lt;")]]).events)).bind readXml) =
      some ((Xml.elem (chars! "Placemark") [] [.elem (chars! "foo") [] [.text ['<']], .text ['\n']]).events) ∧
    (reserialized (parseEvents NumLib.integers [] ()
      (Xml.elem (chars! "Placemark") [] [.empty (chars! "foo") [(chars! "a", chars! "\"")]]).events)).map readXml =
      some none := by decide +kernel

/-- **C31 fails: simple elements.** An unknown element in a simple element or in `coordinates` is lost, and so is an
unknown attribute of a simple element. -/
theorem C31_simple_violated :
    reserialized (parseEvents NumLib.integers [] ()
      (Xml.elem (chars! "Placemark") [] [.elem (chars! "name") [(chars! "foo", chars! "1")]
        [.text (chars! "n"), .empty (chars! "bar") []]]).events) =
      some (chars! "<Placemark><name>n</name></Placemark>") ∧
    reserialized (parseEvents NumLib.integers [] ()
      (Xml.elem (chars! "Point") [] [.elem (chars! "coordinates") []
        [.text (chars! "1,2,3"), .empty (chars! "bar") []]]).events) =
      some (chars! "<Point><coordinates>1,2,3\n</coordinates></Point>") := by decide +kernel

end Kml.Dom
