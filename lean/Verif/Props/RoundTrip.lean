import Verif.Lemmas.Canonical
import Verif.Props.Serializer
import Verif.Spec.Numbers

/-!
# C30: writing and reading

`Canonical` (Spec/Canonical.lean) says what an element has to look like: every child in the member that takes it,
values as the library writes them, texts it quotes correctly.  It says nothing of writing or parsing.
-/

namespace Kml.Dom

open Kml

theorem dropWhile_space {w : Str} (h : ∀ c ∈ w, xmlSpace c = true) (evs : List Ev) :
    (charEvents w ++ evs).dropWhile Ev.isSpace = evs.dropWhile Ev.isSpace := by
  induction w with
  | nil => rfl
  | cons c w ih =>
    rw [charEvents, List.map_cons, List.cons_append, List.dropWhile_cons_of_pos]
    · exact ih fun d hd => h d (List.mem_cons_of_mem _ hd)
    · simp [Ev.isSpace, h c (by simp)]

theorem charEvents_reverse (w : Str) : (charEvents w).reverse = charEvents w.reverse := by
  simp [charEvents]

theorem rootEvents_framed {w nl : Str} {x : Xml} (hw : ∀ c ∈ w, xmlSpace c = true) (hnl : ∀ c ∈ nl, xmlSpace c = true)
    (hx : x.name?.isSome = true) : rootEvents (charEvents w ++ x.events ++ charEvents nl) = x.events := by
  have h1 : ∀ evs, (x.events ++ evs).dropWhile Ev.isSpace = x.events ++ evs := by
    intro evs
    cases x with
    | text s => cases hx
    | empty n a => rfl
    | elem n a ks => rfl
  have h2 : x.events.reverse.dropWhile Ev.isSpace = x.events.reverse := by
    cases x with
    | text s => cases hx
    | empty n a => rfl
    | elem n a ks =>
      rw [Xml.events, List.reverse_append]
      rfl
  unfold rootEvents
  rw [List.append_assoc, dropWhile_space hw, h1, List.reverse_append, charEvents_reverse, dropWhile_space, h2,
    List.reverse_reverse]
  intro c hc
  exact hnl c (List.mem_reverse.1 hc)

theorem reread_canonical {n : NumLib} {pretty : Bool} {e : Elem} (h : Canonical n pretty 100 none e) :
    reread n (nlOf pretty) (indOf pretty) e = .ok (some e) := by
  obtain ⟨out, x, w, h1, h2, h3, h4⟩ := canonical_round h
  have hnl : ∀ c ∈ nlOf pretty, xmlSpace c = true := by cases pretty <;> decide
  have hx : x.name?.isSome = true := by
    cases x with
    | text s =>
      exfalso
      cases s with
      | nil => simp [Xml.events, charEvents, parseEvents, Handler.run, Handler.popRoot, Handler.init] at h4
      | cons c s => simp [Xml.events, charEvents, parseEvents, Handler.run, Handler.step, Handler.charData, Handler.init, appendTop] at h4
    | empty n a => rfl
    | elem n a ks => rfl
  unfold reread
  rw [h1]
  simp only [Outcome.ok_bind, h3]
  rw [rootEvents_framed h2 hnl hx, h4]
  rfl

/-- **C30, pretty output.** Every canonical element without text of its own (`Snippet`, `linkSnippet`, `SimpleData`), nested
at most 100 deep, written with `SerializePretty` and parsed, is the same element: the same attributes, the same
children in every member, the same misplaced and unknown children, all the way down.

Missing from the full property: elements that are not canonical, for which it is false in general; the theorems
below give examples. -/
theorem C30_pretty_partial (n : NumLib) (e : Elem) (h : Canonical n true 100 none e) :
    reread n ['\n'] (chars! "  ") e = .ok (some e) := reread_canonical h

/-- **C30, raw output.** Every canonical element, where coordinates have at most one point, written with
`SerializeRaw` and parsed, is the same element. -/
theorem C30_raw_partial (n : NumLib) (e : Elem) (h : Canonical n false 100 none e) :
    reread n [] [] e = .ok (some e) := reread_canonical h

/-! ### A canonical element -/

/-- A point. -/
def cPoint : Elem :=
  .node Ty.«Point» .empty (setSlot (fun _ => []) M.«coordinates»
    [.node Ty.«coordinates» .empty (pointSlots [⟨['1'], ['2'], ['3'], true⟩]) [] []]) [] []

/-- A placemark with two attributes, a name, a geometry, a misplaced child and an unknown child. -/
def cPlacemark : Elem :=
  .node Ty.«Placemark» ⟨[(chars! "id", chars! "p1")], [(chars! "foo", chars! "1")], []⟩
    (setSlot (setSlot (fun _ => []) M.«name» [.field Ty.«name» (chars! "a<b")]) M.«geometry» [cPoint])
    [.field Ty.«north» (chars! "7")] [chars! "<foo>x</foo>\n"]

theorem placemark_reads : (classAt Ty.«Placemark»).reads.map (·.1) = [chars! "id", chars! "targetId"] ∧
    (chars! "id", AttrKind.str) ∈ (classAt Ty.«Placemark»).reads := by decide +kernel

theorem foo_unknown : isKnown (chars! "foo") = false := by decide +kernel

theorem cTypes : (classOf Ty.«Point»).isSome = true ∧ (classOf Ty.«Placemark»).isSome = true ∧
    Xsd.elementType Ty.«name» = .simple ∧ Xsd.elementType Ty.«north» = .simple ∧
    taker Ty.«Placemark» (.field Ty.«name» (chars! "a<b")) = some (.field M.«name» .str) ∧
    taker Ty.«Placemark» (.field Ty.«north» (chars! "7")) = none ∧
    taker Ty.«Placemark» cPoint = some (.one M.«geometry») := by decide +kernel

theorem cPointTaker : taker Ty.«Point» (.node Ty.«coordinates» .empty (pointSlots [⟨['1'], ['2'], ['3'], true⟩]) [] []) =
    some (.one M.«coordinates») := by decide +kernel

theorem attrs_empty_canonical (n : NumLib) (c : Class) : Attrs.Canonical n c .empty where
  known_sorted := StdMap.sorted_nil
  unknown_sorted := StdMap.sorted_nil
  xmlns_sorted := StdMap.sorted_nil
  known := by intro e he; cases he
  unknown := by intro e he; cases he
  xmlns := by intro e he; cases he

theorem cPoint_canonical (pretty : Bool) (k : Nat) : Canonical NumLib.integers pretty (k + 2) (some Ty.«Placemark») cPoint := by
  refine .node cTypes.1 (by decide) ⟨fun h => absurd h (by decide), fun h => absurd h (by decide)⟩
    (attrs_empty_canonical _ _) (fun h => absurd h (by decide)) ?_ (fun h => absurd h (by decide)) (by simp) ?_ (by simp) (by simp)
  · intro m x hx
    unfold setSlot at hx ⊢
    by_cases hm : m = M.«coordinates»
    · rw [if_pos hm] at hx
      rw [if_pos hm, List.mem_singleton.1 hx]
      exact ⟨_, cPointTaker, hm.symm, trivial, fun _ => rfl⟩
    · rw [if_neg hm] at hx; cases hx
  · intro m x hx
    unfold setSlot at hx
    by_cases hm : m = M.«coordinates»
    · rw [if_pos hm] at hx
      rw [List.mem_singleton.1 hx]
      exact .points (by unfold Coords.IsPoint; decide) (.inr (by simp))
    · rw [if_neg hm] at hx; cases hx

theorem quotable_of {s : Str} (h : s.all legalChar = true) (h1 : findFrom (chars! "]]>") s = none)
    (h2 : findFrom (chars! "<![CDATA[") s = none) : Quotable s :=
  ⟨List.all_eq_true.1 h, fun _ => findFrom_not_infix h1, fun hx => absurd hx (findFrom_not_infix h2)⟩

theorem cPlacemark_canonical_at (pretty : Bool) (k : Nat) (p : Option Ty) :
    Canonical NumLib.integers pretty (k + 3) p cPlacemark := by
  refine .node cTypes.2.1 (by decide) ⟨fun h => absurd h (by decide), fun h => absurd h (by decide)⟩ ?_
    (fun h => absurd h (by decide)) ?_ (fun h => absurd h (by decide)) ?_ ?_ ?_ ?_
  · refine ⟨by unfold StdMap.Sorted; decide, by unfold StdMap.Sorted; decide, StdMap.sorted_nil, ?_, ?_, by intro e he; cases he⟩
    · intro e he
      rw [List.mem_singleton.1 he]
      exact ⟨by unfold PlainAttr; decide, .str, placemark_reads.2, rfl⟩
    · intro e he
      rw [List.mem_singleton.1 he, placemark_reads.1]
      exact ⟨by unfold PlainAttr; decide, ⟨'f', _, rfl, by decide, by decide⟩, by decide, by decide,
        fun r h => absurd (congrArg List.head? h) (by simp)⟩
  · intro m x hx
    unfold setSlot at hx ⊢
    by_cases hm : m = M.«geometry»
    · rw [if_pos hm] at hx
      rw [if_pos hm, List.mem_singleton.1 hx]
      exact ⟨_, cTypes.2.2.2.2.2.2, hm.symm, trivial, fun _ => rfl⟩
    · rw [if_neg hm] at hx
      rw [if_neg hm]
      by_cases hm' : m = M.«name»
      · rw [if_pos hm'] at hx
        rw [if_pos hm', List.mem_singleton.1 hx]
        exact ⟨_, cTypes.2.2.2.2.1, hm'.symm, rfl, fun _ => rfl⟩
      · rw [if_neg hm'] at hx; cases hx
  · intro x hx
    rw [List.mem_singleton.1 hx]
    exact cTypes.2.2.2.2.2.1
  · intro m x hx
    unfold setSlot at hx
    by_cases hm : m = M.«geometry»
    · rw [if_pos hm] at hx
      rw [List.mem_singleton.1 hx]
      exact cPoint_canonical pretty k
    · rw [if_neg hm] at hx
      by_cases hm' : m = M.«name»
      · rw [if_pos hm'] at hx
        rw [List.mem_singleton.1 hx]
        exact .field cTypes.2.2.1 (quotable_of (by decide) (by decide) (by decide))
      · rw [if_neg hm'] at hx; cases hx
  · intro x hx
    rw [List.mem_singleton.1 hx]
    exact .field cTypes.2.2.2.1 (quotable_of (by decide) (by decide) (by decide))
  · intro s hs
    rw [List.mem_singleton.1 hs]
    refine ⟨.elem (chars! "foo") [] [.text (chars! "x")], rfl,
      ⟨⟨'f', _, rfl, by decide, by decide⟩, noAttrs, by rw [Xml.Plain]; decide, trivial⟩, ?_, by simp [Xml.depth, depthOf],
      ⟨⟨by decide, fun h => absurd h (by decide)⟩, trivial, trivial⟩⟩
    simp only [Xml.name?, Option.any_some, foo_unknown]
    rfl

theorem cPlacemark_canonical (pretty : Bool) : Canonical NumLib.integers pretty 100 none cPlacemark :=
  cPlacemark_canonical_at pretty 97 none

example : reread NumLib.integers ['\n'] (chars! "  ") cPlacemark = .ok (some cPlacemark) :=
  C30_pretty_partial _ _ (cPlacemark_canonical true)

example : reread NumLib.integers [] [] cPlacemark = .ok (some cPlacemark) :=
  C30_raw_partial _ _ (cPlacemark_canonical false)

/-! ### Where it is false -/

/-- The raw text of the element that is read back. -/
def rereadRaw (newline indent : Str) (e : Elem) : Option Str :=
  match reread NumLib.integers newline indent e with
  | .ok (some e) =>
    match serializeRaw e with
    | .ok s => some s
    | _ => none
  | _ => none

/-- **C30 fails: text in pretty output.** The text of a snippet grows by the line break and the indentation. -/
theorem C30_snippet_violated :
    rereadRaw ['\n'] (chars! "  ") (.node Ty.«Placemark» .empty (setSlot (fun _ => []) M.«snippet»
      [.node Ty.«Snippet» .empty (textSlots ['a']) [] []]) [] []) =
      some (chars! "<Placemark><Snippet>\na  </Snippet></Placemark>") := by decide +kernel

/-- **C30 fails: several points in raw output.** -/
theorem C30_points_violated :
    rereadRaw [] [] (.node Ty.«LineString» .empty (setSlot (fun _ => []) M.«coordinates»
      [.node Ty.«coordinates» .empty (pointSlots [⟨['1'], ['2'], ['3'], true⟩, ⟨['4'], ['5'], ['6'], true⟩]) [] []]) [] []) =
      some (chars! "<LineString><coordinates>1,2,3\n5,6,0\n</coordinates></LineString>") := by decide +kernel

/-- **C30 fails: the name of a locality** is not written. -/
theorem C30_locality_violated :
    rereadRaw [] [] (.node Ty.«XalLocality» .empty (setSlot (fun _ => []) M.«localityname»
      [.field Ty.«xalLocalityName» ['a']]) [] []) = some (chars! "<xal:Locality/>") := by decide +kernel

/-- **C30 fails: texts that are not quoted correctly**: what is written cannot be read at all. -/
theorem C30_text_violated :
    rereadRaw [] [] (.node Ty.«Placemark» .empty (setSlot (fun _ => []) M.«name»
      [.field Ty.«name» (chars! "<]]>")]) [] []) = none := by decide +kernel

end Kml.Dom
