import Verif.Lemmas.Clone
import Verif.Props.RoundTrip

/-!
# C35: Clone

`Held` (Spec/Held.lean) says how an element can look: it holds for everything the parser gives (`parse_held`).
`Clonable` (Spec/Clone.lean) leaves out the elements for which the copying goes wrong; the theorems at the end show
each of them.  `copyOf` is the copy that is expected.
-/

namespace Kml.Dom

open Kml

/-- **C35, the copy.** Cloning an element, where the copying does not go wrong, always ends, touches no memory it should
not, and gives an element of the same type that is written as the original, with every line break and
indentation.

Missing from the full property: the elements that are not `Clonable` and the simple elements, for which it is false,
and the identity of elements: that the copy shares none with the original is by construction, since the calls that
build it carry no elements. -/
theorem C35_clone_partial (n : NumLib) (e : Elem) (h : Held n e) (hc : Everywhere Clonable e)
    (hn : ∀ t s, e ≠ .field t s) :
    ∃ e', clone n e = .ok (some e') ∧ e'.ty = e.ty ∧
      ∀ newline indent, serialize newline indent e' = serialize newline indent e := by
  have hnode : ∃ t a sl mi un, e = .node t a sl mi un := by
    cases e with
    | field t s => exact absurd rfl (hn t s)
    | node t a sl mi un => exact ⟨t, a, sl, mi, un, rfl⟩
  refine ⟨copyOf e, ?_, copyOf_ty e, fun newline indent => ?_⟩
  · unfold clone
    rw [held_copies h hc [] fun _ => hnode]
    rfl
  · unfold serialize
    rw [calls_copy hc]

/-- **C35, the same element.** If the element also holds nothing that is never written, then the copy has the same
attributes, the same children in every member and the same misplaced and unknown children, all the way down. -/
theorem C35_equal_partial (n : NumLib) (e : Elem) (h : Held n e) (hc : Everywhere Clonable e)
    (hl : Everywhere Lossless e) (hn : ∀ t s, e ≠ .field t s) : clone n e = .ok (some e) := by
  have hnode : ∃ t a sl mi un, e = .node t a sl mi un := by
    cases e with
    | field t s => exact absurd rfl (hn t s)
    | node t a sl mi un => exact ⟨t, a, sl, mi, un, rfl⟩
  unfold clone
  rw [held_copies h hc [] fun _ => hnode, copyOf_lossless h hl]
  rfl

/-- **C35, parsed elements.** The same for the root of any document that was parsed, with any observers. -/
theorem C35_parsed_partial {σ : Type} (n : NumLib) (os : List (Observer σ)) (s s' : σ) (evs : List Ev) (e : Elem)
    (hp : parseEvents n os s evs = .ok (some e, s')) (hc : Everywhere Clonable e) (hn : ∀ t s, e ≠ .field t s) :
    ∃ e', clone n e = .ok (some e') ∧ e'.ty = e.ty ∧
      ∀ newline indent, serialize newline indent e' = serialize newline indent e :=
  C35_clone_partial n e (parse_held hp) hc hn

/-! ### Elements that can be copied -/

theorem cPlacemark_clonable : Everywhere Clonable cPlacemark ∧ Everywhere Lossless cPlacemark := by
  have hp : ∀ {P : Elem → Prop}, (∀ t s, P (.field t s)) → P cPoint → P cPlacemark →
      P (.node Ty.«coordinates» .empty (pointSlots [⟨['1'], ['2'], ['3'], true⟩]) [] []) → Everywhere P cPlacemark := by
    intro P hf hpt hpm hco
    refine .node hpm ?_ ?_
    · intro m x hx
      unfold setSlot at hx
      split at hx
      · simp only [List.mem_cons, List.not_mem_nil, or_false] at hx
        subst hx
        refine .node hpt ?_ (by intro x hx; cases hx)
        intro m x hx
        unfold setSlot at hx
        split at hx
        · simp only [List.mem_cons, List.not_mem_nil, or_false] at hx
          subst hx
          refine .node hco ?_ (by intro x hx; cases hx)
          intro m x hx
          unfold pointSlots setSlot at hx
          split at hx
          · simp only [List.map_cons, List.map_nil, List.mem_cons, List.not_mem_nil, or_false] at hx
            subst hx
            exact .field (hf _ _)
          · cases hx
        · cases hx
      · split at hx
        · simp only [List.mem_cons, List.not_mem_nil, or_false] at hx
          subst hx
          exact .field (hf _ _)
        · cases hx
    · intro x hx
      simp only [List.mem_cons, List.not_mem_nil, or_false] at hx
      subst hx
      exact .field (hf _ _)
  have hcd : ∀ {act : Act}, taker Ty.«Placemark» (.field Ty.«name» (chars! "a<b")) = some act → act.isCdata = false := by
    intro act h
    have : taker Ty.«Placemark» (.field Ty.«name» (chars! "a<b")) = some (.field M.«name» .str) := by decide +kernel
    rw [this] at h
    cases h
    rfl
  constructor
  · refine hp (fun _ _ => trivial) ⟨?_, fun h => absurd h (by decide)⟩ ⟨?_, fun h => absurd h (by decide)⟩
      ⟨?_, fun h => absurd h (by decide)⟩
    · intro m x hx act t' s _ _ he
      subst he
      unfold setSlot at hx
      split at hx
      · simp at hx
      · cases hx
    · intro m x hx act t' s ht hc he
      subst he
      unfold setSlot at hx
      split at hx
      · simp [cPoint] at hx
      · split at hx
        · simp only [List.mem_cons, List.not_mem_nil, or_false] at hx
          rw [hx] at ht
          rw [hcd ht] at hc
          cases hc
        · cases hx
    · intro m x hx act t' s ht hc he
      rw [taker_coordinates] at ht
      cases ht
      cases hc
  · exact hp (fun _ _ => trivial)
      ⟨fun h => absurd h (by decide), fun h => absurd h (by decide), fun h => absurd h (by decide)⟩
      ⟨fun h => absurd h (by decide), fun h => absurd h (by decide), fun h => absurd h (by decide)⟩
      ⟨fun _ => ⟨rfl, rfl⟩, fun h => absurd h (by decide), fun _ => by decide⟩

example : ∃ e', clone NumLib.integers cPlacemark = .ok (some e') ∧ e'.ty = cPlacemark.ty ∧
    ∀ newline indent, serialize newline indent e' = serialize newline indent cPlacemark :=
  C35_clone_partial _ _ (cPlacemark_canonical true).held cPlacemark_clonable.1 (fun _ _ h => by cases h)

example : clone NumLib.integers cPlacemark = .ok (some cPlacemark) :=
  C35_equal_partial _ _ (cPlacemark_canonical true).held cPlacemark_clonable.1 cPlacemark_clonable.2
    (fun _ _ h => by cases h)

/-- The text of the copy of the root of a document, and the text of the root itself; `none` if it is not parsed or the
copying is undefined. -/
def cloneOf (evs : List Ev) : Option (Str × Str) :=
  match parseEvents NumLib.integers ([] : List (Observer Unit)) () evs with
  | .ok (some e, _) =>
    match clone NumLib.integers e, serializeRaw e with
    | .ok (some e'), .ok s =>
      match serializeRaw e' with
      | .ok s' => some (s', s)
      | _ => none
    | _, _ => none
  | _ => none

/-- A document whose copy is written as the document. -/
example : cloneOf ([.start (chars! "Placemark") [(chars! "id", chars! "p1")], .start (chars! "name") []] ++
    charEvents (chars! "a<b") ++ [.stop (chars! "name"), .start (chars! "foo") [], .stop (chars! "foo"),
    .start (chars! "Folder") [], .stop (chars! "Folder"), .stop (chars! "Placemark")]) =
    some (chars! "<Placemark id=\"p1\"><name><![CDATA[a<b]]></name><Folder/><foo></foo>\n</Placemark>",
      chars! "<Placemark id=\"p1\"><name><![CDATA[a<b]]></name><Folder/><foo></foo>\n</Placemark>") := by decide +kernel

set_option maxRecDepth 100000 in
/-- A parsed document, `<Folder id="f"><Point/></Folder>`. -/
example : ∃ e, parseEvents NumLib.integers ([] : List (Observer Unit)) ()
      [.start (chars! "Folder") [(chars! "id", chars! "f")], .start (chars! "Point") [], .stop (chars! "Point"),
        .stop (chars! "Folder")] = .ok (some e, ()) ∧ ∃ e', clone NumLib.integers e = .ok (some e') ∧ e'.ty = e.ty ∧
      ∀ newline indent, serialize newline indent e' = serialize newline indent e := by
  refine ⟨.node Ty.«Folder» ⟨[(chars! "id", chars! "f")], [], []⟩ (fun _ => [])
    [.node Ty.«Point» .empty (fun _ => []) [] []] [], rfl, ?_⟩
  refine C35_parsed_partial _ [] () () [.start (chars! "Folder") [(chars! "id", chars! "f")], .start (chars! "Point") [],
    .stop (chars! "Point"), .stop (chars! "Folder")] _ rfl ?_ (fun _ _ h => by cases h)
  refine .node ⟨(by intro m x hx; cases hx), fun h => absurd h (by decide)⟩ (by intro m x hx; cases hx) ?_
  intro x hx
  rw [List.mem_singleton.1 hx]
  exact .node ⟨(by intro m x hx; cases hx), fun h => absurd h (by decide)⟩ (by intro m x hx; cases hx)
    (by intro x hx; cases hx)

/-! ### Where it is false -/

/-- **C35 fails: simple elements.** Cloning a simple element is undefined: the top of an empty stack is used. -/
theorem C35_simple_violated (n : NumLib) (t : Ty) (s : Str) : clone n (.field t s) = .ub := rfl

set_option maxRecDepth 100000 in
/-- **C35 fails: the text of `SimpleData` with a child.** The text is given to the child, which becomes its own
child.  The document is `<SimpleData>a<Point/></SimpleData>`. -/
theorem C35_simpledata_child_violated : ∃ e,
    parseEvents NumLib.integers ([] : List (Observer Unit)) ()
      [.start (chars! "SimpleData") [], .chars ['a'], .start (chars! "Point") [], .stop (chars! "Point"),
        .stop (chars! "SimpleData")] = .ok (some e, ()) ∧
    serializeRaw e = .ok (chars! "<SimpleData>a<Point/></SimpleData>") ∧ clone NumLib.integers e = .ub := by
  refine ⟨.node Ty.«SimpleData» .empty (textSlots ['a']) [.node Ty.«Point» .empty (fun _ => []) [] []] [], rfl, ?_, ?_⟩
  · decide +kernel
  · rfl

/-- **C35 fails: the empty text of `SimpleData`** is not copied, and then not written.  The document is
`<SimpleData/>`. -/
theorem C35_simpledata_empty_violated :
    cloneOf [.start (chars! "SimpleData") [], .stop (chars! "SimpleData")] =
      some (chars! "<SimpleData/>", chars! "<SimpleData></SimpleData>") := by decide +kernel

/-- **C35 fails: an address with two CDATA marks** loses the second one in the copy. -/
theorem C35_cdata_violated :
    cloneOf ([.start (chars! "Link") [], .start (chars! "href") []] ++
      charEvents (chars! "<![CDATA[<![CDATA[a]]>]]>") ++ [.stop (chars! "href"), .stop (chars! "Link")]) =
      some (chars! "<Link><href>a</href></Link>",
        chars! "<Link><href>&lt;![CDATA[a]]&gt;</href></Link>") := by decide +kernel

end Kml.Dom
