import Verif.Lemmas.Children
import Verif.Spec.Numbers

/-!
# Properties of children: kept, in order, and written

`Elem.pieces` (`Verif/Spec/Children.lean`) is what an element writes for its children, one piece for each.
-/

namespace Kml.Dom

open Kml

attribute [local irreducible] kml22Elements Xsd.tagToId classes inc dec uintSize

/-! ## What is written -/

/-- Every element but `coordinates` writes a start tag, its pieces, its unknown text and an end tag; so
what is among its pieces is written. -/
theorem C34_shape (t : Ty) (a : Attrs) (slots : Mem → List Elem) (mis : List Elem) (unk : List Str)
    (ht : t ≠ Ty.«coordinates») :
    calls (.node t a slots mis unk) =
      .beginElem t (serializeAttributes (classAt t) a) ::
        (Elem.node t a slots mis unk).pieces.flatten ++ unknownCalls unk ++ [.endElem] :=
  calls_node t a slots mis unk ht

/-! ## C32 Misplaced elements are preserved -/

/-- **C32, misplaced children.** A child that an element has no place for is written after all others, and
nothing else changes. -/
theorem C32_misplaced (n : NumLib) (cd : Str) (t : Ty) (a : Attrs) (slots : Mem → List Elem)
    (mis : List Elem) (unk : List Str) (child : Elem) (h : taker t child = none) :
    ∃ r, addElement n cd (.node t a slots mis unk) child = .ok r ∧
      r.pieces = (Elem.node t a slots mis unk).pieces ++ [calls child] := by
  refine ⟨.node t a slots (mis ++ [child]) unk, ?_, ?_⟩
  · unfold addElement
    unfold taker at h
    simp only
    split
    · rfl
    · rename_i c hc
      rw [hc] at h
      simp only at h
      rw [h]
  · simp only [Elem.pieces, callsEach_append, List.append_assoc]
    rfl

/-- **C32, children with a place.** A child an element takes is written, and nothing that was written before is
lost, if

 * the parent is not one of those that take text instead of children;
 * the place is an array or still free;
 * the text of the child is understood (not an unknown name in an enumeration);
 * it is not the name of a locality (`C34_locality_violated`).

The full property asks it of all children; see the theorems below. -/
theorem C32_kept_partial (n : NumLib) (cd : Str) (t : Ty) (a : Attrs) (slots : Mem → List Elem)
    (mis : List Elem) (unk : List Str) (child r : Elem) (act : Act) (hp : Proper child)
    (h : taker t child = some act) (htext : textual t = false) (hun : ¬ Unwritten t child)
    (hund : Understood child act) (hfree : act.isArray = true ∨ slots act.mem = [])
    (hr : addElement n cd (.node t a slots mis unk) child = .ok r) :
    ∃ piece, WrittenAs n child act none piece ∧
      r.pieces.Perm (piece :: (Elem.node t a slots mis unk).pieces) := by
  rcases addElement_node hr with ⟨hx, _⟩ | ⟨act', v, hx, hv, rfl⟩
  · rw [h] at hx; cases hx
  · rw [h] at hx
    cases hx
    obtain ⟨w, hw, hm, hempty, piece, hpiece, hpieces⟩ := taken_piece hp h htext hun hund hv
    obtain ⟨c, _, hc, hmem, _⟩ := taker_rule h
    refine ⟨piece, ?_, ?_⟩
    · rcases hfree with hx | hx
      · cases act <;> cases child <;> first | exact hpiece | cases hx
      · rw [hx] at hpiece
        exact hpiece
    · simp only [Elem.pieces]
      rw [← List.cons_append]
      apply List.Perm.append_right
      refine flatMap_perm_replace (m := act.mem) ?_ ⟨w, hw, hm, ?_⟩ ?_
      · rw [classAt_eq hc]; exact nodup_writes hmem
      · rw [hpieces]
        rcases hfree with hx | hx
        · rw [if_pos hx]
          exact List.perm_append_singleton _ _
        · split
          · exact List.perm_append_singleton _ _
          · rw [hempty hx]
      · intro i hi
        simp [setSlot, hi]


/-- Whether a list of pieces, given as calls, has one that starts with a start tag of type `t`. -/
def hasElem (t : Ty) (pieces : List (List Call)) : Bool :=
  pieces.any fun p => match p with | .beginElem t' _ :: _ => t' = t | _ => false

/-- The result of handing over children. -/
def piecesAfter (n : NumLib) (e : Elem) (cs : List Elem) : Option (List (List Call)) :=
  match addAll n e cs with
  | .ok r => some r.pieces
  | _ => none

/-- A `Point` with an id. -/
def pointWith (id : Str) : Elem := .node Ty.«Point» ⟨[(chars! "id", id)], [], []⟩ (fun _ => []) [] []

/-- A `Placemark` takes a name and a geometry, has no place for a `Style` map pair, and meets the conditions. -/
example : taker Ty.«Placemark» (newNode Ty.«Pair») = none ∧
    taker Ty.«Placemark» (pointWith (chars! "a")) = some (.one M.«geometry») ∧
    taker Ty.«Placemark» (.field Ty.«name» (chars! "x")) = some (.field M.«name» .str) ∧
    taker Ty.«Folder» (newNode Ty.«Placemark») = some (.many M.«feature_array») ∧
    textual Ty.«Placemark» = false ∧ (classOf Ty.«Point»).isSome = true ∧
    Xsd.elementType Ty.«name» = .simple ∧
    piecesAfter NumLib.integers (newNode Ty.«Placemark»)
      [newNode Ty.«Pair», pointWith (chars! "a"), .field Ty.«name» (chars! "x")] =
      some [[.field Ty.«name» (chars! "x")],
        [.beginElem Ty.«Point» [(chars! "id", chars! "a")], .endElem],
        [.beginElem Ty.«Pair» [], .endElem]] := by decide +kernel

/-- **C32 fails: duplicates.** Of two `Point`s in a `Placemark`, the first is lost. -/
theorem C32_duplicate_violated : piecesAfter NumLib.integers (newNode Ty.«Placemark»)
    [pointWith (chars! "a"), pointWith (chars! "b")] =
    some [[.beginElem Ty.«Point» [(chars! "id", chars! "b")], .endElem]] := by decide +kernel

/-- **C32 fails: enumerations.** An `altitudeMode` with an unknown name is lost. -/
theorem C32_enum_violated : piecesAfter NumLib.integers (newNode Ty.«Point»)
    [.field Ty.«altitudeMode» (chars! "high")] = some [] := by decide +kernel

/-- **C32 fails: text elements.** An element inside a `Snippet` is lost. -/
theorem C32_snippet_violated : (piecesAfter NumLib.integers (newNode Ty.«Snippet»)
    [newNode Ty.«Placemark»]).map (hasElem Ty.«Placemark») = some false := by decide +kernel

/-- **C32 fails: simple elements.** An element inside a `name` is lost. -/
theorem C32_simple_violated : piecesAfter NumLib.integers (.field Ty.«name» (chars! "x"))
    [newNode Ty.«Placemark»] = some [] := by decide +kernel

/-! ## C33 Serialized children follow schema order -/

/-- **C33, the order of additions does not matter.** If two sequences of children agree, member by member, on the
children that go there, and on those without a place, the results are the same. -/
theorem C33_order (n : NumLib) (t : Ty) (a : Attrs) (slots : Mem → List Elem) (mis : List Elem)
    (unk : List Str) (cs cs' : List Elem) (r r' : Elem)
    (h : addAll n (.node t a slots mis unk) cs = .ok r)
    (h' : addAll n (.node t a slots mis unk) cs' = .ok r')
    (hgo : ∀ m, goesTo t m cs = goesTo t m cs') (hno : homeless t cs = homeless t cs') : r = r' := by
  obtain ⟨s1, rfl, h1⟩ := addAll_node h
  obtain ⟨s2, rfl, h2⟩ := addAll_node h'
  have : s1 = s2 := by
    funext m
    have := h1 m
    rw [hgo m, h2 m] at this
    exact (Outcome.ok.inj this).symm
  rw [this, hno]

/-- **C33, neighbours.** In particular, two neighbouring children that go to different members may be swapped. -/
theorem C33_swap (n : NumLib) (t : Ty) (a : Attrs) (slots : Mem → List Elem) (mis : List Elem)
    (unk : List Str) (xs ys : List Elem) (x y r r' : Elem)
    (hxy : (taker t x).map Act.mem ≠ (taker t y).map Act.mem)
    (h : addAll n (.node t a slots mis unk) (xs ++ x :: y :: ys) = .ok r)
    (h' : addAll n (.node t a slots mis unk) (xs ++ y :: x :: ys) = .ok r') : r = r' := by
  refine C33_order n t a slots mis unk _ _ r r' h h' ?_ ?_
  · intro m
    simp only [goesTo, List.filter_append, List.filter_cons]
    congr 1
    by_cases hx : (taker t x).map Act.mem = some m
    · have hy : ¬ (taker t y).map Act.mem = some m := fun hy => hxy (hx.trans hy.symm)
      simp [hx, hy]
    · by_cases hy : (taker t y).map Act.mem = some m <;> simp [hx, hy]
  · simp only [homeless, List.filter_append, List.filter_cons]
    congr 1
    cases hx : taker t x with
    | none =>
      cases hy : taker t y with
      | none => rw [hx, hy] at hxy; exact absurd rfl hxy
      | some _ => simp
    | some _ => cases taker t y <;> simp

/-- **C33, fixed order.** What is written for the children is the concatenation, over the writes of the class
in their fixed order, of what is written for the children that went to each member, and then the children
without a place, in the order in which they were added. -/
theorem C33_sequence (n : NumLib) (t : Ty) (cs : List Elem) (r : Elem)
    (h : addAll n (newNode t) cs = .ok r) :
    ∃ kept : Mem → List Elem,
      r.pieces = ((classAt t).writes.flatMap fun w => w.pieces kept) ++ (homeless t cs).map calls ∧
      ∀ m, addAll n (newNode t) (goesTo t m cs) =
        .ok (.node t .empty (setSlot (fun _ => []) m (kept m)) [] []) := by
  obtain ⟨s, rfl, hs⟩ := addAll_node h
  refine ⟨s, by simp [Elem.pieces, callsEach_eq_map], fun m => ?_⟩
  have : ∀ (xs : List Elem) (old v : List Elem), (∀ e ∈ xs, (taker t e).map Act.mem = some m) →
      foldMem n t old xs = .ok v →
      addAll n (.node t .empty (setSlot (fun _ => []) m old) [] []) xs =
        .ok (.node t .empty (setSlot (fun _ => []) m v) [] []) := by
    intro xs
    induction xs with
    | nil =>
      intro old v _ hv
      simp only [foldMem, Outcome.ok.injEq] at hv
      rw [hv]; rfl
    | cons x xs ih =>
      intro old v hx hv
      have h1 := hx x (List.mem_cons_self ..)
      rw [foldMem] at hv
      cases ht : taker t x with
      | none => rw [ht] at h1; cases h1
      | some act =>
        rw [ht] at h1 hv
        simp only [Option.map_some, Option.some.injEq] at h1 hv
        cases hval : act.value n [] old x with
        | ok v1 =>
          rw [hval] at hv
          simp only [Outcome.ok_bind] at hv
          rw [addAll]
          have hadd : addElement n [] (.node t .empty (setSlot (fun _ => []) m old) [] []) x =
              .ok (.node t .empty (setSlot (fun _ => []) m v1) [] []) := by
            unfold addElement
            unfold taker at ht
            simp only
            split at ht
            · rename_i c hc
              rw [hc]
              simp only [ht, apply_eq, h1]
              have : setSlot (fun _ => []) m old m = old := by simp [setSlot]
              rw [this, hval]
              simp only [Outcome.ok_bind]
              congr 1
              congr 1
              funext i
              by_cases hi : i = m <;> simp [setSlot, hi]
            · cases ht
          rw [hadd]
          exact ih v1 v (fun e he => hx e (List.mem_cons_of_mem _ he)) hv
        | throws => rw [hval] at hv; cases hv
        | ub => rw [hval] at hv; cases hv
  have h0 : newNode t = .node t .empty (setSlot (fun _ => []) m []) [] [] := by
    unfold newNode
    congr 1
    funext i
    simp [setSlot]
  rw [h0]
  refine this _ _ _ ?_ (hs m)
  intro e he
  simpa [goesTo] using (List.mem_filter.1 he).2

/-- **C33, repeated children.** Children that go to an array of elements are written in the order in which they
were added, all together. -/
theorem C33_repeated (n : NumLib) (t : Ty) (m : Mem) (cs : List Elem) (r : Elem)
    (hm : ∃ x, taker t x = some (.many m))
    (h : addAll n (newNode t) cs = .ok r) :
    ∃ before after, r.pieces = before ++ (goesTo t m cs).map calls ++ after := by
  obtain ⟨s, rfl, hs⟩ := addAll_node h
  obtain ⟨x, hx⟩ := hm
  have hall : ∀ e ∈ goesTo t m cs, taker t e = some (.many m) := by
    intro e he
    have h1 := (List.mem_filter.1 he).2
    simp only [decide_eq_true_eq, Option.map_eq_some_iff] at h1
    obtain ⟨act, h2, h3⟩ := h1
    rw [h2, taker_same h2 hx h3]
  have hsm := hs m
  rw [foldMem_many hall] at hsm
  have hsm : goesTo t m cs = s m := by simpa using hsm
  obtain ⟨c, test, hc, hmem, hreach, hrule, hmatch⟩ := taker_rule hx
  have hw := List.all_eq_true.1 (List.all_eq_true.1 classes_written _ hmem) _ hreach
  have hun : unwritten t (test, Act.many m) = false ∨ unwritten t (test, Act.many m) = true := by
    cases unwritten t (test, Act.many m) <;> simp
  have hw : c.writes.any (elemOk m) = true := by
    rcases hun with hun | hun
    · rw [hun, Bool.false_or] at hw
      cases test <;> exact hw
    · simp [unwritten] at hun
  obtain ⟨w, hw1, hw2⟩ := List.any_eq_true.1 hw
  obtain ⟨e1, e2⟩ := elemOk_pieces hw2
  obtain ⟨l1, l2, hl⟩ := List.append_of_mem hw1
  refine ⟨l1.flatMap fun w => w.pieces s, (l2.flatMap fun w => w.pieces s) ++ callsEach (homeless t cs), ?_⟩
  simp only [Elem.pieces, classAt_eq hc, hl, List.flatMap_append, List.flatMap_cons, e2, ← hsm,
    callsEach_eq_map, List.nil_append, List.append_assoc]

/-- The text of a simple child says what its value is: that is not so for a blank number, which leaves the value as
it was. -/
def Determined (x : Elem) (act : Act) : Prop :=
  match x, act with
  | .field _ text, .field _ (.dbl _) => blank text = false
  | .field _ text, .field _ (.int _) => blank text = false
  | _, _ => True

theorem value_last {n : NumLib} {x : Elem} {act : Act} (harr : act.isArray = false)
    (hself : ∀ m, act ≠ .selfPoints m) (hd : Determined x act) (old old' : List Elem) :
    act.value n [] old x = act.value n [] old' x := by
  cases act with
  | field m k =>
    cases x with
    | node => rfl
    | field t text =>
      simp only [Act.value]
      suffices readValue n k t (single old) text = readValue n k t (single old') text by rw [this]
      cases k with
      | dbl d =>
        have hd : blank text = false := hd
        simp [readValue, readDouble, hd]
      | int d =>
        have hd : blank text = false := hd
        simp [readValue, readInt, hd]
      | _ => rfl
  | fields m k => cases harr
  | many m => cases harr
  | one m => rfl
  | selfText m => rfl
  | selfPoints m => exact absurd rfl (hself m)

/-- **C33, single values.** Of the children that go to a member for one value or one element, only the last
counts: the result is the same as without the others. -/
theorem C33_last_partial (n : NumLib) (t : Ty) (a : Attrs) (slots : Mem → List Elem) (mis : List Elem)
    (unk : List Str) (cs cs' xs : List Elem) (x r r' : Elem) (act : Act)
    (hx : taker t x = some act) (harr : act.isArray = false) (htext : textual t = false)
    (hd : Determined x act) (hcs : goesTo t act.mem cs = xs ++ [x]) (hcs' : goesTo t act.mem cs' = [x])
    (hgo : ∀ m, m ≠ act.mem → goesTo t m cs = goesTo t m cs') (hno : homeless t cs = homeless t cs')
    (h : addAll n (.node t a slots mis unk) cs = .ok r)
    (h' : addAll n (.node t a slots mis unk) cs' = .ok r') : r = r' := by
  obtain ⟨s1, rfl, h1⟩ := addAll_node h
  obtain ⟨s2, rfl, h2⟩ := addAll_node h'
  have hself : ∀ m, act ≠ .selfPoints m := by
    rintro m rfl
    obtain ⟨c, test, hc, hmem, _, hrule, _⟩ := taker_rule hx
    have := List.all_eq_true.1 (List.all_eq_true.1 classes_self _ hmem) _ hrule
    simp [htext] at this
  have : s1 = s2 := by
    funext m
    by_cases hm : m = act.mem
    · subst hm
      have e1 := h1 act.mem
      have e2 := h2 act.mem
      rw [hcs, foldMem_append] at e1
      rw [hcs'] at e2
      cases hf : foldMem n t (slots act.mem) xs with
      | ok v =>
        rw [hf] at e1
        simp only [Outcome.ok_bind, foldMem, hx] at e1 e2
        rw [value_last harr hself hd v (slots act.mem)] at e1
        rw [e1] at e2
        exact Outcome.ok.inj e2
      | throws => rw [hf] at e1; cases e1
      | ub => rw [hf] at e1; cases e1
    · have e1 := h1 m
      rw [hgo m hm, h2 m] at e1
      exact (Outcome.ok.inj e1).symm
  rw [this, hno]

/-- **C33 fails: blank numbers.** Adding a blank `range` after another keeps the earlier one. -/
theorem C33_blank_violated : piecesAfter NumLib.integers (newNode Ty.«LookAt»)
    [.field Ty.«range» (chars! "5"), .field Ty.«range» (chars! " ")] =
    some [[.field Ty.«range» (chars! "5")]] := by decide +kernel

/-- Children added in the wrong order, one of them twice: they are written in the order of the schema, and of the
two names the last. -/
example : piecesAfter NumLib.integers (newNode Ty.«Folder»)
    [newNode Ty.«Placemark», .field Ty.«name» (chars! "x"), newNode Ty.«Folder»,
      .field Ty.«visibility» (chars! "1"), .field Ty.«name» (chars! "y")] =
    some [[.field Ty.«name» (chars! "y")], [.field Ty.«visibility» (chars! "1")],
      [.beginElem Ty.«Placemark» [], .endElem], [.beginElem Ty.«Folder» [], .endElem]] := by
  decide +kernel

example : goesTo Ty.«Folder» M.«name» [newNode Ty.«Placemark», .field Ty.«name» (chars! "x"),
      .field Ty.«name» (chars! "y")] = [.field Ty.«name» (chars! "x")] ++ [.field Ty.«name» (chars! "y")] := by
  have h : (taker Ty.«Folder» (newNode Ty.«Placemark»)).map Act.mem = some M.«feature_array» ∧
    (taker Ty.«Folder» (.field Ty.«name» (chars! "x"))).map Act.mem = some M.«name» ∧
    (taker Ty.«Folder» (.field Ty.«name» (chars! "y"))).map Act.mem = some M.«name» ∧
    M.«feature_array» ≠ M.«name» := by decide +kernel
  obtain ⟨h1, h2, h3, h4⟩ := h
  simp only [goesTo, List.filter_cons, h1, h2, h3, Option.some.injEq, h4]
  rfl

/-! ## C34 Every parsed field is written -/

/-- **C34, children.** Whatever an element takes when parsing is among the pieces it writes. -/
theorem C34_written_partial (n : NumLib) (cd : Str) (t : Ty) (a : Attrs) (slots : Mem → List Elem)
    (mis : List Elem) (unk : List Str) (child r : Elem) (act : Act) (hp : Proper child)
    (h : taker t child = some act) (htext : textual t = false) (hun : ¬ Unwritten t child)
    (hund : Understood child act)
    (hr : addElement n cd (.node t a slots mis unk) child = .ok r) :
    ∃ piece, WrittenAs n child act (single (slots act.mem)) piece ∧ piece ∈ r.pieces := by
  rcases addElement_node hr with ⟨hx, _⟩ | ⟨act', v, hx, hv, rfl⟩
  · rw [h] at hx; cases hx
  · rw [h] at hx
    cases hx
    obtain ⟨w, hw, hm, hempty, piece, hpiece, hpieces⟩ := taken_piece hp h htext hun hund hv
    refine ⟨piece, hpiece, ?_⟩
    simp only [Elem.pieces, List.mem_append, List.mem_flatMap]
    refine Or.inl ⟨w, hw, ?_⟩
    rw [hpieces]
    split <;> simp

/-- **C34, text elements.** The text of `Snippet`, `linkSnippet` and `SimpleData`, which take their own
character data, is written. -/
theorem C34_text (n : NumLib) (t : Ty) (ht : t = Ty.«Snippet» ∨ t = Ty.«linkSnippet» ∨ t = Ty.«SimpleData»)
    (a : Attrs) (slots : Mem → List Elem) (mis : List Elem) (unk : List Str) (text : Str) :
    ∃ r, finishElement n (.node t a slots mis unk) text = .ok r ∧
      r.pieces = [Call.content text true] :: mis.map calls := by
  have key : ∀ c, classOf t = some c → selfParsing t = true →
      findRule c.rules (.node t a slots mis unk) = some (.selfText M.«text») →
      (c.writes = [.content M.«text» true] ∨ c.writes = [.content M.«text» false]) →
      ∃ r, finishElement n (.node t a slots mis unk) text = .ok r ∧
        r.pieces = [Call.content text true] :: mis.map calls := by
    intro c hc hp hr hw
    refine ⟨.node t a (setSlot slots M.«text» [.field Ty.Unknown text]) mis unk, ?_, ?_⟩
    · simp only [finishElement, Elem.ty, hp, if_true, setCharData, addElement, hc, hr, Act.apply,
        Outcome.ok_bind]
    · rcases hw with hw | hw <;>
        simp [Elem.pieces, classAt_eq hc, hw, Write.pieces, Write.valueCalls, setSlot, texts,
          callsEach_eq_map]
  rcases ht with rfl | rfl | rfl
  · exact key _ classOf_snippet rfl rfl (Or.inl rfl)
  · exact key _ classOf_linkSnippet rfl rfl (Or.inl rfl)
  · exact key _ classOf_simpleData rfl rfl (Or.inr rfl)

/-- The points of `coordinates` are written, one call for each. -/
theorem C34_coordinates (n : NumLib) (a : Attrs) (mis : List Elem) (unk : List Str)
    (text : Str) (pts : List Elem) (h : readPoints n text = .ok pts) :
    ∃ r, finishElement n (.node Ty.«coordinates» a (fun _ => []) mis unk) text = .ok r ∧
      calls r = .beginElem Ty.«coordinates» [] :: (texts pts).map Call.vec3 ++ [.endElem] := by
  refine ⟨.node Ty.«coordinates» a (setSlot (fun _ => []) M.«coordinates_array» pts) mis unk, ?_, ?_⟩
  · have hr : findRule Coordinates.cls.rules (.node Ty.«coordinates» a (fun _ => []) mis unk) =
        some (.selfPoints M.«coordinates_array») := rfl
    have hp : selfParsing Ty.«coordinates» = true := rfl
    simp only [finishElement, Elem.ty, hp, if_true, setCharData, addElement, classOf_coordinates, hr,
      Act.apply, h, Outcome.ok_bind, List.nil_append]
  · have hw : Coordinates.cls.writes = [.points M.«coordinates_array»] := rfl
    rw [calls, if_pos rfl, classAt_eq classOf_coordinates, hw]
    simp [Write.valueCalls, setSlot]

/-- **C34, attributes.** Every attribute a class knows is written with the value it was read as. -/
theorem C34_attribute (n : NumLib) (t : Ty) (c : Class) (hc : classOf t = some c) (m : Attributes.Attributes)
    (hs : StdMap.Sorted m) (k : Str) (kind : AttrKind) (hk : (k, kind) ∈ c.reads) (text v : Str)
    (hm : m.get k = some text) (hv : readAttr n kind text = some v) :
    (serializeAttributes c (parseAttributes n c m)).get k = some v :=
  attribute_written hc hs hk hm hv

example : ((classOf Ty.«Placemark»).any fun c => (chars! "id", AttrKind.str) ∈ c.reads) = true ∧
    readAttr NumLib.integers .str (chars! "x") = some (chars! "x") := by decide +kernel

/-- **C34 fails** for the name of a locality. -/
theorem C34_locality_violated : piecesAfter NumLib.integers (newNode Ty.«XalLocality»)
    [.field Ty.«xalLocalityName» (chars! "Zürich")] = some [] := by decide +kernel

end Kml.Dom
