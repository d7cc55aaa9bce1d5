import Verif.Lemmas.Heard
import Verif.Props.File

/-!
# C37, C55, C56 and C74 for every sequence of events

What the parser tells its observers is what the observer `recorder` (Spec/Listen.lean) writes down: the elements it makes,
in the order of their start tags, and the elements it gives to their parents, in the order of their end tags.  `news` and
`adds` are these two lists.  Here is no condition on the document: old-style schemas, unknown elements and tags out of
place are all allowed.
-/

namespace Kml.Dom

open Kml

attribute [local irreducible] kml22Elements Xsd.tagToId classes inc dec uintSize

theorem fileStep_isSome (s : FileState) (x : Notice) : (fileStep s x).isSome = true := by cases x <;> rfl

theorem linkStep_isSome (s : List Str) (x : Notice) : (linkStep s x).isSome = true := by cases x <;> rfl

theorem takeIn_total {σ : Type} {f : σ → Notice → Option σ} (hf : ∀ s x, (f s x).isSome = true) (s0 : σ) (l : List Notice) :
    ∃ s, takeIn f s0 l = some s := by
  refine snoc_ind (P := fun l => ∃ s, takeIn f s0 l = some s) ⟨_, rfl⟩ ?_ l
  rintro l x ⟨s, hs⟩
  obtain ⟨s', hs'⟩ := Option.isSome_iff_exists.1 (hf s x)
  exact ⟨s', by rw [takeIn_snoc, hs]; exact hs'⟩

/-- What the parser says while it reads: its result, the elements it makes and the elements it gives to their parents. -/
def Says (n : NumLib) (evs : List Ev) (root : Option Elem) (made : List Elem) (given : List (Elem × Elem)) : Prop :=
  ∃ l, parseEvents n [recorder] [] evs = .ok (root, l) ∧ news l = made ∧ adds l = given

/-- **The observers of a file change nothing:** for every sequence of events, a parse for a file and a parse that only
writes down what happens give the same root. -/
theorem C29_file_watches (n : NumLib) (evs : List Ev) (root : Option Elem) :
    (∃ s, parseFile n evs = .ok (root, s)) ↔ ∃ made given, Says n evs root made given := by
  constructor
  · rintro ⟨s, h⟩
    obtain ⟨l, hl, _⟩ := ((parse_heard file_listens fileStep_isSome _ evs).1 _ _).1 h
    exact ⟨_, _, l, hl, rfl, rfl⟩
  · rintro ⟨_, _, l, hl, _, _⟩
    obtain ⟨s, hs⟩ := takeIn_total fileStep_isSome FileState.init l
    exact ⟨s, ((parse_heard file_listens fileStep_isSome _ evs).1 _ _).2 ⟨l, hl, hs⟩⟩

/-- The state of a file after a parse, for every sequence of events. -/
theorem parseFile_told {n : NumLib} {evs : List Ev} {root : Option Elem} {s : FileState} {made : List Elem}
    {given : List (Elem × Elem)} (h : parseFile n evs = .ok (root, s)) (hs : Says n evs root made given) :
    ∃ l, Took l s ∧ news l = made ∧ adds l = given := by
  obtain ⟨l, hl, ht⟩ := ((parse_heard file_listens fileStep_isSome _ evs).1 _ _).1 h
  obtain ⟨l', hl', h1, h2⟩ := hs
  rw [hl] at hl'
  cases hl'
  exact ⟨l, file_took ht, h1, h2⟩

/-- **C37, every parse.** Whatever the events, looking up an id gives the last element with that id among those the parser
made. -/
theorem C37_told (n : NumLib) (evs : List Ev) (root : Option Elem) (s : FileState) (made : List Elem)
    (given : List (Elem × Elem)) (h : parseFile n evs = .ok (root, s)) (hs : Says n evs root made given) (id : Str) (i : Nat) :
    s.getObjectById id = some i ↔
      (∃ e, made[i]? = some e ∧ e.objectId = some id) ∧ ∀ j e, i < j → made[j]? = some e → e.objectId ≠ some id := by
  obtain ⟨l, ht, rfl, rfl⟩ := parseFile_told h hs
  unfold FileState.getObjectById
  rw [ht.ids]
  unfold IsLast
  have key : ∀ j : Nat, ((news l).map Elem.objectId)[j]? = some (some id) ↔ ∃ e, (news l)[j]? = some e ∧ e.objectId = some id := by
    intro j
    rw [List.getElem?_map, Option.map_eq_some_iff]
  rw [key]
  refine and_congr_right fun _ => ?_
  constructor
  · intro h j e hj he hid
    exact h j hj ((key j).2 ⟨e, he, hid⟩)
  · intro h j hj hk
    obtain ⟨e, he, hid⟩ := (key j).1 hk
    exact h j e hj he hid

/-- **C55, every parse.** Whatever the events, the shared style for an id is the last style selector with that id (the
empty one, if it has none) that the parser gave to a `Document`. -/
theorem C55_told (n : NumLib) (evs : List Ev) (root : Option Elem) (s : FileState) (made : List Elem)
    (given : List (Elem × Elem)) (h : parseFile n evs = .ok (root, s)) (hs : Says n evs root made given) (id : Str) :
    s.getSharedStyleById id = ((given.filter fun q => q.1.isA Ty.«Document» && q.2.isA Ty.«StyleSelector» &&
      decide (q.2.objectId.getD [] = id)).getLast?).map (·.2) := by
  obtain ⟨l, ht, rfl, rfl⟩ := parseFile_told h hs
  exact ht.styles id

/-- **C74, every parse.** Whatever the events, the link parents are, in order and each one once, exactly those elements the
parser made that can hold a link. -/
theorem C74_told (n : NumLib) (evs : List Ev) (root : Option Elem) (s : FileState) (made : List Elem)
    (given : List (Elem × Elem)) (h : parseFile n evs = .ok (root, s)) (hs : Says n evs root made given) :
    s.linkParents.Pairwise (· < ·) ∧ ∀ i, i ∈ s.linkParents ↔ ∃ e, made[i]? = some e ∧
      e.ty ∈ [Ty.«PhotoOverlay», Ty.«GroundOverlay», Ty.«ScreenOverlay», Ty.«ItemIcon», Ty.«IconStyle», Ty.«NetworkLink»,
          Ty.«Model»] := by
  obtain ⟨l, ht, rfl, rfl⟩ := parseFile_told h hs
  rw [ht.parents]
  unfold indices
  refine ⟨(List.pairwise_lt_range).filter _, fun i => ?_⟩
  rw [List.mem_filter, List.mem_range]
  constructor
  · rintro ⟨hlt, hany⟩
    have hx := List.getElem?_eq_getElem hlt
    rw [hx] at hany
    exact ⟨_, hx, of_decide_eq_true hany⟩
  · rintro ⟨e, h1, h2⟩
    refine ⟨(List.getElem?_eq_some_iff.1 h1).1, ?_⟩
    rw [h1]
    exact decide_eq_true h2

/-- **C56, every parse.** Whatever the events, collecting links succeeds exactly if the parse does, and the links are
those of the elements the parser gives to their parents, in order and each one once: the text of every `href` and
`styleUrl`, of every `targetHref` in an `Alias`, and the schema address of every `SchemaData`. -/
theorem C56_told (n : NumLib) (evs : List Ev) (ok : Bool) (links : List Str) :
    getLinks n evs = .ok (ok, links) ↔ ∃ root made given, Says n evs root made given ∧ ok = root.isSome ∧
      links = given.filterMap fun q =>
        match q.2 with
        | .field t text =>
          if t = Ty.«href» ∨ t = Ty.«styleUrl» ∨ (t = Ty.«targetHref» ∧ q.1.ty = Ty.«Alias») then some text else none
        | .node t a _ _ _ => if t = Ty.«SchemaData» then a.known.get (chars! "schemaUrl") else none := by
  have key := (parse_heard (n := n) links_listens linkStep_isSome [] evs).1
  unfold getLinks
  constructor
  · intro h
    obtain ⟨⟨o, s⟩, hr, hs⟩ := bind_eq_ok h
    simp only [Outcome.ok.injEq, Prod.mk.injEq] at hs
    obtain ⟨rfl, rfl⟩ := hs
    obtain ⟨l, hl, ht⟩ := (key _ _).1 hr
    exact ⟨o, _, _, ⟨l, hl, rfl, rfl⟩, rfl, links_took ht⟩
  · rintro ⟨root, made, given, ⟨l, hl, rfl, rfl⟩, rfl, rfl⟩
    obtain ⟨s, hs⟩ := takeIn_total linkStep_isSome [] l
    rw [(key _ _).2 ⟨l, hl, hs⟩, links_took hs]
    rfl

/-- The types of the elements the parser makes, in a form that can be computed. -/
def madeTypes (evs : List Ev) : Option (List Ty) :=
  match parseEvents NumLib.integers [recorder] [] evs with
  | .ok (some _, l) => some ((news l).map Elem.ty)
  | _ => none

/-- The types of the elements it gives to their parents. -/
def givenTypes (evs : List Ev) : Option (List (Ty × Ty)) :=
  match parseEvents NumLib.integers [recorder] [] evs with
  | .ok (some _, l) => some ((adds l).map fun q => (q.1.ty, q.2.ty))
  | _ => none

/-- Events of `<Document><Schema name="N" parent="Placemark"><SimpleField name="F"/></Schema><N><F>v</F><styleUrl>#a</styleUrl>`
`<foo><description/></foo></N></Document>`. -/
def heardEvents : List Ev :=
  [.start (chars! "Document") [], .start (chars! "Schema") [(chars! "name", chars! "N"), (chars! "parent", chars! "Placemark")],
   .start (chars! "SimpleField") [(chars! "name", chars! "F")], .stop (chars! "SimpleField"), .stop (chars! "Schema"),
   .start (chars! "N") [], .start (chars! "F") [], .chars (chars! "v"), .stop (chars! "F"), .start (chars! "styleUrl") [],
   .chars (chars! "#a"), .stop (chars! "styleUrl"), .start (chars! "foo") [], .start (chars! "description") [],
   .stop (chars! "description"), .stop (chars! "foo"), .stop (chars! "N"), .stop (chars! "Document")]

/-- A document with an old-style schema and a description inside an unknown element: the hypotheses are met. -/
example : madeTypes heardEvents = some [Ty.«Document», Ty.«Schema», Ty.«SimpleField», Ty.«Placemark», Ty.«styleUrl»] ∧
    givenTypes heardEvents = some [(Ty.«Schema», Ty.«SimpleField»), (Ty.«Document», Ty.«Schema»),
      (Ty.«Placemark», Ty.«styleUrl»), (Ty.«Document», Ty.«Placemark»)] ∧
    getLinks NumLib.integers heardEvents = .ok (true, [chars! "#a"]) :=
  ⟨by decide +kernel, by decide +kernel, by decide +kernel⟩

/-- Content of `<Folder><foo><description><description/></description></foo>`
`<Placemark><styleUrl>a<description></description></styleUrl>b</Placemark></Folder>`. -/
def strayKids : List Xml :=
  [.elem (chars! "foo") [] [.elem (chars! "description") [] [.empty (chars! "description") []]],
   .elem (chars! "Placemark") [] [.elem (chars! "styleUrl") [] [.text (chars! "a"), .elem (chars! "description") [] []],
     .text (chars! "b")]]

/-- **C56 fails: `description` in unknown elements.** They put the parser out of step; the link it then collects is not
the text of the `styleUrl` but text outside of it. -/
theorem C56_description_violated :
    getLinks NumLib.integers (Xml.elem (chars! "Folder") [] strayKids).events = .ok (true, [chars! "b"]) ∧
    ((docChildren (chars! "Folder") [] strayKids).filterMap fun t => linkOf t.1 t.2) = [chars! "a"] := by
  decide +kernel

/-- Content of `<Document><Schema name="N" parent="Placemark"><SimpleField name="F"/></Schema>`
`<N><F><styleUrl>a</styleUrl></F></N></Document>`. -/
def fieldKids : List Xml :=
  [.elem (chars! "Schema") [(chars! "name", chars! "N"), (chars! "parent", chars! "Placemark")]
    [.empty (chars! "SimpleField") [(chars! "name", chars! "F")]],
   .elem (chars! "N") [] [.elem (chars! "F") [] [.elem (chars! "styleUrl") [] [.text (chars! "a")]]]]

/-- **C56 fails: a link in a field of an old-style schema.** The link collected is empty instead of the text of the
`styleUrl`. -/
theorem C56_field_violated :
    getLinks NumLib.integers (Xml.elem (chars! "Document") [] fieldKids).events = .ok (true, [[]]) := by
  decide +kernel

end Kml.Dom
