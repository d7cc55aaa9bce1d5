import Verif.Lemmas.Counter
import Verif.Props.Heard

/-!
# C82 Counts of elements
-/

namespace Kml.Dom

open Kml

section

attribute [local irreducible] kml22Elements Xsd.tagToId classes inc dec uintSize

/-- **C82, counting changes nothing.** For every sequence of events a parse with a counter gives the root that a parse
gives without it. -/
theorem C82_watches (n : NumLib) (m : CountMap) (evs : List Ev) (root : Option Elem) :
    (∃ m', countElements n m evs = .ok (root, m')) ↔ ∃ made given, Says n evs root made given := by
  constructor
  · rintro ⟨s, h⟩
    obtain ⟨l, hl, _⟩ := ((parse_heard count_listens countStep_isSome _ evs).1 _ _).1 h
    exact ⟨_, _, l, hl, rfl, rfl⟩
  · rintro ⟨_, _, l, hl, _, _⟩
    obtain ⟨s, hs⟩ := takeIn_total countStep_isSome m l
    exact ⟨s, ((parse_heard count_listens countStep_isSome _ evs).1 _ _).2 ⟨l, hl, hs⟩⟩

/-- **C82, every parse.** Whatever the events, and whatever the map holds before, the number for each type grows by the
number of elements of that type that the parser makes, and types of which it makes none keep what they had. -/
theorem C82_count (n : NumLib) (m m' : CountMap) (evs : List Ev) (root : Option Elem) (made : List Elem)
    (given : List (Elem × Elem)) (h : countElements n m evs = .ok (root, m')) (hs : Says n evs root made given) (t : Ty) :
    m'.find t = if made.countP (fun e => e.ty = t) = 0 then m.find t
      else some ((m.find t).getD 0 + made.countP fun e => e.ty = t) := by
  obtain ⟨l, hl, ht⟩ := ((parse_heard count_listens countStep_isSome _ evs).1 _ _).1 h
  obtain ⟨l', hl', rfl, rfl⟩ := hs
  rw [hl] at hl'
  cases hl'
  exact count_took ht t

/-- **C82, documents.** After a parse into an empty map the number for a type is the number of start tags of the document
of that type; types without start tags have no number.

The full property is about every document; this leaves out old-style schemas and `description` inside unknown
elements. -/
theorem C82_document_partial (n : NumLib) (name : Str) (attrs : List (Str × Str)) (ks : List Xml)
    (hold : (Xml.elem name attrs ks).All NotOldSchema) (htame : (Xml.elem name attrs ks).Tame) (e : Elem) (m : CountMap)
    (h : countElements n [] (Xml.elem name attrs ks).events = .ok (some e, m)) (t : Ty) :
    m.find t = if (docStarts name attrs ks).countP (fun q => q.1 = t) = 0 then none
      else some ((docStarts name attrs ks).countP fun q => q.1 = t) := by
  obtain ⟨l, hl, ht⟩ := buildRoot_hears count_listens _ (buildRoot_of_parse hold htame h)
  have hty := about_types (buildRoot_about hl)
  have hc : (news l).countP (fun e => e.ty = t) = (docStarts name attrs ks).countP fun q => q.1 = t := by
    have h1 : (news l).countP (fun e => e.ty = t) = ((news l).map Elem.ty).countP fun u => u = t := by
      rw [List.countP_map]; rfl
    rw [h1, hty, List.countP_map]
    rfl
  rw [count_took ht t, hc]
  simp [CountMap.find]

theorem stats_begins (e : Elem) : (statsOf e).begins = tally isBegin (calls e) := by
  show ((calls e).foldl Stats.call Stats.init).begins = _
  rw [(stats_tally _ _).1]
  exact Nat.zero_add _

theorem stats_ends (e : Elem) : (statsOf e).ends = tally isEnd (calls e) := by
  show ((calls e).foldl Stats.call Stats.init).ends = _
  rw [(stats_tally _ _).2.1]
  exact Nat.zero_add _

theorem stats_fields (e : Elem) : (statsOf e).fields = tally isField (calls e) := by
  show ((calls e).foldl Stats.call Stats.init).fields = _
  rw [(stats_tally _ _).2.2]
  exact Nat.zero_add _

/-- **C82, tags.** While an element is written there are as many end tags as start tags, whatever the element. -/
theorem C82_balanced (e : Elem) : (statsOf e).begins = (statsOf e).ends := by
  rw [stats_begins, stats_ends]
  exact calls_balanced e

/-- **C82, what is counted.** For an element as the parser makes them, without complex elements out of place: the number of
start tags and the number of elements are the number of complex elements in it, and the number of fields is the number of
simple values in these that are set, other than colours; the number of contents is the number of pieces of text in them.

The full property is about every element and all simple values; for complex elements out of place the number of elements
is too small (`C82_misplaced_violated`), and colours are not counted (`C82_colour_violated`). -/
theorem C82_stats_partial (n : NumLib) (e : Elem) (h : Held n e) (ht : Everywhere Tidy e) (hc : e.complex = true) :
    ∃ l : List (List Step × Elem), (l.map (·.1)).Nodup ∧ (∀ p x, (p, x) ∈ l ↔ e.at p = some x ∧ x.complex = true) ∧
      (statsOf e).begins = l.length ∧ (statsOf e).elements = l.length ∧
      (statsOf e).fields = (l.map fun r => simpleOf r.2).sum ∧ (statsOf e).contents = (l.map fun r => piecesOf r.2).sum := by
  have hmem : ∀ r ∈ saved e, r.2.complex = true := fun r hr => ((mem_saved h (p := r.1) (x := r.2)).1 hr).2.1
  refine ⟨([], e) :: saved e, ?_, ?_, ?_, ?_, ?_, ?_⟩
  · rw [List.map_cons, List.nodup_cons]
    refine ⟨fun hm => ?_, saved_nodup e⟩
    obtain ⟨r, hr, h0⟩ := List.mem_map.1 hm
    exact mem_saved_ne (p := r.1) (x := r.2) hr h0
  · intro p x
    constructor
    · intro hp
      have hx : x.complex = true := by
        rcases List.mem_cons.1 hp with hp | hp
        · cases hp; exact hc
        · exact hmem _ hp
      exact ⟨(mem_visited h ht hx).1 hp, hx⟩
    · rintro ⟨hp, hx⟩
      exact (mem_visited h ht hx).2 hp
  · rw [stats_begins, tally_saved _ _ ht, own_begin ht.here, if_pos hc, List.length_cons]
    have : ((saved e).map fun r => own isBegin r.2).sum = (saved e).length := by
      have h1 : ∀ r ∈ saved e, own isBegin r.2 = 1 := fun r hr => by
        rw [own_begin (saved_tidy e ht r hr).here, if_pos (hmem r hr)]
      clear * - h1
      generalize saved e = l at h1
      induction l with
      | nil => rfl
      | cons r l ih =>
        rw [List.map_cons, List.sum_cons, h1 r (List.mem_cons_self ..), ih fun x hx => h1 x (List.mem_cons_of_mem _ hx),
          List.length_cons]
        omega
    rw [this]
    omega
  · show 1 + _ = _
    rw [List.length_cons]
    omega
  · rw [stats_fields, tally_saved _ _ ht, own_field ht.here, List.map_cons, List.sum_cons]
    rw [List.map_congr_left fun r hr => own_field (saved_tidy e ht r hr).here]
  · show ((calls e).foldl Stats.call Stats.init).contents = _
    rw [stats_pieces, tally_saved _ _ ht, own_piece ht.here, List.map_cons, List.sum_cons]
    rw [List.map_congr_left fun r hr => own_piece (saved_tidy e ht r hr).here]
    exact Nat.zero_add _

end

/-! ## Cases -/

/-- What is counted while the sample of C37 is parsed, and while a map has entries before. -/
example :
    (match countElements NumLib.integers [(Ty.«Style», 5)] sampleDoc.events with
    | .ok (some _, m) => some ([Ty.«Document», Ty.«Style», Ty.«Folder», Ty.«styleUrl», Ty.«Placemark»].map m.find)
    | _ => none) = some [some 1, some 7, some 1, some 1, none] := by
  decide +kernel

/-- What is counted while the tree of a document is written. -/
def statsIn (evs : List Ev) : Option Stats := (rootOf evs).map statsOf

/-- `<Placemark><name>a</name><open>1</open><Point><coordinates>1,2</coordinates></Point></Placemark>` -/
def countEvents : List Ev :=
  [.start (chars! "Placemark") [], .start (chars! "name") [], .chars (chars! "a"), .stop (chars! "name"),
    .start (chars! "open") [], .chars (chars! "1"), .stop (chars! "open"), .start (chars! "Point") [],
    .start (chars! "coordinates") [], .chars (chars! "1,2"), .stop (chars! "coordinates"), .stop (chars! "Point"),
    .stop (chars! "Placemark")]

/-- Its tree meets the hypotheses: three complex elements, two fields. -/
example : statsIn countEvents = some ⟨3, 3, 2, 3, 1⟩ := by decide +kernel

/-- So does the placemark of C30, with a simple element out of place. -/
example : Held NumLib.integers cPlacemark ∧ Everywhere Tidy cPlacemark ∧ statsOf cPlacemark = ⟨3, 3, 2, 3, 2⟩ :=
  ⟨(cPlacemark_canonical true).held, cPlacemark_tidy, by decide +kernel⟩

/-- **C82 fails: colours.** `<LineStyle><color>ff000000</color><width>1</width></LineStyle>` has two simple elements, but
one field is counted. -/
theorem C82_colour_violated :
    statsIn [.start (chars! "LineStyle") [], .start (chars! "color") [], .chars (chars! "ff000000"), .stop (chars! "color"),
      .start (chars! "width") [], .chars (chars! "1"), .stop (chars! "width"), .stop (chars! "LineStyle")] =
      some ⟨1, 1, 1, 1, 0⟩ := by
  decide +kernel

/-- **C82 fails: elements out of place.** `<Placemark><Folder/></Placemark>` is written with two start tags, but one
element is counted. -/
theorem C82_misplaced_violated :
    statsIn [.start (chars! "Placemark") [], .start (chars! "Folder") [], .stop (chars! "Folder"), .stop (chars! "Placemark")] =
      some ⟨2, 2, 0, 1, 0⟩ := by
  decide +kernel

end Kml.Dom
