import Verif.Spec.Feed
import Verif.Props.Clone
import Verif.Spec.Place
import Verif.Props.StringUtil

/-!
# C81: features of Atom feeds

`featuresOf feed` are the features in the entries of a feed, `SameText` relates elements that are written alike, and
`Pages fetch` says that the feeds of a list lead one to the next (Spec/Feed.lean).
-/

namespace Kml.Dom

open Kml
open Kml.StringUtil (stringEndsWith C08_ends_with)

/-- A feed with these entries and links. -/
def feedOf (entries links : List Elem) : Elem :=
  .node Ty.«AtomFeed» .empty
    (setSlot (setSlot (fun _ => []) M.«entry_array» entries) M.«link_array» links) [] []

/-- An entry with `cPlacemark`. -/
def markEntry : Elem := (createEntryForFeature (some cPlacemark)).getD (newNode Ty.«AtomEntry»)

theorem mark_feature : cPlacemark.isA Ty.«Feature» = true := by decide +kernel

theorem feature_not_simple : Xsd.elementType Ty.«Feature» ≠ .simple := by decide +kernel

/-- A feed for which everything below can be seen: two entries of which one has a feature. -/
example : (match getMapKml NumLib.integers (some (feedOf [newNode Ty.«AtomEntry», markEntry] [])) (some (newNode Ty.«Document»)) with
    | .ok (k, some d) => some (k, (d.items M.«feature_array»).map Elem.ty)
    | _ => none) = some (1, [Ty.«Placemark»]) := by decide +kernel

attribute [local irreducible] kml22Elements Xsd.tagToId classes

theorem having_self (e : Elem) (m : Mem) : e.having m (e.items m) = e := by
  cases e with
  | field => rfl
  | node t a slots mis unk =>
    show Elem.node t a (setSlot slots m (slots m)) mis unk = _
    congr 1
    funext i
    unfold setSlot
    split
    · rename_i h; rw [h]
    · rfl

theorem having_twice (e : Elem) (m : Mem) (l l' : List Elem) : (e.having m l).having m l' = e.having m l' := by
  cases e with
  | field => rfl
  | node t a slots mis unk =>
    show Elem.node t a (setSlot (setSlot slots m l) m l') mis unk = _
    show _ = Elem.node t a (setSlot slots m l') mis unk
    congr 1
    funext i
    unfold setSlot
    split <;> rfl

theorem having_items {e : Elem} (he : e.complex = true) (m : Mem) (l : List Elem) : (e.having m l).items m = l := by
  cases e with
  | field => cases he
  | node t a slots mis unk => exact if_pos rfl

theorem having_complex {e : Elem} (he : e.complex = true) (m : Mem) (l : List Elem) : (e.having m l).complex = true := by
  cases e with
  | field => cases he
  | node t a slots mis unk => exact he

theorem getEntryFeature_eq (e : Elem) : getEntryFeature (some e) = featureOf e := by
  unfold getEntryFeature featureOf
  cases e with
  | field => rfl
  | node t a slots mis unk =>
    show ((slots M.«content»).head?.bind _) = match (slots M.«content»).map Elem.misplaced with
      | (f :: _) :: _ => if f.isA Ty.«Feature» then some f else none
      | _ => none
    cases slots M.«content» with
    | nil => rfl
    | cons c cs =>
      show (c.misplaced.head?.bind _) = _
      rw [List.map_cons]
      cases c.misplaced with
      | nil => rfl
      | cons f fs => rfl

/-! ### Entries -/

/-- **C81, an entry for a feature** has the name of the feature as title, its description as summary, and the feature as its
feature. -/
theorem C81_entry (f : Elem) (hf : f.isA Ty.«Feature» = true) :
    ∃ e, createEntryForFeature (some f) = some e ∧ getEntryFeature (some e) = some f ∧
      e.text M.«title» = f.text M.«name» ∧ e.text M.«summary» = f.text M.«description» := by
  refine ⟨_, rfl, ?_, rfl, rfl⟩
  rw [getEntryFeature_eq]
  exact if_pos hf

example : cPlacemark.isA Ty.«Feature» = true := mark_feature

/-! ### Maps -/

theorem clone_feature {n : NumLib} {f : Elem} (h : Held n f) (hc : Everywhere Clonable f) (hf : f.isA Ty.«Feature» = true) :
    ∃ c, clone n f = .ok (some c) ∧ SameText c f ∧ c.isA Ty.«Feature» = true := by
  cases f with
  | field t s =>
    exfalso
    have ht : t = Ty.«Feature» := of_decide_eq_true hf
    subst ht
    cases h with
    | field h => exact feature_not_simple h
  | node t a sl mi un =>
    obtain ⟨e', h1, h2, h3⟩ := C35_clone_partial n _ h hc (fun _ _ h => by cases h)
    refine ⟨e', h1, ⟨h2, h3⟩, ?_⟩
    have : clone n (.node t a sl mi un) = .ok (some (copyOf (.node t a sl mi un))) := by
      unfold clone
      rw [held_copies h hc [] fun _ => ⟨_, _, _, _, _, rfl⟩]
      rfl
    rw [this] at h1
    cases h1
    rw [copyOf]
    split <;> exact hf

theorem mapLoop_spec {n : NumLib} : ∀ (es : List Elem) (count : Nat) (c : Elem), c.complex = true →
    (∀ f ∈ es.filterMap featureOf, Held n f ∧ Everywhere Clonable f) →
    ∃ copies, AllSame copies (es.filterMap featureOf) ∧ mapLoop n es count c =
      .ok (count + (es.filterMap featureOf).length,
        c.having M.«feature_array» (c.items M.«feature_array» ++ copies))
  | [], count, c, _, _ => ⟨[], .nil, by rw [List.append_nil, having_self]; rfl⟩
  | e :: es, count, c, hc, h => by
    cases hf : featureOf e with
    | none =>
      rw [List.filterMap_cons_none hf] at h ⊢
      obtain ⟨copies, h1, h2⟩ := mapLoop_spec es count c hc h
      refine ⟨copies, h1, ?_⟩
      rw [mapLoop, getEntryFeature_eq, hf]
      exact h2
    | some f =>
      rw [List.filterMap_cons_some hf] at h ⊢
      have hm : f.isA Ty.«Feature» = true := by
        unfold featureOf at hf
        split at hf
        · split at hf
          · rename_i hi; cases hf; exact hi
          · cases hf
        · cases hf
      obtain ⟨hh, hcl⟩ := h f (List.mem_cons_self ..)
      obtain ⟨f', g1, g2, g3⟩ := clone_feature hh hcl hm
      obtain ⟨copies, h1, h2⟩ := mapLoop_spec es (count + 1) (addFeature c f') (having_complex hc _ _)
        fun x hx => h x (List.mem_cons_of_mem _ hx)
      refine ⟨f' :: copies, .cons g2 h1, ?_⟩
      rw [mapLoop, getEntryFeature_eq, hf]
      dsimp only
      rw [g1, Outcome.ok_bind]
      dsimp only
      rw [if_pos g3, h2]
      unfold addFeature
      rw [having_items hc, having_twice, List.append_assoc, List.length_cons]
      congr 2
      omega

/-- **C81, maps.** The features of a feed are added to a container, as copies that are written alike, in the order of their entries
and behind the features it has; nothing else of the container changes; and the result is their number.

Missing from the full property: features that cannot be cloned (C35). -/
theorem C81_map_partial (n : NumLib) (feed container : Elem) (hc : container.complex = true)
    (h : ∀ f ∈ featuresOf feed, Held n f ∧ Everywhere Clonable f) :
    ∃ copies, AllSame copies (featuresOf feed) ∧ getMapKml n (some feed) (some container) =
      .ok ((featuresOf feed).length,
        some (container.having M.«feature_array» (container.items M.«feature_array» ++ copies))) := by
  obtain ⟨copies, h1, h2⟩ := mapLoop_spec (n := n) (feed.items M.«entry_array») 0 container hc h
  refine ⟨copies, h1, ?_⟩
  unfold getMapKml
  dsimp only
  rw [h2, Outcome.ok_bind, Nat.zero_add]
  rfl

/-- Without a feed or a container nothing happens, and the result is -1. -/
theorem C81_map_null (n : NumLib) (feed container : Option Elem) (h : feed = none ∨ container = none) :
    getMapKml n feed container = .ok (-1, container) := by
  rcases h with rfl | rfl
  · rfl
  · cases feed <;> rfl

example : featuresOf (feedOf [newNode Ty.«AtomEntry», markEntry] []) = [cPlacemark] ∧ Held NumLib.integers cPlacemark ∧
    Everywhere Clonable cPlacemark ∧ (newNode Ty.«Document»).complex = true :=
  ⟨by
    show ((feedOf [newNode Ty.«AtomEntry», markEntry] []).items M.«entry_array»).filterMap featureOf = _
    rw [show (feedOf [newNode Ty.«AtomEntry», markEntry] []).items M.«entry_array» = [newNode Ty.«AtomEntry», markEntry] from rfl,
      List.filterMap_cons_none (by rfl), List.filterMap_cons_some (show featureOf markEntry = some cPlacemark from if_pos mark_feature)]
    rfl, (cPlacemark_canonical true).held, cPlacemark_clonable.1, rfl⟩

theorem AllSame.append {a b c d : List Elem} (h : AllSame a b) (h' : AllSame c d) : AllSame (a ++ c) (b ++ d) := by
  induction h with
  | nil => exact h'
  | cons h1 _ ih => exact .cons h1 ih

theorem documentLoop_spec {n : NumLib} {fetch : Str → Option Elem} : ∀ (pages : List Elem) (feed document : Elem)
    (fuel : Nat), pages.head? = some feed → Pages fetch pages → document.complex = true → pages.length ≤ fuel →
    (∀ f ∈ pages.flatMap featuresOf, Held n f ∧ Everywhere Clonable f) →
    ∃ copies, AllSame copies (pages.flatMap featuresOf) ∧ documentLoop n fetch fuel feed document =
      some (.ok (document.having M.«feature_array» (document.items M.«feature_array» ++ copies)))
  | [], _, _, _, h, _, _, _, _ => by cases h
  | p :: ps, feed, document, fuel, h, hp, hd, hl, hh => by
    cases h
    cases fuel with
    | zero => cases hl
    | succ fuel =>
      rw [List.flatMap_cons] at hh ⊢
      obtain ⟨copies, h1, h2⟩ := C81_map_partial n p document hd fun f hf => hh f (List.mem_append.2 (.inl hf))
      rw [documentLoop, h2]
      dsimp only
      rw [Option.getD_some]
      cases ps with
      | nil =>
        have hn : (findRelUrl p (chars! "next")).bind fetch = none := hp
        rw [hn]
        exact ⟨copies, by rw [List.flatMap_nil, List.append_nil]; exact h1, rfl⟩
      | cons q qs =>
        have hn : (findRelUrl p (chars! "next")).bind fetch = some q := hp.1
        rw [hn]
        obtain ⟨more, g1, g2⟩ := documentLoop_spec (q :: qs) q
          (document.having M.«feature_array» (document.items M.«feature_array» ++ copies)) fuel rfl hp.2
          (having_complex hd _ _) (Nat.le_of_succ_le_succ hl) fun f hf => hh f (List.mem_append.2 (.inr hf))
        refine ⟨copies ++ more, h1.append g1, ?_⟩
        dsimp only
        rw [g2, having_items hd, having_twice, List.append_assoc]

/-- **C81, all pages.** If a feed is the first of a finite number of pages, following the links to the next page ends, and the
document has copies of the features of all pages, in order, and nothing else.

Missing from the full property: features that cannot be cloned (C35), and feeds whose pages lead back to a page before,
for which it never ends (`C81_endless_violated`). -/
theorem C81_pages_partial (n : NumLib) (fetch : Str → Option Elem) (feed : Elem) (pages : List Elem)
    (hp : Pages fetch (feed :: pages))
    (h : ∀ f ∈ (feed :: pages).flatMap featuresOf, Held n f ∧ Everywhere Clonable f) (fuel : Nat)
    (hf : pages.length < fuel) :
    ∃ copies, AllSame copies ((feed :: pages).flatMap featuresOf) ∧
      createDocumentOfMapFeatures n fetch fuel (some feed) =
        some (.ok (some ((newNode Ty.«Document»).having M.«feature_array» copies))) := by
  obtain ⟨copies, h1, h2⟩ := documentLoop_spec (n := n) (feed :: pages) feed (newNode Ty.«Document») fuel rfl hp rfl hf h
  refine ⟨copies, h1, ?_⟩
  unfold createDocumentOfMapFeatures
  dsimp only
  rw [h2]
  rfl

theorem C81_pages_null (n : NumLib) (fetch : Str → Option Elem) (fuel : Nat) :
    createDocumentOfMapFeatures n fetch fuel none = some (.ok none) := rfl

/-- A link to the next page. -/
def nextLink : Elem := createBasicLink (chars! "u") (chars! "next") []

theorem nextLink_found (es : List Elem) : findRelUrl (feedOf es [nextLink]) (chars! "next") = some (chars! "u") := by
  rfl

/-- Two pages. -/
example : Pages (fun _ => some (feedOf [] [])) [feedOf [markEntry] [nextLink], feedOf [] []] := by
  refine ⟨?_, ?_⟩
  · rw [nextLink_found]; rfl
  · rfl

/-- **C81 fails: pages in a circle.** If the link to the next page of a feed leads to the feed itself, building the document
never ends, whatever the number of steps. -/
theorem C81_endless_violated (n : NumLib) (fuel : Nat) :
    createDocumentOfMapFeatures n (fun _ => some (feedOf [] [nextLink])) fuel (some (feedOf [] [nextLink])) = none := by
  have key : ∀ fuel d, documentLoop n (fun _ => some (feedOf [] [nextLink])) fuel (feedOf [] [nextLink]) d = none := by
    intro fuel
    induction fuel with
    | zero => intro d; rfl
    | succ fuel ih =>
      intro d
      rw [documentLoop, nextLink_found]
      exact ih d
  unfold createDocumentOfMapFeatures
  dsimp only
  rw [key]
  rfl

/-! ### Without copies -/

theorem foldl_features (es : List Elem) : ∀ c : Elem, c.complex = true →
    es.foldl (fun c e => match cloneEntryFeature e with
      | none => c
      | some f => addFeature c f) c =
      c.having M.«feature_array» (c.items M.«feature_array» ++ es.filterMap cloneEntryFeature) := by
  induction es with
  | nil => intro c _; rw [List.filterMap_nil, List.append_nil, having_self]; rfl
  | cons e es ih =>
    intro c hc
    rw [List.foldl_cons]
    cases hf : cloneEntryFeature e with
    | none => rw [List.filterMap_cons_none hf]; exact ih c hc
    | some f =>
      rw [List.filterMap_cons_some hf]
      dsimp only
      refine (ih _ (having_complex hc M.«feature_array» (c.items M.«feature_array» ++ [f]))).trans ?_
      rw [having_items hc, having_twice, List.append_assoc]
      rfl

/-- **C81, features of a feed.** `GetFeedFeatures` adds to a container the feature of each entry that has one, in order; each is
the feature of the entry as it is, except that its `atom:link` is one to the address of the entry, if the entry has
one. -/
theorem C81_feed (feed container : Elem) (hc : container.complex = true) :
    ∃ features, getFeedFeatures feed container =
        container.having M.«feature_array» (container.items M.«feature_array» ++ features) ∧
      features.length = (featuresOf feed).length ∧
      features = (feed.items M.«entry_array»).filterMap fun e => (featureOf e).map fun f =>
        match findRelUrl e (chars! "self") with
        | none => f
        | some href => f.having M.«atomlink»
            [.node Ty.«AtomLink» ⟨[(chars! "href", href)], [], []⟩ (fun _ => []) [] []] := by
  refine ⟨(feed.items M.«entry_array»).filterMap cloneEntryFeature, foldl_features _ container hc, ?_, ?_⟩
  · unfold featuresOf
    generalize feed.items M.«entry_array» = es
    induction es with
    | nil => rfl
    | cons e es ih =>
      cases hf : featureOf e with
      | none =>
        rw [List.filterMap_cons_none hf, List.filterMap_cons_none]
        · exact ih
        · unfold cloneEntryFeature; rw [getEntryFeature_eq, hf]; rfl
      | some f =>
        have hg : ∃ g, cloneEntryFeature e = some g := by
          unfold cloneEntryFeature; rw [getEntryFeature_eq, hf]; exact ⟨_, rfl⟩
        obtain ⟨g, hg⟩ := hg
        rw [List.filterMap_cons_some hf, List.filterMap_cons_some hg, List.length_cons, List.length_cons, ih]
  · congr 1
    funext e
    unfold cloneEntryFeature
    rw [getEntryFeature_eq]
    rfl

/-! ### Searching -/

theorem firstIn_find {l : List Elem} {p : Elem → Bool} {P : Elem → Prop} (h : ∀ x, p x = true ↔ P x) {x : Elem} :
    l.find? p = some x ↔ FirstIn l P x := by
  rw [List.find?_eq_some_iff_append]
  constructor
  · rintro ⟨hx, as, bs, rfl, ha⟩
    refine ⟨as, bs, rfl, (h x).1 hx, fun y hy hp => ?_⟩
    have := ha y hy
    rw [(h y).2 hp] at this
    cases this
  · rintro ⟨as, bs, rfl, hx, ha⟩
    refine ⟨(h x).2 hx, as, bs, rfl, fun y hy => ?_⟩
    cases hp : p y with
    | false => rfl
    | true => exact absurd ((h y).1 hp) (ha y hy)

theorem linkIsOfRel_iff (l : Elem) (rel : Str) : linkIsOfRel l rel = true ↔
    rel ≠ [] ∧ ∃ r, l.attribute (chars! "rel") = some r ∧ rel <:+ r := by
  unfold linkIsOfRel
  rw [Bool.and_eq_true, C08_ends_with]
  constructor
  · rintro ⟨_, h1, h2, h3⟩
    refine ⟨h2, ?_⟩
    cases hr : l.attribute (chars! "rel") with
    | none => rw [hr] at h1; exact absurd rfl h1
    | some r => rw [hr] at h3; exact ⟨r, rfl, h3⟩
  · rintro ⟨h1, r, h2, h3⟩
    rw [h2]
    refine ⟨?_, ?_, h1, h3⟩
    · cases rel with
      | nil => exact absurd rfl h1
      | cons => rfl
    · rintro h
      rw [Option.getD_some] at h
      rw [h, List.suffix_nil] at h3
      exact h1 h3

/-- **C81, addresses.** The address of a kind is that of the first link that has one and whose relation ends in that kind; if
there is none, none is found. -/
theorem C81_address (common : Elem) (rel href : Str) : findRelUrl common rel = some href ↔
    ∃ link, FirstIn (common.items M.«link_array») (fun l => (∃ u, l.attribute (chars! "href") = some u) ∧ rel ≠ [] ∧
      ∃ r, l.attribute (chars! "rel") = some r ∧ rel <:+ r) link ∧ link.attribute (chars! "href") = some href := by
  unfold findRelUrl
  rw [Option.bind_eq_some_iff]
  have key : ∀ l : Elem, ((l.attribute (chars! "href")).isSome && linkIsOfRel l rel) = true ↔
      (∃ u, l.attribute (chars! "href") = some u) ∧ rel ≠ [] ∧
      ∃ r, l.attribute (chars! "rel") = some r ∧ rel <:+ r := by
    intro l
    rw [Bool.and_eq_true, linkIsOfRel_iff, Option.isSome_iff_exists]
  constructor
  · rintro ⟨l, h1, h2⟩
    exact ⟨l, (firstIn_find key).1 h1, h2⟩
  · rintro ⟨l, h1, h2⟩
    exact ⟨l, (firstIn_find key).2 h1, h2⟩

/-- **C81, links.** The same for links of a kind and a MIME type; a link without type has the empty one. -/
theorem C81_link (common : Elem) (rel mime : Str) (link : Elem) : findLink common rel mime = some link ↔
    FirstIn (common.items M.«link_array») (fun l => (rel ≠ [] ∧ ∃ r, l.attribute (chars! "rel") = some r ∧ rel <:+ r) ∧
      (l.attribute (chars! "type")).getD [] = mime) link := by
  refine firstIn_find fun l => ?_
  rw [Bool.and_eq_true, linkIsOfRel_iff, decide_eq_true_iff]

/-- **C81, categories.** The category of a scheme is the first one whose scheme ends in it. -/
theorem C81_category (common : Elem) (scheme : Str) (category : Elem) :
    findCategoryByScheme common scheme = some category ↔
    FirstIn (common.items M.«category_array») (fun c => scheme ≠ [] ∧
      ∃ s, c.attribute (chars! "scheme") = some s ∧ scheme <:+ s) category := by
  refine firstIn_find fun c => ?_
  cases hs : c.attribute (chars! "scheme") with
  | none => exact ⟨(fun h => nomatch h), fun ⟨_, _, h, _⟩ => nomatch h⟩
  | some s =>
    dsimp only
    rw [C08_ends_with]
    constructor
    · rintro ⟨_, h2, h3⟩; exact ⟨h2, s, rfl, h3⟩
    · rintro ⟨h1, s', h2, h3⟩
      cases h2
      refine ⟨?_, h1, h3⟩
      rintro rfl
      exact h1 (List.suffix_nil.1 h3)

/-- **C81, titles.** The entry of a title is the first one with exactly that title. -/
theorem C81_title (feed : Elem) (title : Str) (entry : Elem) : findEntryByTitle feed title = some entry ↔
    FirstIn (feed.items M.«entry_array») (fun e => e.text M.«title» = title) entry :=
  firstIn_find fun _ => decide_eq_true_iff

example : findRelUrl (feedOf [] [createBasicLink (chars! "a") (chars! "alternate") [],
    createBasicLink (chars! "b") (chars! "http://x#feed") [], createBasicLink (chars! "c") (chars! "y#feed") []])
    (chars! "#feed") = some (chars! "b") := by decide +kernel

/-! ### Resource ids -/

theorem find_behind {a b c : Str} {x : Char} (h : x ∉ b) :
    find (a ++ b ++ x :: c) [x] a.length = some (a.length + b.length) := by
  unfold find
  rw [if_pos (by simp only [List.length_append]; omega), List.append_assoc, List.drop_left]
  have := findFrom_fresh (pat := []) (b := c) h
  rw [List.append_assoc] at this
  rw [show b ++ x :: c = b ++ ([x] ++ c) from rfl, this, Option.map_some, Nat.add_comm]

/-- **C81, resource ids.** A child `<namespace|resourceId>id</namespace|resourceId>`, as the parser with namespaces keeps what it
does not know, gives its text as the resource id, if no unknown child before it does. -/
theorem C81_resource (ns id rest : Str) (before after : List Str) (t : Ty) (a : Attrs) (slots : Mem → List Elem)
    (mis : List Elem) (h1 : '|' ∉ ns) (h2 : '<' ∉ id)
    (hb : ∀ u ∈ before, ∀ v, hackParseElement u ≠ some (chars! "resourceId", v)) :
    getGdResourceId (.node t a slots mis
      (before ++ ('<' :: ns ++ chars! "|resourceId>" ++ id ++ chars! "</" ++ rest) :: after)) = some id := by
  have hp : hackParseElement ('<' :: ns ++ chars! "|resourceId>" ++ id ++ chars! "</" ++ rest) =
      some (chars! "resourceId", id) := by
    unfold hackParseElement
    have e1 : '<' :: ns ++ chars! "|resourceId>" ++ id ++ chars! "</" ++ rest =
        [] ++ ('<' :: ns) ++ '|' :: (chars! "resourceId>" ++ id ++ chars! "</" ++ rest) := by simp
    have e2 : '<' :: ns ++ chars! "|resourceId>" ++ id ++ chars! "</" ++ rest =
        ('<' :: ns ++ ['|']) ++ chars! "resourceId" ++ '>' :: (id ++ chars! "</" ++ rest) := by simp
    have e3 : '<' :: ns ++ chars! "|resourceId>" ++ id ++ chars! "</" ++ rest =
        ('<' :: ns ++ chars! "|resourceId>") ++ id ++ '<' :: ('/' :: rest) := by simp
    have f1 : find ('<' :: ns ++ chars! "|resourceId>" ++ id ++ chars! "</" ++ rest) ['|'] 0 = some (ns.length + 1) := by
      rw [e1]
      refine (find_behind (a := []) (b := '<' :: ns) (by simp [h1])).trans ?_
      simp
    have f2 : find ('<' :: ns ++ chars! "|resourceId>" ++ id ++ chars! "</" ++ rest) ['>'] (ns.length + 1 + 1) =
        some (ns.length + 12) := by
      rw [e2]
      have hl : ('<' :: ns ++ ['|']).length = ns.length + 1 + 1 := by simp
      rw [← hl]
      refine (find_behind (by decide)).trans ?_
      simp
    have f3 : find ('<' :: ns ++ chars! "|resourceId>" ++ id ++ chars! "</" ++ rest) ['<'] (ns.length + 12 + 1) =
        some (ns.length + 13 + id.length) := by
      rw [e3]
      have hl : ('<' :: ns ++ chars! "|resourceId>").length = ns.length + 12 + 1 := by simp
      rw [← hl]
      refine (find_behind h2).trans ?_
      simp
    rw [f1]
    dsimp only
    rw [f2]
    dsimp only
    rw [f3]
    dsimp only
    congr 2
    · have hl : ns.length + 1 + 1 = ('<' :: ns ++ ['|']).length := by simp
      rw [hl, e2, List.append_assoc, List.drop_left, show ns.length + 12 - (ns.length + 1) - 1 = (chars! "resourceId").length by simp,
        List.take_left]
    · have hl : ns.length + 12 + 1 = ('<' :: ns ++ chars! "|resourceId>").length := by simp
      have hk : ns.length + 13 + id.length - (ns.length + 12) - 1 = id.length := by omega
      rw [hk, hl, e3, List.append_assoc, List.drop_left, List.take_left]
  unfold getGdResourceId
  show List.findSome? _ (before ++ _ :: after) = _
  rw [List.findSome?_append, List.findSome?_eq_none_iff.2, Option.none_or, List.findSome?_cons, hp]
  · rfl
  · intro u hu
    cases hq : hackParseElement u with
    | none => rfl
    | some q =>
      obtain ⟨q1, q2⟩ := q
      dsimp only
      rw [if_neg]
      rintro rfl
      exact hb u hu q2 hq

end Kml.Dom
