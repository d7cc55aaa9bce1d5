import Verif.Spec.MapsData
import Verif.Spec.Namespaces
import Verif.Props.Namespaces
import Verif.Props.File
import Verif.Props.Feed

/-!
# C91 Posting features
-/

namespace Kml.Dom

open Kml
open Kml.Http (Client Request)

theorem entry_types : (classOf Ty.«AtomEntry»).isSome = true ∧ (classOf Ty.«AtomContent»).isSome = true ∧
    Xsd.elementType Ty.«atomTitle» = .simple ∧ Xsd.elementType Ty.«atomSummary» = .simple ∧
    (chars! "type", AttrKind.str) ∈ (classAt Ty.«AtomContent»).reads := by decide +kernel

theorem entry_cls : classOf Ty.«AtomEntry» = some «AtomEntry».cls := rfl

theorem content_cls : classOf Ty.«AtomContent» = some «AtomContent».cls := rfl

theorem content_rules : «AtomContent».cls.rules = [] ∧ «AtomContent».cls.writes = [] := ⟨rfl, rfl⟩

theorem content_not_coordinates : Ty.«AtomContent» ≠ Ty.«coordinates» ∧ Ty.«AtomEntry» ≠ Ty.«coordinates» := by decide

theorem entry_takes (s : Str) : taker Ty.«AtomEntry» (.field Ty.«atomTitle» s) = some (.field M.«title» .str) ∧
    taker Ty.«AtomEntry» (.field Ty.«atomSummary» s) = some (.field M.«summary» .str) := ⟨rfl, rfl⟩

theorem entry_takes_content (a : Attrs) (slots : Mem → List Elem) (mis : List Elem) (unk : List Str) :
    taker Ty.«AtomEntry» (.node Ty.«AtomContent» a slots mis unk) = some (.one M.«content») := rfl

theorem entry_writes : «AtomEntry».cls.writes = [.field M.«id» Ty.«atomId», .field M.«title» Ty.«atomTitle»,
    .field M.«updated» Ty.«atomUpdated», .array M.«category_array», .array M.«link_array»,
    .field M.«summary» Ty.«atomSummary», .elem M.«content»] := rfl

theorem no_ids (a : Attrs) (slots : Mem → List Elem) (mis : List Elem) (unk : List Str) :
    (Elem.node Ty.«AtomEntry» a slots mis unk).objectId = none ∧ (Elem.node Ty.«AtomContent» a slots mis unk).objectId = none :=
  ⟨rfl, rfl⟩

theorem titles_quoted : Quotable [] := by
  refine ⟨by simp, fun _ h => ?_, fun h => ?_⟩ <;> exact absurd (List.infix_nil.1 h) (by decide)

/-- A placemark with two points that have the same id. -/
def twinMark : Elem :=
  .node Ty.«Placemark» .empty (setSlot (fun _ => []) M.«geometry» [.node Ty.«MultiGeometry» .empty
    (setSlot (fun _ => []) M.«geometry_array»
      (List.replicate 2 (.node Ty.«Point» ⟨[(chars! "id", chars! "p")], [], []⟩ (fun _ => []) [] []))) [] []]) [] []

/-- A feature `AddFeature` cannot handle. -/
example : ¬ IdsBelow twinMark := by unfold IdsBelow; decide +kernel

/-- The declarations of the first tag. -/
def declared (e : Elem) : Option (List (Str × Str)) :=
  match calls (findAndInsertXmlNamespaces e) with
  | .beginElem _ attrs :: _ => some attrs
  | _ => none

/-- **C91 fails: namespaces.** In what is posted for `<Placemark><gx:Track/></Placemark>`, and for a placemark with nothing in it, the
`Placemark` is in no namespace. -/
theorem C91_namespace_violated :
    declared (postedEntry trackMark) = some [(chars! "xmlns:atom", chars! "http://www.w3.org/2005/Atom"),
      (chars! "xmlns:gx", chars! "http://www.google.com/kml/ext/2.2")] ∧
    declared (postedEntry (newNode Ty.«Placemark»)) = some [(chars! "xmlns:atom", chars! "http://www.w3.org/2005/Atom")] := by
  constructor <;> decide +kernel

/-- A folder with a placemark with a geometry, one without and a folder. -/
def someMarks : Elem :=
  .node Ty.«Folder» .empty (setSlot (fun _ => []) M.«feature_array» [cPlacemark, newNode Ty.«Placemark»,
    .node Ty.«Folder» .empty (setSlot (fun _ => []) M.«feature_array» [trackMark]) [] []]) [] []

theorem someMarks_two : marksBelow someMarks = [cPlacemark, trackMark] := rfl

theorem someMarks_ids : IdsBelow cPlacemark ∧ IdsBelow trackMark := by
  constructor <;> (unfold IdsBelow; decide +kernel)

theorem track_has_gx : (∀ call ∈ calls trackMark, ∀ t ∈ lonePrefixed, call.tag ≠ some t) ∧
    prefixOf (Xsd.elementName trackMark.ty) = none := by constructor <;> decide +kernel

theorem point_found : ∃ r ∈ getChildElements cPlacemark true, prefixOf (Xsd.elementName r.2.ty) = none ∧ r.2.ty ∉ namespaceless :=
  ⟨([.slot M.«geometry» 0], cPoint), .head _, by decide +kernel, by decide +kernel⟩

theorem placemark_plain : (∀ call ∈ calls cPlacemark, ∀ t ∈ lonePrefixed, call.tag ≠ some t) ∧
    prefixOf (Xsd.elementName Ty.«Placemark») = none ∧ prefixOf (Xsd.elementName Ty.«north») = none :=
  ⟨by decide +kernel, by decide +kernel, by decide +kernel⟩

attribute [local irreducible] kml22Elements Xsd.tagToId classes inc dec uintSize xmlnsTable xmlNamespaces

/-- The content of the entry that is posted. -/
def postedContent (x : Elem) : Elem :=
  .node Ty.«AtomContent» ⟨[(chars! "type", kmlMimeType)], [], []⟩ (fun _ => []) [x] []

theorem postedEntry_eq (x : Elem) : postedEntry x = .node Ty.«AtomEntry» .empty
    (setSlot (setSlot (setSlot (fun _ => []) M.«title» [.field Ty.«atomTitle» (x.text M.«name»)]) M.«summary»
      [.field Ty.«atomSummary» (x.text M.«description»)]) M.«content» [postedContent x]) [] [] := rfl

theorem saved_posted (x : Elem) : saved (postedEntry x) = ([.slot M.«content» 0], postedContent x) ::
    (saved x).map fun r => (.slot M.«content» 0 :: .mis 0 :: r.1, r.2) := by
  have hc : saved (postedContent x) = (saved x).map fun r => (.mis 0 :: r.1, r.2) := by
    unfold postedContent
    rw [saved, classAt_eq content_cls, content_rules.2, if_neg content_not_coordinates.1]
    simp [savedStray]
  rw [postedEntry_eq, saved, classAt_eq entry_cls, entry_writes, if_neg content_not_coordinates.2]
  simp [Write.saves, Write.member, setSlot, savedEach, savedStray, hc, M.«category_array», M.«content», M.«title», M.«summary», M.«link_array»]

theorem ids_posted (x : Elem) : (([], postedEntry x) :: getChildElements (postedEntry x) true).filterMap (fun r => r.2.objectId) =
    (getChildElements x true).filterMap fun r => r.2.objectId := by
  show List.filterMap _ (_ :: saved (postedEntry x)) = List.filterMap _ (saved x)
  rw [saved_posted, List.filterMap_cons, List.filterMap_cons, List.filterMap_map]
  dsimp only
  rw [show (postedEntry x).objectId = none from (no_ids ..).1, show (postedContent x).objectId = none from (no_ids ..).2]
  rfl

theorem import_posted (x : Elem) : importFile (postedEntry x) true = none ↔ ¬ IdsBelow x := by
  rw [C37_refused, ids_posted]
  simp [IdsBelow]

/-- **C91, one feature.** If no two objects below a feature have the same id, `AddFeature` makes one `POST` of Atom to the given
address. -/
theorem C91_add (uri : Str) (x : Elem) (h : IdsBelow x) : ∃ r, addFeatureRequest uri x = .ok r ∧ IsAtomPost uri r := by
  unfold addFeatureRequest importedText
  cases hi : importFile (postedEntry x) true with
  | none => exact absurd h ((import_posted x).1 hi)
  | some m =>
    have hs : ∃ text, serializeToString (chars! "utf-8") (some (postedEntry x)) = .ok text := by
      unfold serializeToString serializePretty
      dsimp only
      rw [serialize_eq]
      exact ⟨_, rfl⟩
    obtain ⟨text, hs⟩ := hs
    rw [hs]
    exact ⟨_, rfl, rfl, rfl, rfl⟩

/-- **C91 fails: ids.** If two objects below the feature have the same id, a NULL pointer is used. -/
theorem C91_ids_violated (uri : Str) (x : Elem) (h : ¬ IdsBelow x) : addFeatureRequest uri x = .ub := by
  unfold addFeatureRequest importedText
  rw [(import_posted x).2 h]
  rfl

theorem text_quotable {n : NumLib} {pretty : Bool} {k : Nat} {p : Option Ty} {x : Elem} (h : Canonical n pretty k p x)
    {m : Mem} (hm : m ≠ M.«coordinates_array») : Quotable (x.text m) := by
  cases h with
  | field => exact titles_quoted
  | node _ _ _ _ _ _ _ _ h =>
    rename_i t a slots mis unk _ _ _ _ _ _ _ _ _ _
    show Quotable ((single (slots m)).getD [])
    unfold single
    split
    · rename_i t' s' heq
      have := h m (.field t' s') (by rw [heq]; exact List.mem_singleton.2 rfl)
      cases this with
      | field _ h => exact h
    · exact titles_quoted
  | text _ _ _ hq =>
    show Quotable ((single (textSlots _ m)).getD [])
    unfold textSlots setSlot
    split
    · exact hq
    · exact titles_quoted
  | points =>
    show Quotable ((single (pointSlots _ m)).getD [])
    unfold pointSlots setSlot
    rw [if_neg hm]
    exact titles_quoted

theorem canonical_posted {n : NumLib} {x : Elem} (h : Canonical n true 98 (some Ty.«AtomContent») x) :
    Canonical n true 100 none (postedEntry x) := by
  have hcontent : Canonical n true 99 (some Ty.«AtomEntry») (postedContent x) := by
    refine .node entry_types.2.1 (by decide) ⟨fun h => absurd h (by decide), fun h => absurd h (by decide)⟩ ?_
      (fun h => absurd h (by decide)) (by intro m y hy; cases hy) (fun h => absurd h (by decide)) ?_ (by intro m y hy; cases hy) ?_
      (by intro s hs; cases hs)
    · refine ⟨by unfold StdMap.Sorted; decide, StdMap.sorted_nil, StdMap.sorted_nil, ?_, (by intro e he; cases he),
        (by intro e he; cases he)⟩
      intro e he
      rw [List.mem_singleton.1 he]
      exact ⟨by unfold PlainAttr; decide, .str, entry_types.2.2.2.2, rfl⟩
    · intro y _
      unfold taker
      rw [content_cls]
      show findRule «AtomContent».cls.rules y = none
      rw [content_rules.1]
      rfl
    · intro y hy
      rw [List.mem_singleton.1 hy]
      exact h
  rw [postedEntry_eq]
  refine .node entry_types.1 (by decide) ⟨fun h => absurd h (by decide), fun h => absurd h (by decide)⟩
    (attrs_empty_canonical _ _) (fun h => absurd h (by decide)) ?_ (fun h => absurd h (by decide)) (by simp) ?_ (by simp) (by simp)
  · intro m y hy
    unfold setSlot at hy ⊢
    by_cases h1 : m = M.«content»
    · rw [if_pos h1] at hy ⊢
      rw [List.mem_singleton.1 hy]
      exact ⟨_, entry_takes_content .., h1.symm, trivial, fun _ => rfl⟩
    rw [if_neg h1] at hy ⊢
    by_cases h2 : m = M.«summary»
    · rw [if_pos h2] at hy ⊢
      rw [List.mem_singleton.1 hy]
      exact ⟨_, (entry_takes _).2, h2.symm, rfl, fun _ => rfl⟩
    rw [if_neg h2] at hy ⊢
    by_cases h3 : m = M.«title»
    · rw [if_pos h3] at hy ⊢
      rw [List.mem_singleton.1 hy]
      exact ⟨_, (entry_takes _).1, h3.symm, rfl, fun _ => rfl⟩
    rw [if_neg h3] at hy
    cases hy
  · intro m y hy
    unfold setSlot at hy
    by_cases h1 : m = M.«content»
    · rw [if_pos h1] at hy
      rw [List.mem_singleton.1 hy]
      exact hcontent
    rw [if_neg h1] at hy
    by_cases h2 : m = M.«summary»
    · rw [if_pos h2] at hy
      rw [List.mem_singleton.1 hy]
      exact .field entry_types.2.2.2.1 (text_quotable h (by decide))
    rw [if_neg h2] at hy
    by_cases h3 : m = M.«title»
    · rw [if_pos h3] at hy
      rw [List.mem_singleton.1 hy]
      exact .field entry_types.2.2.1 (text_quotable h (by decide))
    rw [if_neg h3] at hy
    cases hy

/-- **C91, the feature arrives.** For a canonical feature the text that is posted is XML, and reading it gives an entry with
exactly that feature in it.

Missing from the full property: features that are not canonical (see C30), and those with two objects with the same id
(`C91_ids_violated`). -/
theorem C91_arrives_partial (n : NumLib) (uri : Str) (x : Elem) (hf : x.isA Ty.«Feature» = true)
    (hc : Canonical n true 98 (some Ty.«AtomContent») x) (hi : IdsBelow x) :
    ∃ r, addFeatureRequest uri x = .ok r ∧ IsAtomPost uri r ∧ Carries n x r := by
  obtain ⟨text, evs, t, a, slots, mis, unk, xm, heq, hser, hread, hparse, _⟩ :=
    C79_saved_partial n (chars! "utf-8") (postedEntry x) (canonical_posted hc) rfl (content_not_coordinates.2)
  unfold addFeatureRequest importedText
  cases him : importFile (postedEntry x) true with
  | none => exact absurd hi ((import_posted x).1 him)
  | some m =>
    rw [hser]
    refine ⟨_, rfl, ⟨rfl, rfl, rfl⟩, text, evs, _, ?_, hread, hparse, ?_⟩
    · show some (_ ++ text) = _
      congr 2
    rw [postedEntry_eq] at heq
    injection heq with h1 h2 h3 h4 h5
    subst h1 h2 h3 h4 h5
    refine ⟨rfl, ?_, rfl, rfl, rfl⟩
    rw [getEntryFeature_eq]
    exact if_pos hf

theorem cPlacemark_in : Canonical NumLib.integers true 98 (some Ty.«AtomContent») cPlacemark :=
  cPlacemark_canonical_at true 95 _

example : cPlacemark.isA Ty.«Feature» = true ∧ Canonical NumLib.integers true 98 (some Ty.«AtomContent») cPlacemark ∧
    IdsBelow cPlacemark := ⟨mark_feature, cPlacemark_in, someMarks_ids.1⟩

/-! ### The tags of what is posted -/

theorem content_takes (y : Elem) : taker Ty.«AtomContent» y = none := by
  unfold taker
  rw [content_cls]
  show findRule «AtomContent».cls.rules y = none
  rw [content_rules.1]
  rfl

theorem held_posted {n : NumLib} {x : Elem} (h : Held n x) : Held n (postedEntry x) := by
  have hcontent : Held n (postedContent x) := by
    refine .node entry_types.2.1 (by decide) ?_ (by intro m y hy; cases hy) (fun y _ => content_takes y)
      (by intro m y hy; cases hy) ?_
    · refine ⟨by unfold StdMap.Sorted; decide, StdMap.sorted_nil, StdMap.sorted_nil, ?_, (by intro e he; cases he)⟩
      intro e he
      rw [List.mem_singleton.1 he]
      exact ⟨.str, entry_types.2.2.2.2, rfl⟩
    · intro y hy
      rw [List.mem_singleton.1 hy]
      exact h
  rw [postedEntry_eq]
  refine .node entry_types.1 (by decide) (attrs_empty_canonical n _).held ?_ (by intro y hy; cases hy) ?_ (by intro y hy; cases hy)
  · intro m y hy
    unfold setSlot at hy ⊢
    by_cases h1 : m = M.«content»
    · rw [if_pos h1] at hy ⊢
      rw [List.mem_singleton.1 hy]
      exact ⟨_, entry_takes_content .., h1.symm, .inr trivial, fun _ => rfl⟩
    rw [if_neg h1] at hy ⊢
    by_cases h2 : m = M.«summary»
    · rw [if_pos h2] at hy ⊢
      rw [List.mem_singleton.1 hy]
      exact ⟨_, (entry_takes _).2, h2.symm, .inr rfl, fun _ => rfl⟩
    rw [if_neg h2] at hy ⊢
    by_cases h3 : m = M.«title»
    · rw [if_pos h3] at hy ⊢
      rw [List.mem_singleton.1 hy]
      exact ⟨_, (entry_takes _).1, h3.symm, .inr rfl, fun _ => rfl⟩
    rw [if_neg h3] at hy
    cases hy
  · intro m y hy
    unfold setSlot at hy
    by_cases h1 : m = M.«content»
    · rw [if_pos h1] at hy
      rw [List.mem_singleton.1 hy]
      exact hcontent
    rw [if_neg h1] at hy
    by_cases h2 : m = M.«summary»
    · rw [if_pos h2] at hy
      rw [List.mem_singleton.1 hy]
      exact .field entry_types.2.2.2.1
    rw [if_neg h2] at hy
    by_cases h3 : m = M.«title»
    · rw [if_pos h3] at hy
      rw [List.mem_singleton.1 hy]
      exact .field entry_types.2.2.1
    rw [if_neg h3] at hy
    cases hy

theorem plain_posted {x : Elem} (h : Everywhere PlainStray x) (hp : prefixOf (Xsd.elementName x.ty) = none) :
    Everywhere PlainStray (postedEntry x) := by
  have hcontent : Everywhere PlainStray (postedContent x) := by
    refine .node ?_ (by intro m y hy; cases hy) ?_
    · intro y hy
      rw [List.mem_singleton.1 hy]
      exact hp
    · intro y hy
      rw [List.mem_singleton.1 hy]
      exact h
  rw [postedEntry_eq]
  refine .node (fun y hy => nomatch hy) ?_ (by intro y hy; cases hy)
  intro m y hy
  unfold setSlot at hy
  by_cases h1 : m = M.«content»
  · rw [if_pos h1] at hy
    rw [List.mem_singleton.1 hy]
    exact hcontent
  rw [if_neg h1] at hy
  by_cases h2 : m = M.«summary»
  · rw [if_pos h2] at hy
    rw [List.mem_singleton.1 hy]
    exact .field trivial
  rw [if_neg h2] at hy
  by_cases h3 : m = M.«title»
  · rw [if_pos h3] at hy
    rw [List.mem_singleton.1 hy]
    exact .field trivial
  rw [if_neg h3] at hy
  cases hy

theorem calls_posted {x : Elem} {c : Call} (h : c ∈ calls (postedEntry x)) :
    (∃ t ∈ [Ty.«AtomEntry», Ty.«atomTitle», Ty.«atomSummary», Ty.«AtomContent»], c.tag = some t) ∨ c.tag = none ∨ c ∈ calls x := by
  have hc : ∀ c ∈ calls (postedContent x), c.tag = some Ty.«AtomContent» ∨ c.tag = none ∨ c ∈ calls x := by
    intro c h
    unfold postedContent at h
    rw [calls, if_neg content_not_coordinates.1, classAt_eq content_cls, content_rules.2] at h
    simp only [List.flatMap_nil, List.append_nil, List.cons_append, List.nil_append, List.mem_cons, List.mem_append, callsEach,
      List.flatten_cons, List.flatten_nil, unknownCalls, List.flatMap_nil, List.not_mem_nil, or_false] at h
    rcases h with rfl | h | rfl
    · exact .inl rfl
    · exact .inr (.inr h)
    · exact .inr (.inl rfl)
  rw [postedEntry_eq, calls, if_neg content_not_coordinates.2, classAt_eq entry_cls, entry_writes] at h
  simp [Write.valueCalls, Write.mem, setSlot, callsEach, unknownCalls, M.«category_array», M.«content», M.«title», M.«summary»,
    M.«link_array», M.«id», M.«updated»] at h
  rcases h with rfl | ⟨a, ha, rfl⟩ | ⟨a, ha, rfl⟩ | ⟨a, ha, rfl⟩ | ⟨a, ha, rfl⟩ | h | rfl
  · exact .inl ⟨_, List.mem_cons_self .., rfl⟩
  · cases ha
  · exact .inl ⟨Ty.«atomTitle», by decide, rfl⟩
  · cases ha
  · exact .inl ⟨Ty.«atomSummary», by decide, rfl⟩
  · rcases hc c h with h | h | h
    · exact .inl ⟨_, by decide, h⟩
    · exact .inr (.inl h)
    · exact .inr (.inr h)
  · exact .inr (.inl rfl)

/-- **C91, namespaces.** The entry that is posted declares all prefixes of the names in it, if the feature has no prefix itself and
meets the conditions of C79; and KML is the default namespace if a KML element is found below the feature.

The full property has no such conditions (`C91_namespace_violated`). -/
theorem C91_declared_partial (n : NumLib) (x : Elem) (h : Held n x) (hp : prefixOf (Xsd.elementName x.ty) = none)
    (hn : Everywhere PlainStray x) (hl : ∀ call ∈ calls x, ∀ t ∈ lonePrefixed, call.tag ≠ some t) :
    ∃ attrs rest, calls (findAndInsertXmlNamespaces (postedEntry x)) = .beginElem Ty.«AtomEntry» attrs :: rest ∧
      (∀ call ∈ calls (findAndInsertXmlNamespaces (postedEntry x)), ∀ t p, call.tag = some t →
        prefixOf (Xsd.elementName t) = some p →
        ∃ ns, (p, ns) ∈ standardPrefixes ∧ attrs.get (chars! "xmlns:" ++ p) = some ns) ∧
      ((∃ r ∈ getChildElements x true, prefixOf (Xsd.elementName r.2.ty) = none ∧ r.2.ty ∉ namespaceless) →
        attrs.get (chars! "xmlns") = some kmlNamespace) := by
  have hlone : ∀ t ∈ lonePrefixed, t ∉ [Ty.«AtomEntry», Ty.«atomTitle», Ty.«atomSummary», Ty.«AtomContent»] := by decide
  obtain ⟨attrs, rest, h1, h2⟩ := C79_declared_partial n (postedEntry x) (held_posted h) rfl content_not_coordinates.2
    (plain_posted hn hp) (by
      intro call hcall t ht he
      rcases calls_posted hcall with ⟨t', ht', he'⟩ | he' | hc
      · rw [he] at he'
        cases he'
        exact hlone t ht ht'
      · rw [he] at he'; cases he'
      · exact hl call hc t ht he)
  refine ⟨attrs, rest, h1, h2, ?_⟩
  rintro ⟨⟨q, y⟩, hr, hy1, hy2⟩
  obtain ⟨t, a, slots, mis, unk, c, xm, rest', heq, hcl, ha, hx, _, _, h4, _, _, _, hkml, _⟩ :=
    saved_root (held_posted h) rfl content_not_coordinates.2
  rw [h4] at h1
  injection h1 with h1 _
  injection h1 with _ h1
  rw [← h1, key_self, written_xmlns hcl ha hx]
  have hfound : (Step.slot M.«content» 0 :: .mis 0 :: q, y) ∈ saved (postedEntry x) := by
    rw [saved_posted]
    exact List.mem_cons_of_mem _ (List.mem_map.2 ⟨(q, y), hr, rfl⟩)
  refine hkml ⟨y, .inr ⟨_, hfound⟩, ?_⟩
  obtain ⟨hyh, hyc⟩ := found_held (held_posted h) rfl (.inr ⟨_, hfound⟩)
  cases y with
  | field => cases hyc
  | node ty ya ys ym yu =>
    obtain ⟨c', hcy⟩ := Option.isSome_iff_exists.1 (held_classOf hyh)
    have := List.all_eq_true.1 classes_kml _ (classOf_pair hcy)
    dsimp only at this
    have hk' : prefixOf (Xsd.elementName ty) = none := hy1
    have hs' : ty ∉ namespaceless := hy2
    rw [hk', decide_eq_false hs', Option.isSome_none, Bool.or_self, Bool.false_or] at this
    exact of_decide_eq_true this

/-- A placemark with a point and a misplaced child. -/
example : Held NumLib.integers cPlacemark ∧ prefixOf (Xsd.elementName cPlacemark.ty) = none ∧ Everywhere PlainStray cPlacemark ∧
    (∀ call ∈ calls cPlacemark, ∀ t ∈ lonePrefixed, call.tag ≠ some t) ∧
    (∃ r ∈ getChildElements cPlacemark true, prefixOf (Xsd.elementName r.2.ty) = none ∧ r.2.ty ∉ namespaceless) := by
  refine ⟨cPlacemark_in.held, placemark_plain.2.1, ?_, placemark_plain.1, point_found⟩
  have hf : ∀ t s, Everywhere PlainStray (.field t s) := fun _ _ => .field trivial
  refine .node ?_ ?_ ?_
  · intro x hx
    rw [List.mem_singleton.1 hx]
    exact placemark_plain.2.2
  · intro m x hx
    unfold setSlot at hx
    split at hx
    · rw [List.mem_singleton.1 hx]
      refine .node (fun x hx => nomatch hx) ?_ (fun x hx => nomatch hx)
      intro m x hx
      unfold setSlot at hx
      split at hx
      · rw [List.mem_singleton.1 hx]
        refine .node (fun x hx => nomatch hx) ?_ (fun x hx => nomatch hx)
        intro m x hx
        unfold pointSlots setSlot at hx
        split at hx
        · rw [List.mem_singleton.1 hx]
          exact hf _ _
        · cases hx
      · cases hx
    · split at hx
      · rw [List.mem_singleton.1 hx]
        exact hf _ _
      · cases hx
  · intro x hx
    rw [List.mem_singleton.1 hx]
    exact hf _ _

/-! ### All placemarks -/

theorem postOne_ok (s : Service) (server : Server) (uri : Str) (p : Posted) {x : Elem} {r : Request}
    (h : addFeatureRequest uri x = .ok r) : s.postOne server uri p x =
      .ok ⟨p.requests ++ [r], p.count + if (server p.requests s.client r).isSome then 1 else 0⟩ := by
  unfold Service.postOne
  rw [h]
  show Outcome.ok _ = _
  split <;> rfl

theorem postLoop_spec (s : Service) (server : Server) (uri : Str) (xs : List Elem) (p : Posted)
    (h : ∀ x ∈ xs, (x.only M.«geometry»).isSome = true → IdsBelow x) :
    ∃ rs, Each (fun x r => addFeatureRequest uri x = .ok r) (xs.filter fun x => (x.only M.«geometry»).isSome) rs ∧
      s.postLoop server uri p xs = .ok ⟨p.requests ++ rs, p.count + accepted server s.client p.requests rs⟩ := by
  induction xs generalizing p with
  | nil => exact ⟨[], .nil, by simp [Service.postLoop, accepted]⟩
  | cons x xs ih =>
    unfold Service.postLoop
    by_cases hg : (x.only M.«geometry»).isSome = true
    · obtain ⟨r, hr, _⟩ := C91_add uri x (h x (List.mem_cons_self ..) hg)
      obtain ⟨rs, h1, h2⟩ := ih ⟨p.requests ++ [r], p.count + if (server p.requests s.client r).isSome then 1 else 0⟩
        fun y hy => h y (List.mem_cons_of_mem _ hy)
      refine ⟨r :: rs, by rw [List.filter_cons, if_pos hg]; exact .cons hr h1, ?_⟩
      rw [if_pos hg, postOne_ok s server uri p hr]
      show s.postLoop server uri _ xs = _
      rw [h2]
      simp only [List.append_assoc, List.singleton_append, accepted, Nat.add_assoc]
    · obtain ⟨rs, h1, h2⟩ := ih p fun y hy => h y (List.mem_cons_of_mem _ hy)
      exact ⟨rs, by rw [List.filter_cons, if_neg hg]; exact h1, by rw [if_neg hg]; exact h2⟩

theorem marks_eq (root : Elem) : ((getElementsById root Ty.«Placemark»).map (·.2)).filter
    (fun x => (x.only M.«geometry»).isSome) = marksBelow root := by
  unfold marksBelow getElementsById getChildElements
  rw [if_pos rfl]
  induction saved root with
  | nil => rfl
  | cons r l ih =>
    rw [List.filter_cons, List.filterMap_cons]
    cases h : r.2.isA Ty.«Placemark» with
    | false => simpa using ih
    | true =>
      rw [if_pos rfl, List.map_cons, List.filter_cons, Bool.true_and]
      cases h' : (r.2.only M.«geometry»).isSome with
      | false => simpa using ih
      | true => simp only [if_true]; rw [ih]

/-- **C91, all placemarks.** `PostPlacemarks` of a feature that is not a placemark itself posts, for every placemark with a geometry
below it, in their order, what `AddFeature` posts for it, and nothing else; the result is the number of posts that were accepted.

Missing from the full property: placemarks with two objects with the same id in them. -/
theorem C91_posts_partial (s : Service) (server : Server) (root : Elem) (uri : Str) (hr : root.ty ≠ Ty.«Placemark»)
    (h : ∀ x ∈ marksBelow root, IdsBelow x) :
    ∃ rs, Each (fun x r => addFeatureRequest uri x = .ok r) (marksBelow root) rs ∧
      s.postPlacemarks server root uri = .ok ⟨rs, accepted server s.client [] rs⟩ := by
  unfold Service.postPlacemarks
  rw [if_neg hr]
  obtain ⟨rs, h1, h2⟩ := postLoop_spec s server uri ((getElementsById root Ty.«Placemark»).map (·.2)) ⟨[], 0⟩ (by
    intro x hx hg
    refine h x ?_
    rw [← marks_eq]
    exact List.mem_filter.2 ⟨hx, hg⟩)
  rw [marks_eq] at h1
  refine ⟨rs, h1, ?_⟩
  rw [h2]
  simp

/-- Two placemarks are posted, and the first one is accepted. -/
example (s : Service) (uri : Str) : ∃ r1 r2, s.postPlacemarks (fun before _ _ => if before = [] then some [] else none) someMarks uri =
    .ok ⟨[r1, r2], 1⟩ ∧ IsAtomPost uri r1 := by
  obtain ⟨rs, h1, h2⟩ := C91_posts_partial s (fun before _ _ => if before = [] then some [] else none) someMarks uri
    (by decide) (by
      rw [someMarks_two]
      intro x hx
      rcases List.mem_cons.1 hx with rfl | hx
      · exact someMarks_ids.1
      · rw [List.mem_singleton.1 hx]
        exact someMarks_ids.2)
  rw [someMarks_two] at h1
  obtain ⟨r, hr, hp⟩ := C91_add uri cPlacemark someMarks_ids.1
  cases h1 with
  | cons ha h1 =>
    cases h1 with
    | cons hb h1 =>
      cases h1
      rw [hr] at ha
      cases ha
      exact ⟨_, _, h2, hp⟩

/-- **C91, a placemark.** `PostPlacemarks` of a placemark posts it, with or without a geometry; the result is 1 if the post was
accepted and otherwise 0. -/
theorem C91_single_partial (s : Service) (server : Server) (root : Elem) (uri : Str) (hr : root.ty = Ty.«Placemark»)
    (h : IdsBelow root) :
    ∃ r, addFeatureRequest uri root = .ok r ∧ s.postPlacemarks server root uri = .ok ⟨[r], accepted server s.client [] [r]⟩ := by
  obtain ⟨r, hr1, _⟩ := C91_add uri root h
  refine ⟨r, hr1, ?_⟩
  unfold Service.postPlacemarks
  rw [if_pos hr, postOne_ok s server uri ⟨[], 0⟩ hr1]
  simp [accepted]

end Kml.Dom
