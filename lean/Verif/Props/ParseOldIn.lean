import Verif.Spec.ParseOldIn
import Verif.Lemmas.ParseOldIn
import Verif.Props.ParseOld

/-!
# C83 Instances of old-style schemas, in a whole parse
-/

namespace Kml.Dom

open Kml Kml.Dom.Amend

section

attribute [local irreducible] kml22Elements Xsd.tagToId classes inc dec uintSize

/-- Each unknown element is converted, if all goes well. -/
theorem addOld_each {n : NumLib} {xml : Str → Option (List Ev)} {schemas : StdMap Elem} {unk : List Str} :
    ∀ {e y : Elem}, addOldSchemas n xml schemas e unk = .ok y → ∃ rs, Each (fun s r => parseOldSchema n xml s schemas = .ok r) unk rs := by
  induction unk with
  | nil => exact fun _ => ⟨[], .nil⟩
  | cons s ss ih =>
    intro e y h
    obtain ⟨r, hr, h⟩ := bind_ok.1 h
    obtain ⟨rs, h⟩ := ih h
    exact ⟨r :: rs, .cons hr h⟩

theorem addOld_field {n : NumLib} {xml : Str → Option (List Ev)} {schemas : StdMap Elem} (t : Ty) (s : Str) :
    oldSchemaAddChild n xml schemas (.field t s) = .ok (.field t s) := by
  unfold oldSchemaAddChild
  split <;> rfl

/-- What becomes of a node. -/
theorem addOld_node {n : NumLib} {xml : Str → Option (List Ev)} {schemas : StdMap Elem} {t : Ty} {a : Attrs} {slots : Mem → List Elem}
    {mis : List Elem} {unk : List Str} {y : Elem} (h : oldSchemaAddChild n xml schemas (.node t a slots mis unk) = .ok y) :
    ∃ slots' more, y = .node t a slots' mis unk ∧ (∀ m, m ≠ M.«feature_array» → slots' m = slots m) ∧
      slots' M.«feature_array» = slots M.«feature_array» ++ more ∧
      ((Elem.node t a slots mis unk).isA Ty.«Container» = true → PlacemarksOf n xml schemas unk more) ∧
      ((Elem.node t a slots mis unk).isA Ty.«Container» = false → more = []) := by
  by_cases hc : (Elem.node t a slots mis unk).isA Ty.«Container» = true
  · have h' := h
    unfold oldSchemaAddChild at h'
    rw [if_pos hc] at h'
    obtain ⟨rs, hrs⟩ := addOld_each h'
    obtain ⟨slots', h1, h2, h3⟩ := C83_added n xml schemas t a slots mis unk rs hc hrs
    rw [h1] at h
    cases h
    exact ⟨slots', _, rfl, h3, h2, fun _ => ⟨rs, hrs, rfl⟩, fun h => by rw [h] at hc; cases hc⟩
  · have hc : (Elem.node t a slots mis unk).isA Ty.«Container» = false := by simpa using hc
    rw [C83_other n xml schemas _ hc] at h
    cases h
    exact ⟨slots, [], rfl, fun _ _ => rfl, (List.append_nil _).symm, (fun h => by rw [h] at hc; cases hc), fun _ => rfl⟩

theorem addOld_amends (n : NumLib) (xml : Str → Option (List Ev)) (schemas : StdMap Elem) :
    Amends fun z y => oldSchemaAddChild n xml schemas z = .ok y where
  field t s y := by
    rw [addOld_field]
    exact ⟨fun h => by cases h; rfl, fun h => by rw [h]⟩
  node t a slots mis unk y h := by
    obtain ⟨slots', _, h, -⟩ := addOld_node h
    exact ⟨slots', h⟩
  other z hz := C83_other n xml schemas z hz

theorem at_kids {A : Elem → Elem → Prop} {l l' : List Elem} (h : Kids A l l') {i : Nat} {x : Elem} (hx : l[i]? = some x) :
    ∃ y, l'[i]? = some y ∧ Given A x y := by
  have hi : i < l.length := by
    rcases Nat.lt_or_ge i l.length with h | h
    · exact h
    · rw [List.getElem?_eq_none h] at hx; cases hx
  have hi' : i < l'.length := by rw [← h.1]; exact hi
  exact ⟨l'[i], List.getElem?_eq_getElem hi', h.2 i x _ hx (List.getElem?_eq_getElem hi')⟩

theorem turned_child {A : Elem → Elem → Prop} {e e' : Elem} (h : Turned A e e') {s : Step} {c : Elem} (hc : e.child s = some c) :
    ∃ y, e'.child s = some y ∧ Given A c y := by
  rcases turned_cases h with ⟨t, v, rfl, rfl⟩ | ⟨t, a, slots, slots', mis, mis', unk, rfl, rfl, hs, hm⟩
  · exact nomatch hc
  · cases s with
    | slot m i => exact at_kids (hs m) hc
    | mis i => exact at_kids hm hc

/-- Children stay where they are. -/
theorem addOld_child {n : NumLib} {xml : Str → Option (List Ev)} {schemas : StdMap Elem} {z y : Elem}
    (h : oldSchemaAddChild n xml schemas z = .ok y) {s : Step} {c : Elem} (hc : z.child s = some c) : y.child s = some c := by
  cases z with
  | field t v => exact nomatch hc
  | node t a slots mis unk =>
    obtain ⟨slots', more, rfl, h1, h2, -⟩ := addOld_node h
    cases s with
    | mis i => exact hc
    | slot m i =>
      show (slots' m)[i]? = some c
      have hc : (slots m)[i]? = some c := hc
      by_cases hm : m = M.«feature_array»
      · subst hm
        have hi : i < (slots M.«feature_array»).length := by
          rcases Nat.lt_or_ge i (slots M.«feature_array»).length with h | h
          · exact h
          · rw [List.getElem?_eq_none h] at hc; cases hc
        rw [h2, List.getElem?_append_left hi]
        exact hc
      · rw [h1 m hm]
        exact hc

/-- A child and what became of it, place by place. -/
theorem given_at {n : NumLib} {xml : Str → Option (List Ev)} {schemas : StdMap Elem} (p : List Step) :
    ∀ e e', Given (fun z y => oldSchemaAddChild n xml schemas z = .ok y) e e' → ∀ x, e.at p = some x →
      ∃ x' more, e'.at p = some x' ∧ Grown more x x' ∧
        (x.isA Ty.«Container» = true → PlacemarksOf n xml schemas x.unknownTexts more) ∧
        (¬ x.isA Ty.«Container» = true → more = []) := by
  induction p with
  | nil =>
    rintro e e' ⟨z, h1, h2⟩ x hx
    cases hx
    rcases turned_cases h1 with ⟨t, v, rfl, rfl⟩ | ⟨t, a, slots, slots', mis, mis', unk, rfl, rfl, hs, hm⟩
    · rw [addOld_field] at h2
      cases h2
      refine ⟨_, [], rfl, rfl, fun _ => ⟨[], .nil, rfl⟩, fun _ => rfl⟩
    · obtain ⟨slots'', more, rfl, k1, k2, k3, k4⟩ := addOld_node h2
      refine ⟨_, more, rfl, ⟨slots'', mis', rfl, hm.1.symm, ?_, ?_, ?_⟩, k3, fun h => k4 (Bool.eq_false_iff.2 h)⟩
      · intro m hne
        rw [k1 m hne, (hs m).1]
      · rw [k2, (hs _).1, List.length_append]
      · rw [k2, (hs _).1, List.drop_left]
  | cons s q ih =>
    rintro e e' ⟨z, h1, h2⟩ x hx
    obtain ⟨c, hc, hx⟩ := Option.bind_eq_some_iff.1 hx
    obtain ⟨y, hy, hg⟩ := turned_child h1 hc
    obtain ⟨x', more, k1, k2⟩ := ih c y hg x hx
    exact ⟨x', more, Option.bind_eq_some_iff.2 ⟨y, addOld_child h2 hy, k1⟩, k2⟩

theorem converted_of {n : NumLib} {xml : Str → Option (List Ev)} {schemas : StdMap Elem} {e e' : Elem}
    (h : Turned (fun z y => oldSchemaAddChild n xml schemas z = .ok y) e e') : Converted n xml schemas e e' := by
  intro p x hx
  cases p with
  | nil =>
    cases hx
    refine ⟨e', [], rfl, ?_, fun h => absurd rfl h.1, fun _ => rfl⟩
    rcases turned_cases h with ⟨t, v, rfl, rfl⟩ | ⟨t, a, slots, slots', mis, mis', unk, rfl, rfl, hs, hm⟩
    · rfl
    · exact ⟨slots', mis', rfl, hm.1.symm, fun m _ => (hs m).1.symm, (hs _).1.symm, by rw [(hs _).1]; simp⟩
  | cons s q =>
    obtain ⟨c, hc, hx⟩ := Option.bind_eq_some_iff.1 hx
    obtain ⟨y, hy, hg⟩ := turned_child h hc
    obtain ⟨x', more, k1, k2, k3, k4⟩ := given_at q c y hg x hx
    exact ⟨x', more, Option.bind_eq_some_iff.2 ⟨y, hy, k1⟩, k2, fun h => k3 h.2, fun hn => k4 fun h => hn ⟨by simp, h⟩⟩

theorem popRoot_beside {A : Elem → Elem → Prop} {h h' : Handler Unit} (hb : Beside A h h') :
    (h.popRoot = none ∧ h'.popRoot = none) ∨ ∃ e e', h.popRoot = some e ∧ h'.popRoot = some e' ∧ Turned A e e' := by
  have hs := hb.stack
  unfold Handler.popRoot
  generalize h.stack = st at *
  generalize h'.stack = st' at *
  cases hs with
  | nil => exact Or.inl ⟨rfl, rfl⟩
  | cons hx ht =>
    cases ht with
    | nil => exact Or.inr ⟨_, _, rfl, rfl, hx⟩
    | cons _ _ => exact Or.inl ⟨rfl, rfl⟩

theorem parse_sim (n : NumLib) (xml : Str → Option (List Ev)) (schemas : StdMap Elem) (evs : List Ev) :
    Sim (∀ z, ∃ y, oldSchemaAddChild n xml schemas z = .ok y)
      (fun r root' => (r.1 = none ∧ root' = none) ∨ ∃ e e', r.1 = some e ∧ root' = some e' ∧ Converted n xml schemas e e')
      (parseEvents n ([] : List (Observer Unit)) () evs) (parseConverting n xml schemas evs) := by
  refine sim_bind (run_sim (addOld_amends n xml schemas) n evs ⟨.nil, rfl, (fun d hd => nomatch hd)⟩) ?_
  intro h h' hb
  have hk : h'.stopped = h.stopped := by rw [hb.rest]
  rw [hk]
  split
  · exact sim_ok (Or.inl ⟨rfl, rfl⟩)
  · rcases popRoot_beside hb with h | ⟨e, e', h1, h2, h3⟩
    · exact sim_ok (Or.inl h)
    · exact sim_ok (Or.inr ⟨e, e', h1, h2, converted_of h3⟩)

/-- **C83, a whole parse.** If a parse with an `OldSchemaParserObserver` goes well, so does the parse without it.  They
give no root together; or the root with the observer is the one without it, except that every container below the root
has got, behind its features and in their order, the placemarks of the instances among its unknown elements. -/
theorem C83_whole (n : NumLib) (xml : Str → Option (List Ev)) (schemas : StdMap Elem) (evs : List Ev) (root' : Option Elem)
    (h : parseConverting n xml schemas evs = .ok root') :
    ∃ root, parseEvents n ([] : List (Observer Unit)) () evs = .ok (root, ()) ∧
      ((root = none ∧ root' = none) ∨ ∃ e e', root = some e ∧ root' = some e' ∧ Converted n xml schemas e e') := by
  obtain ⟨⟨root, u⟩, h1, h2⟩ := (parse_sim n xml schemas evs).1 _ h
  exact ⟨root, h1, h2⟩

/-- **C83, a whole parse goes well** if that without the observer does and converting no text is undefined. -/
theorem C83_goes_well (n : NumLib) (xml : Str → Option (List Ev)) (schemas : StdMap Elem) (evs : List Ev) (root : Option Elem)
    (hx : ∀ s, ∃ r, parseOldSchema n xml s schemas = .ok r)
    (h : parseEvents n ([] : List (Observer Unit)) () evs = .ok (root, ())) :
    ∃ root', parseConverting n xml schemas evs = .ok root' := by
  have hg : ∀ z, ∃ y, oldSchemaAddChild n xml schemas z = .ok y := by
    intro z
    unfold oldSchemaAddChild
    split
    · rename_i hc
      clear hc
      generalize z.unknownTexts = l
      induction l generalizing z with
      | nil => exact ⟨z, rfl⟩
      | cons s l ih =>
        obtain ⟨r, hr⟩ := hx s
        unfold addOldSchemas
        rw [hr]
        exact ih _
    · exact ⟨z, rfl⟩
  obtain ⟨b, hb, -⟩ := (parse_sim n xml schemas evs).2 hg _ h
  exact ⟨b, hb⟩

end

/-- The events of `<kml><Document><foo>x</foo><S><name>a</name></S></Document></kml>`; without the
`kml` if the document is to be the root. -/
def oldSchemaEvs (root : Bool) : List Ev :=
  (if root then [] else [.start (chars! "kml") []]) ++
  [.start (chars! "Document") [], .start (chars! "foo") [], .chars (chars! "x"), .stop (chars! "foo"),
    .start (chars! "S") [], .start (chars! "name") [], .chars (chars! "a"), .stop (chars! "name"), .stop (chars! "S"),
    .stop (chars! "Document")] ++
  (if root then [] else [.stop (chars! "kml")])

/-- The document in the `kml` gets its placemark. -/
example :
    (match parseConverting NumLib.integers knowsOne schemaS (oldSchemaEvs false) with
    | .ok (some e) => (e.at [.slot M.«feature» 0]).map fun d => (d.ty,
        (d.items M.«feature_array»).map (fun f => (f.ty, f.text M.«name»)), d.unknownTexts.length)
    | _ => none) = some (Ty.«Document», [(Ty.«Placemark», chars! "a")], 2) := by
  decide +kernel

/-- No text makes `ParseOldSchema` with this parser undefined. -/
example (s : Str) : ∃ r, parseOldSchema NumLib.integers knowsOne s schemaS = .ok r := by
  unfold parseOldSchema
  split
  · exact ⟨_, rfl⟩
  · unfold knowsOne
    split
    · exact ⟨_, rfl⟩
    · rename_i h
      split at h
      · cases h
        have : (match parseEvents NumLib.integers ([] : List (Observer Unit)) () [.start (chars! "Placemark") [], .start (chars! "name") [],
            .chars (chars! "a"), .stop (chars! "name"), .stop (chars! "Placemark")] with | .ok _ => true | _ => false) = true := by
          decide +kernel
        split at this
        · rename_i h
          rw [h]
          exact ⟨_, rfl⟩
        · cases this
      · cases h

/-- **C83 fails for the root.** `AddChild` is not called for the root, so that the instances in a document that is the
root itself are not converted. -/
theorem C83_root_violated :
    (match parseConverting NumLib.integers knowsOne schemaS (oldSchemaEvs true) with
    | .ok (some d) => some (d.ty, d.unknownTexts, (d.items M.«feature_array»).length)
    | _ => none) = some (Ty.«Document», [chars! "<foo>x</foo>\n", chars! "<S><name>a</name></S>\n"], 0) := by
  decide +kernel

end Kml.Dom
