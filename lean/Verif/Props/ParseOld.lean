import Verif.Model.ParseOld
import Verif.Lemmas.Find
import Verif.Lemmas.FindText
import Verif.Props.Heard

/-!
# C83 Instances of old-style schemas
-/

namespace Kml.Dom

open Kml

section

attribute [local irreducible] kml22Elements Xsd.tagToId classes inc dec uintSize

/-! ### The first end tag -/

/-- A text that ends in a character it has nowhere else is not found where it would lie over that character. -/
theorem no_overlap {c : Char} {q s r : Str} (hq : c ∉ q) {j : Nat} (hj : j ≤ s.length) (hlt : s.length - j < q.length) :
    ¬ (q ++ [c]) <+: (s ++ c :: r).drop j := by
  rintro ⟨t, ht⟩
  have h1 : ((s ++ c :: r).drop j)[s.length - j]? = some c := by
    rw [List.getElem?_drop, List.getElem?_append_right (by omega)]
    have : j + (s.length - j) - s.length = 0 := by omega
    rw [this]
    rfl
  rw [← ht, List.append_assoc, List.getElem?_append_left hlt] at h1
  exact hq (List.mem_of_getElem? h1)

theorem find_after {c : Char} {q s r : Str} (hq : c ∉ q) (hl : s.length < q.length) :
    findFrom (q ++ [c]) (s ++ c :: r) = (findFrom (q ++ [c]) r).map (· + (s.length + 1)) := by
  have key : ∀ j, (s ++ c :: r).drop (j + (s.length + 1)) = r.drop j := by
    intro j
    rw [← List.drop_drop, show (s ++ c :: r).drop j = (s ++ c :: r).drop j from rfl, List.drop_drop,
      show j + (s.length + 1) = (s ++ [c]).length + j by simp; omega, show s ++ c :: r = (s ++ [c]) ++ r by simp,
      List.drop_append]
    simp
  have early : ∀ j, j < s.length + 1 → ¬ (q ++ [c]) <+: (s ++ c :: r).drop j := fun j hj =>
    no_overlap hq (by omega) (by omega)
  rcases Option.eq_none_or_eq_some (findFrom (q ++ [c]) r) with h | ⟨i, h⟩
  · rw [h, Option.map_none, findFrom_eq_none_iff]
    intro j hj hp
    by_cases hlt : j < s.length + 1
    · exact early j hlt hp
    · have := key (j - (s.length + 1))
      rw [show j - (s.length + 1) + (s.length + 1) = j by omega] at this
      rw [this] at hp
      refine findFrom_eq_none_iff.1 h _ ?_ hp
      simp at hj
      omega
  · rw [h, Option.map_some, findFrom_eq_some_iff]
    obtain ⟨h1, h2, h3⟩ := findFrom_eq_some_iff.1 h
    refine ⟨by rw [key]; exact h1, by simp; omega, ?_⟩
    intro j hj hp
    by_cases hlt : j < s.length + 1
    · exact early j hlt hp
    · have := key (j - (s.length + 1))
      rw [show j - (s.length + 1) + (s.length + 1) = j by omega] at this
      rw [this] at hp
      exact h3 _ (by omega) hp

theorem find_first {c : Char} {q b r : Str} (hq : c ∉ q) :
    findFrom (q ++ [c]) (b ++ (q ++ [c]) ++ r) = some b.length ↔ ¬ (q ++ [c]) <:+: b := by
  rw [findFrom_eq_some_iff]
  constructor
  · rintro ⟨_, _, h⟩ ⟨x, y, rfl⟩
    refine h x.length (by simp) ?_
    rw [List.append_assoc, List.append_assoc, List.append_assoc, List.drop_left]
    exact ⟨_, rfl⟩
  · intro h
    refine ⟨by rw [List.append_assoc, List.drop_left]; exact ⟨_, rfl⟩, by simp, ?_⟩
    intro j hj hp
    by_cases hfit : j + q.length < b.length
    · apply h
      rw [List.append_assoc, List.drop_append_of_le_length (by omega)] at hp
      have : (q ++ [c]) <+: b.drop j :=
        List.prefix_of_prefix_length_le hp (List.prefix_append _ _) (by simp; omega)
      obtain ⟨t, ht⟩ := this
      exact ⟨b.take j, t, by rw [List.append_assoc, ht, List.take_append_drop]⟩
    · obtain ⟨t, ht⟩ := hp
      have h1 : ((b ++ (q ++ [c]) ++ r).drop j)[q.length]? = some c := by
        rw [← ht, List.append_assoc, List.getElem?_append_right (Nat.le_refl _), Nat.sub_self]
        rfl
      rw [List.getElem?_drop, List.append_assoc, List.getElem?_append_right (by omega), List.append_assoc,
        List.getElem?_append_left (by omega)] at h1
      exact hq (List.mem_of_getElem? h1)

theorem first_in {c : Char} : ∀ {s : Str}, c ∈ s → ∃ a b, s = a ++ c :: b ∧ c ∉ a
  | x :: s, h => by
    by_cases hx : c = x
    · exact ⟨[], s, by rw [hx]; rfl, List.not_mem_nil⟩
    · obtain ⟨a, b, rfl, ha⟩ := first_in ((List.mem_cons.1 h).resolve_left hx)
      exact ⟨x :: a, b, rfl, fun hm => (List.mem_cons.1 hm).elim hx ha⟩

/-- **C83, conversion.** A text is converted exactly if it is `<T>...</T>` with `T` the name of a schema, whatever follows;
the result is `<Placemark>...</Placemark>`.  What is between ends at the first `</T>`. -/
theorem C83_convert (input out : Str) (schemas : StdMap Elem) :
    convertOldSchema input schemas = some out ↔
      ∃ tag body rest, input = chars! "<" ++ tag ++ chars! ">" ++ body ++ (chars! "</" ++ tag ++ chars! ">") ++ rest ∧
        '>' ∉ tag ∧ (schemas.get tag).isSome = true ∧ ¬ (chars! "</" ++ tag ++ chars! ">") <:+: body ∧
        out = chars! "<Placemark>" ++ body ++ chars! "</Placemark>" := by
  have hq : ∀ {tag : Str}, '>' ∉ tag → '>' ∉ chars! "</" ++ tag := by
    intro tag h hm
    rcases List.mem_append.1 hm with hm | hm
    · revert hm; decide
    · exact h hm
  have find_gt : ∀ {tag r : Str}, '>' ∉ tag → findFrom (chars! ">") ('<' :: (tag ++ '>' :: r)) = some (tag.length + 1) := by
    intro tag r h
    exact findFrom_single (a := '<' :: tag) (fun hm => by
      rcases List.mem_cons.1 hm with hm | hm
      · revert hm; decide
      · exact h hm)
  have tag_is : ∀ {tag r : Str}, (('<' :: (tag ++ '>' :: r)).drop 1).take (tag.length + 1 - 1) = tag := by
    intro tag r
    show (tag ++ '>' :: r).take tag.length = tag
    exact List.take_left
  have run : ∀ {tag r : Str}, '>' ∉ tag → convertOldSchema ('<' :: (tag ++ '>' :: r)) schemas =
      match findFrom (chars! "</" ++ tag ++ chars! ">") r with
      | none => none
      | some i =>
        match schemas.get tag with
        | none => none
        | some _ => some (chars! "<Placemark>" ++ r.take i ++ chars! "</Placemark>") := by
    intro tag r h
    unfold convertOldSchema
    rw [if_neg (by simp), find_gt h]
    dsimp only
    rw [tag_is]
    have := find_after (c := '>') (q := chars! "</" ++ tag) (s := '<' :: tag) (r := r) (hq h) (by simp)
    rw [show '<' :: (tag ++ '>' :: r) = '<' :: tag ++ '>' :: r from rfl]
    rw [show chars! "</" ++ tag ++ chars! ">" = chars! "</" ++ tag ++ ['>'] from rfl, this]
    rcases Option.eq_none_or_eq_some (findFrom (chars! "</" ++ tag ++ ['>']) r) with hf | ⟨i, hf⟩
    · rw [hf]; rfl
    · rw [hf]
      dsimp only [Option.map_some]
      rcases Option.eq_none_or_eq_some (schemas.get tag) with hs | ⟨e, hs⟩
      · rw [hs]
      · rw [hs]
        dsimp only
        unfold substrTo
        rw [if_pos (by simp)]
        have h1 : ('<' :: tag ++ '>' :: r).drop (tag.length + 1 + 1) = r := by
          rw [show '<' :: tag ++ '>' :: r = ('<' :: tag ++ ['>']) ++ r by simp]
          exact List.drop_left' (by simp)
        rw [h1, show i + (('<' :: tag).length + 1) - (tag.length + 1 + 1) = i by simp]
  constructor
  · intro h
    have h0 := h
    unfold convertOldSchema at h
    split at h
    · cases h
    · rename_i hlt
      cases input with
      | nil => exact absurd (fun h => nomatch h) hlt
      | cons c s =>
        have hc : c = '<' := by simpa using hlt
        subst hc
        rcases Option.eq_none_or_eq_some (findFrom (chars! ">") ('<' :: s)) with hg | ⟨gt, hg⟩
        · rw [hg] at h; cases h
        · obtain ⟨a, b, hab, _, hfirst⟩ := findFrom_cut hg
          have hmem : '>' ∈ s := by
            have : '>' ∈ '<' :: s := by rw [hab]; simp
            rcases List.mem_cons.1 this with h | h
            · exact absurd h (by decide)
            · exact h
          obtain ⟨tag, r, rfl, htag⟩ := first_in hmem
          rw [run htag] at h0
          rcases Option.eq_none_or_eq_some (findFrom (chars! "</" ++ tag ++ chars! ">") r) with hf | ⟨i, hf⟩
          · rw [hf] at h0; cases h0
          · rw [hf] at h0
            dsimp only at h0
            rcases Option.eq_none_or_eq_some (schemas.get tag) with hs | ⟨e, hs⟩
            · rw [hs] at h0; cases h0
            · rw [hs] at h0
              cases h0
              obtain ⟨body, rest, hr, hlen, _⟩ := findFrom_cut hf
              refine ⟨tag, body, rest, ?_, htag, by rw [hs]; rfl, ?_, ?_⟩
              · rw [hr]; simp
              · have := find_first (c := '>') (q := chars! "</" ++ tag) (b := body) (r := rest) (hq htag)
                refine this.1 ?_
                rw [hlen, ← hf, hr]
              · have htake : r.take i = body := by
                  rw [hr, ← hlen, List.append_assoc]
                  exact List.take_left
                rw [htake]
  · rintro ⟨tag, body, rest, rfl, htag, hs, hno, rfl⟩
    have he : chars! "<" ++ tag ++ chars! ">" ++ body ++ (chars! "</" ++ tag ++ chars! ">") ++ rest =
        '<' :: (tag ++ '>' :: (body ++ (chars! "</" ++ tag ++ chars! ">") ++ rest)) := by simp
    rw [he, run htag]
    have := (find_first (c := '>') (q := chars! "</" ++ tag) (b := body) (r := rest) (hq htag)).2 hno
    rw [show chars! "</" ++ tag ++ chars! ">" = chars! "</" ++ tag ++ ['>'] from rfl, this]
    obtain ⟨e, hs⟩ := Option.isSome_iff_exists.1 hs
    dsimp only
    rw [hs, show body ++ (chars! "</" ++ tag ++ ['>']) ++ rest = body ++ ((chars! "</" ++ tag ++ ['>']) ++ rest) from
      List.append_assoc .., List.take_left]

/-- **C83, parsing.** An instance of an old-style schema gives the placemark that `<Placemark>...</Placemark>` gives, and
nothing if that is not well formed or gives no placemark; a text that is no such instance gives nothing. -/
theorem C83_parse (n : NumLib) (xml : Str → Option (List Ev)) (input : Str) (schemas : StdMap Elem) (e : Elem) :
    parseOldSchema n xml input schemas = .ok (some e) ↔
      ∃ text evs, convertOldSchema input schemas = some text ∧ xml text = some evs ∧
        parseEvents n ([] : List (Observer Unit)) () evs = .ok (some e, ()) ∧ e.ty = Ty.«Placemark» := by
  unfold parseOldSchema
  rcases Option.eq_none_or_eq_some (convertOldSchema input schemas) with hc | ⟨text, hc⟩
  · rw [hc]
    constructor
    · intro h; cases h
    · rintro ⟨_, _, h, _⟩; cases h
  · rw [hc]
    dsimp only
    rcases Option.eq_none_or_eq_some (xml text) with hx | ⟨evs, hx⟩
    · rw [hx]
      constructor
      · intro h; cases h
      · rintro ⟨_, _, h, h', _⟩
        cases h
        rw [hx] at h'
        cases h'
    · rw [hx]
      dsimp only
      constructor
      · intro h
        obtain ⟨⟨root, u⟩, h1, h2⟩ := bind_eq_ok h
        cases root with
        | none => cases h2
        | some x =>
          have h2 : Outcome.ok (if x.ty = Ty.«Placemark» then some x else none) = .ok (some e) := h2
          split at h2
          · cases h2
            exact ⟨text, evs, rfl, hx, h1, by assumption⟩
          · cases h2
      · rintro ⟨_, _, h, h', hp, ht⟩
        cases h
        rw [hx] at h'
        cases h'
        rw [hp, Outcome.ok_bind]
        show Outcome.ok (if e.ty = Ty.«Placemark» then some e else none) = _
        rw [if_pos ht]

theorem addOld_spec {n : NumLib} {xml : Str → Option (List Ev)} {schemas : StdMap Elem} {ss : List Str} {rs : List (Option Elem)}
    (h : Each (fun s r => parseOldSchema n xml s schemas = .ok r) ss rs) (t : Ty) (a : Attrs) (slots : Mem → List Elem)
    (mis : List Elem) (unk : List Str) :
    addOldSchemas n xml schemas (.node t a slots mis unk) ss =
      .ok (.node t a (setSlot slots M.«feature_array» (slots M.«feature_array» ++ rs.filterMap id)) mis unk) := by
  induction h generalizing slots with
  | nil =>
    show Outcome.ok (Elem.node t a slots mis unk) = _
    have : setSlot slots M.«feature_array» (slots M.«feature_array» ++ List.filterMap id []) = slots := by
      funext m
      unfold setSlot
      split
      · rename_i hm; subst hm; exact List.append_nil _
      · rfl
    rw [this]
  | @cons s r ss rs h1 _ ih =>
    unfold addOldSchemas
    rw [h1, Outcome.ok_bind]
    cases r with
    | none => exact ih slots
    | some p =>
      have := ih (setSlot slots M.«feature_array» (slots M.«feature_array» ++ [p]))
      refine Eq.trans this ?_
      have hs : setSlot (setSlot slots M.«feature_array» (slots M.«feature_array» ++ [p])) M.«feature_array»
            (setSlot slots M.«feature_array» (slots M.«feature_array» ++ [p]) M.«feature_array» ++ rs.filterMap id) =
          setSlot slots M.«feature_array» (slots M.«feature_array» ++ (some p :: rs).filterMap id) := by
        funext m
        unfold setSlot
        by_cases hm : m = M.«feature_array»
        · simp [hm]
        · simp [hm]
      rw [hs]

/-- **C83, containers.** When a container becomes a child, the placemarks of the instances among its unknown elements are
added behind its features, in order and each one once; nothing else in it changes.  (`rs` are the results of parsing its
unknown elements.) -/
theorem C83_added (n : NumLib) (xml : Str → Option (List Ev)) (schemas : StdMap Elem) (t : Ty) (a : Attrs)
    (slots : Mem → List Elem) (mis : List Elem) (unk : List Str) (rs : List (Option Elem))
    (hc : (Elem.node t a slots mis unk).isA Ty.«Container» = true)
    (h : Each (fun s r => parseOldSchema n xml s schemas = .ok r) unk rs) :
    ∃ slots', oldSchemaAddChild n xml schemas (.node t a slots mis unk) = .ok (.node t a slots' mis unk) ∧
      slots' M.«feature_array» = slots M.«feature_array» ++ rs.filterMap id ∧
      ∀ m, m ≠ M.«feature_array» → slots' m = slots m := by
  refine ⟨setSlot slots M.«feature_array» (slots M.«feature_array» ++ rs.filterMap id), ?_, ?_, ?_⟩
  · unfold oldSchemaAddChild
    rw [if_pos hc]
    exact addOld_spec h t a slots mis unk
  · unfold setSlot; rw [if_pos rfl]
  · intro m hm
    unfold setSlot; rw [if_neg hm]

/-- **C83, other elements** are left as they are. -/
theorem C83_other (n : NumLib) (xml : Str → Option (List Ev)) (schemas : StdMap Elem) (e : Elem)
    (hc : e.isA Ty.«Container» = false) : oldSchemaAddChild n xml schemas e = .ok e := by
  unfold oldSchemaAddChild
  rw [hc]
  rfl

/-! ### The schemas of a parse -/

/-- The name of a schema that is given to a document. -/
def schemaNamed (q : Elem × Elem) : Option Str :=
  if q.1.ty = Ty.«Document» ∧ q.2.ty = Ty.«Schema» then q.2.attribute (chars! "name") else none

def schemaStep (s : StdMap Elem) : Notice → Option (StdMap Elem)
  | .new _ => some s
  | .add p c => some (match schemaNamed (p, c) with
      | some name => s.set name c
      | none => s)

theorem schema_listens : Listens [schemaObserver] schemaStep where
  new s e := ⟨(fun h => by cases h), (fun s' h => by cases h; rfl)⟩
  fin s p c := rfl
  add s p c := by
    refine ⟨(fun h => by cases h), fun s' h => ?_⟩
    cases h
    unfold schemaObserver schemaNamed
    cases c with
    | field t text =>
      simp only [callAll, Elem.attribute]
      split <;> simp_all
    | node t a slots mis unk =>
      simp only [callAll, Elem.attribute]
      have ht : (Elem.node t a slots mis unk).ty = t := rfl
      rw [ht]
      by_cases h : p.ty = Ty.«Document» ∧ t = Ty.«Schema»
      · rw [if_pos h, if_pos h]
        cases a.known.get (chars! "name") <;> rfl
      · rw [if_neg h, if_neg h]

theorem schemaStep_isSome (s : StdMap Elem) (x : Notice) : (schemaStep s x).isSome = true := by cases x <;> rfl

theorem schema_took {l : List Notice} {s : StdMap Elem} (h : takeIn schemaStep [] l = some s) (name : Str) :
    s.get name = (((adds l).filter fun q => schemaNamed q = some name).getLast?).map (·.2) := by
  refine takeIn_inv (fun l s => s.get name = (((adds l).filter fun q => schemaNamed q = some name).getLast?).map (·.2))
    rfl ?_ h
  intro pre s x s' hs hx
  cases x with
  | new e => cases hx; rw [adds_new]; exact hs
  | add p c =>
    cases hx
    rw [adds_add, List.filter_append]
    rcases Option.eq_none_or_eq_some (schemaNamed (p, c)) with hn | ⟨k, hn⟩
    · rw [hn]
      dsimp only
      rw [hs]
      simp [hn]
    · rw [hn]
      dsimp only
      rw [StdMap.get_set]
      by_cases hk : name = k
      · subst hk
        simp [hn]
      · have : ¬ k = name := fun h => hk h.symm
        simp [hn, this, hs]

/-- **C83, schemas.** Whatever the events, collecting schemas gives the root that a parse gives without it, and the schema
for a name is the last one with that name that the parser gave to a `Document`. -/
theorem C83_schemas (n : NumLib) (evs : List Ev) (root : Option Elem) :
    ((∃ m, collectSchemas n evs = .ok (root, m)) ↔ ∃ made given, Says n evs root made given) ∧
    ∀ m made given, collectSchemas n evs = .ok (root, m) → Says n evs root made given → ∀ name,
      m.get name = ((given.filter fun q => q.1.ty = Ty.«Document» ∧ q.2.ty = Ty.«Schema» ∧
        q.2.attribute (chars! "name") = some name).getLast?).map (·.2) := by
  refine ⟨⟨?_, ?_⟩, ?_⟩
  · rintro ⟨s, h⟩
    obtain ⟨l, hl, _⟩ := ((parse_heard schema_listens schemaStep_isSome _ evs).1 _ _).1 h
    exact ⟨_, _, l, hl, rfl, rfl⟩
  · rintro ⟨_, _, l, hl, _, _⟩
    obtain ⟨s, hs⟩ := takeIn_total schemaStep_isSome [] l
    exact ⟨s, ((parse_heard schema_listens schemaStep_isSome _ evs).1 _ _).2 ⟨l, hl, hs⟩⟩
  · intro m made given h hs name
    obtain ⟨l, hl, ht⟩ := ((parse_heard schema_listens schemaStep_isSome _ evs).1 _ _).1 h
    obtain ⟨l', hl', rfl, rfl⟩ := hs
    rw [hl] at hl'
    cases hl'
    rw [schema_took ht name]
    congr 2
    refine List.filter_congr fun q _ => ?_
    rw [Bool.eq_iff_iff, decide_eq_true_eq, decide_eq_true_eq]
    unfold schemaNamed
    split
    · rename_i h2; simp [h2]
    · rename_i h2
      constructor
      · intro h; cases h
      · rintro ⟨h3, h4, _⟩; exact absurd ⟨h3, h4⟩ h2

end

/-! ## Cases -/

/-- A map with a schema `S`. -/
def schemaS : StdMap Elem := StdMap.set [] (chars! "S") (newNode Ty.«Schema»)

example : convertOldSchema (chars! "<S><name>a</name></S>\n") schemaS =
    some (chars! "<Placemark><name>a</name></Placemark>") := by decide +kernel

/-- A parser that knows one text. -/
def knowsOne (s : Str) : Option (List Ev) :=
  if s = chars! "<Placemark><name>a</name></Placemark>" then
    some [.start (chars! "Placemark") [], .start (chars! "name") [], .chars (chars! "a"), .stop (chars! "name"),
      .stop (chars! "Placemark")]
  else none

/-- A folder with two unknown elements, the second of which is an instance of `S`, gets one placemark. -/
example :
    (match oldSchemaAddChild NumLib.integers knowsOne schemaS
      (.node Ty.«Folder» .empty (fun _ => []) [] [chars! "<foo>x</foo>\n", chars! "<S><name>a</name></S>\n"]) with
    | .ok c => some (c.ty, (c.items M.«feature_array»).map (fun f => (f.ty, f.text M.«name»)), c.unknownTexts.length)
    | _ => none) = some (Ty.«Folder», [(Ty.«Placemark», chars! "a")], 2) := by
  decide +kernel

/-- Two schemas with the same name: the last one wins; a schema in a folder is not collected. -/
example :
    (match collectSchemas NumLib.integers
      [.start (chars! "Document") [], .start (chars! "Schema") [(chars! "name", chars! "S"), (chars! "id", chars! "1")],
        .stop (chars! "Schema"), .start (chars! "Schema") [(chars! "name", chars! "S"), (chars! "id", chars! "2")],
        .stop (chars! "Schema"), .start (chars! "Folder") [], .start (chars! "Schema") [(chars! "name", chars! "T")],
        .stop (chars! "Schema"), .stop (chars! "Folder"), .stop (chars! "Document")] with
    | .ok (some _, m) => some (m.map fun q => (q.1, q.2.attribute (chars! "id")))
    | _ => none) = some [(chars! "S", some (chars! "2"))] := by
  decide +kernel

/-- **C83 fails: attributes.** An instance with an attribute, `<S id="1"><name>a</name></S>`, is not converted. -/
theorem C83_attribute_violated :
    convertOldSchema (chars! "<S id=\"1\"><name>a</name></S>\n") schemaS = none := by decide +kernel

/-- **C83 fails: nested elements of the same name.** `<S><S>a</S></S>` is cut at the first end tag, so that what comes out
is not well formed. -/
theorem C83_nested_violated :
    convertOldSchema (chars! "<S><S>a</S></S>\n") schemaS = some (chars! "<Placemark><S>a</Placemark>") := by decide +kernel

end Kml.Dom
