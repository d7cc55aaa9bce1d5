import Verif.Lemmas.HeldValues
import Verif.Lemmas.SafeBuild
import Verif.Model.Handler

/-! Every element the parser makes is held. -/

set_option linter.unusedVariables false

namespace Kml.Dom

open Kml
open Kml.Attributes (Attributes)

theorem classOf_iconStyleIcon : (classOf Ty.«IconStyleIcon»).isSome = true := by decide +kernel
theorem iconStyleIcon_not_textual : textual Ty.«IconStyleIcon» = false := by decide
theorem schema_id : (chars! "id", AttrKind.str) ∈ (classAt Ty.«Schema»).reads := by decide +kernel
theorem simpleData_name : (chars! "name", AttrKind.str) ∈ (classAt Ty.«SimpleData»).reads := by decide +kernel
theorem schemaData_url : (chars! "schemaUrl", AttrKind.str) ∈ (classAt Ty.«SchemaData»).reads := by decide +kernel
theorem old_schema_types : (classOf Ty.«Schema»).isSome = true ∧ (classOf Ty.«SchemaData»).isSome = true ∧
    (classOf Ty.«ExtendedData»).isSome = true ∧ textual Ty.«Schema» = false ∧ textual Ty.«SchemaData» = false ∧
    textual Ty.«ExtendedData» = false ∧ textual Ty.«Placemark» = false ∧ Ty.«Schema» ≠ Ty.«coordinates» := by decide +kernel
theorem takes_simpleData (a : Attrs) (sl : Mem → List Elem) (mi : List Elem) (un : List Str) :
    taker Ty.«SchemaData» (.node Ty.«SimpleData» a sl mi un) = some (.many M.«simpledata_array») := rfl
theorem takes_schemaData (a : Attrs) (sl : Mem → List Elem) (mi : List Elem) (un : List Str) :
    taker Ty.«ExtendedData» (.node Ty.«SchemaData» a sl mi un) = some (.many M.«schemadata_array») := rfl
theorem takes_extendedData (a : Attrs) (sl : Mem → List Elem) (mi : List Elem) (un : List Str) :
    taker Ty.«Placemark» (.node Ty.«ExtendedData» a sl mi un) = some (.one M.«extendeddata») := rfl

attribute [local irreducible] kml22Elements Xsd.tagToId classes inc dec uintSize

/-- Two elements of the same type, both simple or both not, are taken by the same branch. -/
theorem taker_field (t t' : Ty) (s s' : Str) : taker t (.field t' s) = taker t (.field t' s') := rfl

/-- A node's type and that it is not simple decide which branch takes it. -/
theorem taker_node (t t' : Ty) (a a' : Attrs) (sl sl' : Mem → List Elem) (mi mi' : List Elem) (un un' : List Str) :
    taker t (.node t' a sl mi un) = taker t (.node t' a' sl' mi' un') := rfl

theorem Held.proper {n : NumLib} {e : Elem} (h : Held n e) : Proper e := by
  cases h with
  | field h => exact h
  | node h => exact h
  | text h => rcases h with rfl | rfl | rfl <;> simp [Proper, classOf_snippet, classOf_linkSnippet, classOf_simpleData]
  | points h => simp [Proper, classOf_coordinates]

/-- The values of the table. -/
theorem taker_plain {t : Ty} {x : Elem} {act : Act} (h : taker t x = some act) : act.plain = true := by
  obtain ⟨c, test, _, hmem, _, hr, _⟩ := taker_rule h
  have hd := List.all_eq_true.1 classes_defaults _ hmem
  simp only [Bool.and_eq_true, List.all_eq_true] at hd
  exact hd.1 _ hr

/-- The contents of the members of an element that is held. -/
def HeldSlots (n : NumLib) (t : Ty) (slots : Mem → List Elem) : Prop :=
  ∀ m, ∀ x ∈ slots m, ∃ act, taker t x = some act ∧ act.mem = m ∧
    (act.isCdata = true ∧ (∃ t' s, x = .field t' s) ∨ Settled n act x) ∧ (act.isArray = false → slots m = [x])

theorem value_kind {n : NumLib} {k : Kind} {t : Ty} {old : Option Str} {text v : Str} {act : Act} {m : Mem}
    (hact : act = .field m k ∨ act = .fields m k) (hp : k.plain = true)
    (hold : k ≠ .cdata → ∀ o, old = some o → ∃ t', readValue n k t' none o = .ok (some o))
    (hv : readValue n k t old text = .ok (some v)) :
    (act.isCdata = true ∧ (∃ t' s, Elem.field t v = .field t' s)) ∨ Settled n act (.field t v) := by
  by_cases hk : k = .cdata
  · subst hk
    left
    refine ⟨?_, t, v, rfl⟩
    rcases hact with rfl | rfl <;> rfl
  · right
    have := readValue_again hp hk (hold hk) hv
    rcases hact with rfl | rfl <;> exact this

/-- Adding a child to an element whose members are held. -/
theorem heldSlots_add {n : NumLib} {t : Ty} {cd : Str} {slots : Mem → List Elem} {child : Elem} {act : Act} {v : List Elem}
    (htext : textual t = false) (hs : HeldSlots n t slots) (hc : Held n child) (ht : taker t child = some act)
    (hv : act.value n cd (slots act.mem) child = .ok v) :
    HeldSlots n t (setSlot slots act.mem v) ∧ ∀ x ∈ v, x ∈ slots act.mem ∨ Held n x := by
  have keep : ∀ m, m ≠ act.mem → ∀ x ∈ setSlot slots act.mem v m, ∃ act', taker t x = some act' ∧ act'.mem = m ∧
      (act'.isCdata = true ∧ (∃ t' s, x = .field t' s) ∨ Settled n act' x) ∧
      (act'.isArray = false → setSlot slots act.mem v m = [x]) := by
    intro m hm x hx
    have he : setSlot slots act.mem v m = slots m := if_neg hm
    rw [he] at hx ⊢
    exact hs m x hx
  have hself : setSlot slots act.mem v act.mem = v := if_pos rfl
  have old : ∀ x ∈ slots act.mem, taker t x = some act ∧
      (act.isCdata = true ∧ (∃ t' s, x = .field t' s) ∨ Settled n act x) := by
    intro x hx
    obtain ⟨act', h1, h2, h3, _⟩ := hs _ x hx
    have := taker_same ht h1 h2.symm
    subst this
    exact ⟨h1, h3⟩
  suffices hnew : (∀ x ∈ v, taker t x = some act ∧
      (act.isCdata = true ∧ (∃ t' s, x = .field t' s) ∨ Settled n act x) ∧ (act.isArray = false → v = [x])) ∧
      ∀ x ∈ v, x ∈ slots act.mem ∨ Held n x by
    refine ⟨fun m x hx => ?_, hnew.2⟩
    by_cases hm : m = act.mem
    · subst hm
      rw [hself] at hx ⊢
      obtain ⟨h1, h2, h3⟩ := hnew.1 x hx
      exact ⟨act, h1, rfl, h2, h3⟩
    · exact keep m hm x hx
  have hplain := taker_plain ht
  have hrule := taker_rule ht
  obtain ⟨c, test, hcls, hmem, _, hr, hmatch⟩ := hrule
  cases act with
  | field m k =>
    obtain ⟨ct, text, rfl, _⟩ := field_child hc.proper hmem hr hmatch (.inl ⟨m, k, rfl⟩)
    simp only [Act.value, Act.mem] at hv
    cases hrv : readValue n k ct (single (slots m)) text with
    | ok o =>
      rw [hrv] at hv
      simp only [Outcome.ok_bind, Outcome.ok.injEq] at hv
      subst hv
      cases o with
      | none => exact ⟨(by intro x hx; cases hx), (by intro x hx; cases hx)⟩
      | some s =>
        have hheld : Held n (.field ct s) := by
          cases hc with
          | field h => exact .field h
        refine ⟨fun x hx => ?_, fun x hx => .inr ?_⟩
        · simp only [Option.map_some, Option.toList_some, List.mem_singleton] at hx
          subst hx
          refine ⟨by rw [taker_field t ct s text]; exact ht, ?_, fun _ => rfl⟩
          refine value_kind (.inl rfl) hplain ?_ hrv
          intro hk o ho
          cases hsl : slots m with
          | nil => rw [hsl] at ho; cases ho
          | cons y ys =>
            have hy := old y (by show y ∈ slots m; rw [hsl]; simp)
            cases ys with
            | cons _ _ => rw [hsl] at ho; cases y <;> simp [single] at ho
            | nil =>
              rw [hsl] at ho
              cases y with
              | node => cases ho
              | field ty s' =>
                simp only [single, Option.some.injEq] at ho
                subst ho
                rcases hy.2 with ⟨hcd, _⟩ | hset
                · cases k <;> first | exact absurd rfl hk | cases hcd
                · exact ⟨ty, hset⟩
        · simp only [Option.map_some, Option.toList_some, List.mem_singleton] at hx
          subst hx
          exact hheld
    | throws => rw [hrv] at hv; cases hv
    | ub => rw [hrv] at hv; cases hv
  | fields m k =>
    obtain ⟨ct, text, rfl, _⟩ := field_child hc.proper hmem hr hmatch (.inr ⟨m, k, rfl⟩)
    simp only [Act.value, Act.mem] at hv
    cases hrv : readValue n k ct none text with
    | ok o =>
      rw [hrv] at hv
      simp only [Outcome.ok_bind, Outcome.ok.injEq] at hv
      subst hv
      have hheld : ∀ s, Held n (.field ct s) := by
        intro s
        cases hc with
        | field h => exact .field h
      refine ⟨fun x hx => ?_, fun x hx => ?_⟩
      · rcases List.mem_append.1 hx with hx | hx
        · exact ⟨(old x hx).1, (old x hx).2, fun h => by cases h⟩
        · cases o with
          | none => cases hx
          | some s =>
            simp only [Option.map_some, Option.toList_some, List.mem_singleton] at hx
            subst hx
            refine ⟨by rw [taker_field t ct s text]; exact ht, ?_, fun h => by cases h⟩
            exact value_kind (.inr rfl) hplain (fun _ o ho => by cases ho) hrv
      · rcases List.mem_append.1 hx with hx | hx
        · exact .inl hx
        · cases o with
          | none => cases hx
          | some s =>
            simp only [Option.map_some, Option.toList_some, List.mem_singleton] at hx
            subst hx
            exact .inr (hheld s)
    | throws => rw [hrv] at hv; cases hv
    | ub => rw [hrv] at hv; cases hv
  | one m =>
    simp only [Act.value, Outcome.ok.injEq] at hv
    subst hv
    refine ⟨fun x hx => ?_, fun x hx => ?_⟩
    · rw [List.mem_singleton] at hx
      subst hx
      exact ⟨ht, .inr trivial, fun _ => rfl⟩
    · rw [List.mem_singleton] at hx
      subst hx
      exact .inr hc
  | many m =>
    simp only [Act.value, Outcome.ok.injEq] at hv
    subst hv
    refine ⟨fun x hx => ?_, fun x hx => ?_⟩
    · rcases List.mem_append.1 hx with hx | hx
      · exact ⟨(old x hx).1, (old x hx).2, fun h => by cases h⟩
      · rw [List.mem_singleton] at hx
        subst hx
        exact ⟨ht, .inr trivial, fun h => by cases h⟩
    · rcases List.mem_append.1 hx with hx | hx
      · exact .inl hx
      · rw [List.mem_singleton] at hx
        subst hx
        exact .inr hc
  | selfText m =>
    have := List.all_eq_true.1 (List.all_eq_true.1 classes_self _ hmem) _ hr
    rw [htext] at this
    cases this
  | selfPoints m =>
    have := List.all_eq_true.1 (List.all_eq_true.1 classes_self _ hmem) _ hr
    rw [htext] at this
    cases this

/-- The rules of the elements with text. -/
theorem taker_text {t : Ty} (ht : t = Ty.«Snippet» ∨ t = Ty.«linkSnippet» ∨ t = Ty.«SimpleData») {x : Elem} {act : Act}
    (h : taker t x = some act) : act = .selfText M.«text» := by
  obtain ⟨c, test, hc, _, _, hr, _⟩ := taker_rule h
  rcases ht with rfl | rfl | rfl
  · rw [classOf_snippet] at hc
    cases hc
    simp only [Snippet.cls, SnippetCommon.rules, List.mem_cons, List.not_mem_nil, or_false, Prod.mk.injEq] at hr
    exact hr.2
  · rw [classOf_linkSnippet] at hc
    cases hc
    simp only [LinkSnippet.cls, SnippetCommon.rules, List.mem_cons, List.not_mem_nil, or_false, Prod.mk.injEq] at hr
    exact hr.2
  · rw [classOf_simpleData] at hc
    cases hc
    simp only [SimpleData.cls, SimpleData.rules, List.mem_cons, List.not_mem_nil, or_false, Prod.mk.injEq] at hr
    exact hr.2

theorem taker_coordinates (x : Elem) : taker Ty.«coordinates» x = some (.selfPoints M.«coordinates_array») := by
  unfold taker
  rw [classOf_coordinates]
  rfl

theorem setSlot_textSlots (slots : Mem → List Elem) (s : Str) (h : (slots = fun _ => []) ∨ ∃ s, slots = textSlots s) :
    setSlot slots M.«text» [.field Ty.Unknown s] = textSlots s := by
  rcases h with rfl | ⟨s', rfl⟩
  · rfl
  · funext m
    unfold textSlots setSlot
    split <;> rfl

/-- Adding a child to an element that is held gives one that is held. -/
theorem addElement_held {n : NumLib} {cd : Str} {p c r : Elem} (hp : Held n p) (hc : Held n c)
    (h : addElement n cd p c = .ok r) : Held n r := by
  cases hp with
  | field hs => cases h; exact .field hs
  | node hcls htext ha hslots hmis hk hm =>
    rcases addElement_node h with ⟨ht, rfl⟩ | ⟨act, v, ht, hv, rfl⟩
    · refine .node hcls htext ha hslots ?_ hk ?_
      · intro x hx
        rcases List.mem_append.1 hx with hx | hx
        · exact hmis x hx
        · rw [List.mem_singleton] at hx; subst hx; exact ht
      · intro x hx
        rcases List.mem_append.1 hx with hx | hx
        · exact hm x hx
        · rw [List.mem_singleton] at hx; subst hx; exact hc
    · obtain ⟨h1, h2⟩ := heldSlots_add htext hslots hc ht hv
      refine .node hcls htext ha h1 hmis ?_ hm
      intro m x hx
      by_cases he : m = act.mem
      · subst he
        rw [show setSlot _ act.mem v act.mem = v from if_pos rfl] at hx
        rcases h2 x hx with hx | hx
        · exact hk _ x hx
        · exact hx
      · rw [show setSlot _ act.mem v m = _ from if_neg he] at hx
        exact hk m x hx
  | text htt ha hslots hmis hm =>
    rcases addElement_node h with ⟨ht, rfl⟩ | ⟨act, v, ht, hv, rfl⟩
    · refine .text htt ha hslots ?_ ?_
      · intro x hx
        rcases List.mem_append.1 hx with hx | hx
        · exact hmis x hx
        · rw [List.mem_singleton] at hx; subst hx; exact ht
      · intro x hx
        rcases List.mem_append.1 hx with hx | hx
        · exact hm x hx
        · rw [List.mem_singleton] at hx; subst hx; exact hc
    · have := taker_text htt ht
      subst this
      simp only [Act.value, Outcome.ok.injEq] at hv
      subst hv
      exact .text htt ha (.inr ⟨cd, setSlot_textSlots _ _ hslots⟩) hmis hm
  | @points a pts unk ha =>
    rcases addElement_node h with ⟨ht, rfl⟩ | ⟨act, v, ht, hv, rfl⟩
    · rw [taker_coordinates] at ht; cases ht
    · rw [taker_coordinates] at ht
      cases ht
      simp only [Act.value, Act.mem] at hv
      cases hr : readPoints n cd with
      | ok l =>
        rw [hr] at hv
        simp only [Outcome.ok_bind, Outcome.ok.injEq] at hv
        have hl : ∃ more : List Str, l = more.map (Elem.field Ty.Unknown) := by
          unfold readPoints at hr
          split at hr
          · rename_i o _
            cases o with
            | ok vs =>
              simp only [Outcome.ok_bind, Outcome.ok.injEq] at hr
              exact ⟨vs.map pointText, by rw [← hr, List.map_map]; rfl⟩
            | throws => cases hr
            | ub => cases hr
          · cases hr
        obtain ⟨more, rfl⟩ := hl
        have he : setSlot (pointTextSlots pts) M.«coordinates_array» v = pointTextSlots (pts ++ more) := by
          rw [← hv]
          funext m
          unfold pointTextSlots setSlot
          split <;> simp
        show Held n (.node Ty.«coordinates» a (setSlot (pointTextSlots pts) M.«coordinates_array» v) [] unk)
        rw [he]
        exact .points ha
      | throws => rw [hr] at hv; cases hv
      | ub => rw [hr] at hv; cases hv

theorem attrMap_is_sorted (attrs : List (Str × Str)) : StdMap.Sorted (attrMap attrs) := by
  have : ∀ (l : List (Str × Str)) (m : Attributes), StdMap.Sorted m →
      StdMap.Sorted (l.foldl (fun (m : Attributes) e => m.set e.1 e.2) m) := by
    intro l
    induction l with
    | nil => intro m h; exact h
    | cons e l ih => intro m h; exact ih _ (StdMap.sorted_set h _ _)
  exact this attrs [] StdMap.sorted_nil

theorem points_empty : (fun _ => []) = pointTextSlots [] := by
  funext m
  unfold pointTextSlots setSlot
  split <;> rfl

/-- An element that was just made. -/
theorem new_held {n : NumLib} {t : Ty} {a : Attrs} (hc : (classOf t).isSome = true) (ha : a.Held n (classAt t)) :
    Held n (.node t a (fun _ => []) [] []) := by
  cases htext : textual t with
  | false =>
    refine .node hc htext ha ?_ ?_ ?_ ?_
    · intro m x hx; cases hx
    · intro x hx; cases hx
    · intro m x hx; cases hx
    · intro x hx; cases hx
  | true =>
    simp only [textual, Bool.or_eq_true, decide_eq_true_eq] at htext
    rcases htext with ((h | h) | h) | h
    · exact .text (.inl h) ha (.inl rfl) (by intro x hx; cases hx) (by intro x hx; cases hx)
    · exact .text (.inr (.inl h)) ha (.inl rfl) (by intro x hx; cases hx) (by intro x hx; cases hx)
    · subst h
      rw [points_empty]
      exact .points ha
    · exact .text (.inr (.inr h)) ha (.inl rfl) (by intro x hx; cases hx) (by intro x hx; cases hx)

theorem makeElement_held {n : NumLib} {p : Option Ty} {t : Ty} {attrs : List (Str × Str)} {e : Elem}
    (h : makeElement n p t attrs = some e) : Held n e := by
  unfold makeElement at h
  cases hk : Xsd.elementType t with
  | complex =>
    rw [hk] at h
    simp only at h
    cases hc : classOf t with
    | none => rw [hc] at h; cases h
    | some c =>
      rw [hc] at h
      simp only [Option.some.injEq] at h
      rw [← h]
      have hcls : (classOf (if t = Ty.«Icon» ∧ p = some Ty.«IconStyle» then Ty.«IconStyleIcon» else t)).isSome = true := by
        split
        · exact classOf_iconStyleIcon
        · rw [hc]; rfl
      generalize (if t = Ty.«Icon» ∧ p = some Ty.«IconStyle» then Ty.«IconStyleIcon» else t) = t' at hcls
      refine new_held hcls ?_
      split
      · exact empty_held n _
      · obtain ⟨c', hc'⟩ := Option.isSome_iff_exists.1 hcls
        rw [classAt_eq hc']
        exact parseAttributes_held hc' (attrMap_is_sorted attrs)
  | simple =>
    rw [hk] at h
    simp only [Option.some.injEq] at h
    rw [← h]
    exact .field hk
  | unknown => rw [hk] at h; cases h

theorem addUnknown_held {n : NumLib} {e : Elem} {s : Str} (h : Held n e) : Held n (addUnknownElement e s) := by
  cases h with
  | field h => exact .field h
  | node h1 h2 h3 h4 h5 h6 h7 => exact .node h1 h2 h3 h4 h5 h6 h7
  | text h1 h2 h3 h4 h5 => exact .text h1 h2 h3 h4 h5
  | points h => exact .points h

theorem setCharData_held {n : NumLib} {e : Elem} {s : Str} (h : Held n e) : Held n (setCharData e s) := by
  cases h with
  | field h => exact .field h
  | node h1 h2 h3 h4 h5 h6 h7 => exact .node h1 h2 h3 h4 h5 h6 h7
  | text h1 h2 h3 h4 h5 => exact .text h1 h2 h3 h4 h5
  | points h => exact .points h

theorem finishElement_held {n : NumLib} {e r : Elem} {s : Str} (h : Held n e) (hf : finishElement n e s = .ok r) :
    Held n r := by
  unfold finishElement at hf
  split at hf
  · exact addElement_held (setCharData_held h) (setCharData_held h) hf
  · cases hf; exact setCharData_held h

/-! ### The parser -/

variable {σ : Type}

/-- A `SimpleData` made for a field of an old-style schema. -/
def OldData (n : NumLib) (e : Elem) : Prop :=
  Held n e ∧ ∃ a sl, e = .node Ty.«SimpleData» a sl [] []

/-- What the parser holds. -/
structure Handler.Held (n : NumLib) (h : Handler σ) : Prop where
  stack : ∀ e ∈ h.stack, Dom.Held n e
  data : ∀ e ∈ h.simpleData, OldData n e

theorem oldSchemaChild_held {n : NumLib} {name : Str} {names : List Str} {e : Elem}
    (h : oldSchemaChild name names = some e) : OldData n e := by
  unfold oldSchemaChild at h
  split at h
  · simp only [Option.some.injEq] at h
    subst h
    refine ⟨new_held (by rw [classOf_simpleData]; rfl) ?_, _, _, rfl⟩
    refine ⟨?_, StdMap.sorted_nil, StdMap.sorted_nil, ?_, ?_⟩
    · exact StdMap.sorted_set StdMap.sorted_nil (chars! "name") name
    · intro x hx
      rw [List.mem_singleton] at hx
      subst hx
      exact ⟨.str, simpleData_name, rfl⟩
    · intro x hx; cases hx
  · cases h

theorem setText_held {n : NumLib} {e : Elem} {s : Str} (h : OldData n e) : OldData n (setText e s) := by
  obtain ⟨h, a, sl, rfl⟩ := h
  refine ⟨?_, _, _, rfl⟩
  cases h with
  | node h1 h2 => exact absurd h2 (by decide)
  | text h1 h2 h3 h4 h5 => exact .text h1 h2 (.inr ⟨s, setSlot_textSlots _ _ h3⟩) h4 h5

theorem oldSchemaEnd_held {n : NumLib} {e : Elem} {old : Str} {r : Elem × List Str} (h : Held n e)
    (hr : oldSchemaEnd e old = .ok r) : Held n r.1 := by
  cases e with
  | field t s => cases hr
  | node t a slots mis unk =>
    simp only [oldSchemaEnd] at hr
    split at hr
    · rename_i ht
      subst ht
      simp only [Outcome.ok.injEq] at hr
      subst hr
      cases h with
      | node h1 h2 h3 h4 h5 h6 h7 =>
        refine .node h1 h2 ⟨StdMap.sorted_set h3.known_sorted _ _, h3.unknown_sorted, h3.xmlns_sorted, ?_, h3.unknown⟩ h4 h5 h6 h7
        rintro ⟨k, v⟩ he
        have hg := StdMap.get_of_mem (StdMap.sorted_set h3.known_sorted (chars! "id") (old ++ chars! "_id")) he
        rw [StdMap.get_set] at hg
        split at hg
        · rename_i hk
          subst hk
          exact ⟨.str, schema_id, rfl⟩
        · exact h3.known _ (StdMap.mem_of_get hg)
      | text h1 => rcases h1 with h1 | h1 | h1 <;> exact absurd h1 (by decide)
    · cases hr

theorem oldSchemaParentEnd_held {n : NumLib} {e : Elem} {old : Str} {data : List Elem} {r : Elem} (h : Held n e)
    (hd : ∀ x ∈ data, OldData n x) (hr : oldSchemaParentEnd e old data = .ok r) : Held n r := by
  cases e with
  | field t s => cases hr
  | node t a slots mis unk =>
    simp only [oldSchemaParentEnd] at hr
    split at hr
    · rename_i ht
      subst ht
      simp only [Outcome.ok.injEq] at hr
      subst hr
      have hsd : Held n (Elem.node Ty.«SchemaData» ⟨[(chars! "schemaUrl", old ++ chars! "_id")], [], []⟩
          (fun m => if m = M.«simpledata_array» then data else []) [] []) := by
        refine .node old_schema_types.2.1 old_schema_types.2.2.2.2.1 ⟨?_, StdMap.sorted_nil, StdMap.sorted_nil, ?_, ?_⟩ ?_ ?_ ?_ ?_
        · exact StdMap.sorted_set StdMap.sorted_nil (chars! "schemaUrl") (old ++ chars! "_id")
        · intro x hx
          rw [List.mem_singleton] at hx
          subst hx
          exact ⟨.str, schemaData_url, rfl⟩
        · intro x hx; cases hx
        · intro m x hx
          split at hx
          · rename_i hm
            obtain ⟨_, a, sl, rfl⟩ := hd x hx
            exact ⟨_, takes_simpleData _ _ _ _, hm.symm, .inr trivial, fun h => by cases h⟩
          · cases hx
        · intro x hx; cases hx
        · intro m x hx
          split at hx
          · exact (hd x hx).1
          · cases hx
        · intro x hx; cases hx
      have hed : Held n (Elem.node Ty.«ExtendedData» .empty (fun m => if m = M.«schemadata_array» then
          [Elem.node Ty.«SchemaData» ⟨[(chars! "schemaUrl", old ++ chars! "_id")], [], []⟩
            (fun m => if m = M.«simpledata_array» then data else []) [] []] else []) [] []) := by
        refine .node old_schema_types.2.2.1 old_schema_types.2.2.2.2.2.1 (empty_held n _) ?_ ?_ ?_ ?_
        · intro m x hx
          split at hx
          · rename_i hm
            rw [List.mem_singleton] at hx
            subst hx
            exact ⟨_, takes_schemaData _ _ _ _, hm.symm, .inr trivial, fun h => by cases h⟩
          · cases hx
        · intro x hx; cases hx
        · intro m x hx
          split at hx
          · rw [List.mem_singleton] at hx
            subst hx
            exact hsd
          · cases hx
        · intro x hx; cases hx
      cases h with
      | node h1 h2 h3 h4 h5 h6 h7 =>
        obtain ⟨g1, g2⟩ := heldSlots_add (cd := []) h2 h4 hed (takes_extendedData _ _ _ _) rfl
        refine .node h1 h2 h3 g1 h5 ?_ h7
        intro m x hx
        unfold setSlot at hx
        split at hx
        · rw [List.mem_singleton] at hx
          subst hx
          exact hed
        · exact h6 m x hx
      | text h1 => rcases h1 with h1 | h1 | h1 <;> exact absurd h1 (by decide)
    · cases hr

theorem startUnknown_held {n : NumLib} {h h' : Handler σ} {name : Str} {attrs : List (Str × Str)} (hh : h.Held n)
    (hr : h.startUnknown name attrs = .ok h') : h'.Held n := by
  unfold Handler.startUnknown at hr
  split at hr
  · cases hr; exact ⟨hh.1, hh.2⟩
  · cases hc : appendTop (startText name attrs) h.chars with
    | ok c => rw [hc] at hr; cases hr; exact ⟨hh.1, hh.2⟩
    | throws => rw [hc] at hr; cases hr
    | ub => rw [hc] at hr; cases hr

theorem startKnown_held {n : NumLib} {os : List (Observer σ)} {h : Handler σ} {e : Elem} (hh : h.Held n)
    (he : Held n e) : (h.startKnown os e).Held n := by
  have : ∀ x ∈ e :: h.stack, Held n x := by
    intro x hx
    rcases List.mem_cons.1 hx with rfl | hx
    · exact he
    · exact hh.1 x hx
  unfold Handler.startKnown
  simp only
  split <;> exact ⟨this, hh.2⟩

theorem startPlain_rest {n : NumLib} {os : List (Observer σ)} {g h' : Handler σ} {name : Str} {attrs : List (Str × Str)}
    (hgh : g.Held n) (hr : (match makeElement n (g.stack.head?.map Elem.ty) (typeOfName g.oldName name) attrs with
      | some e => Outcome.ok (g.startKnown os e)
      | none =>
        if Xsd.elementType (typeOfName g.oldName name) = XsdKind.unknown ∧ g.oldName ≠ [] then
          match oldSchemaChild name g.fieldNames with
          | some sd => Outcome.ok { g with inOld := true, simpleData := g.simpleData ++ [sd] }
          | none => { g with inOld := false }.startUnknown name attrs
        else g.startUnknown name attrs) = Outcome.ok h') : h'.Held n := by
  split at hr
  · rename_i e he
    cases hr
    exact startKnown_held hgh (makeElement_held he)
  · split at hr
    · split at hr
      · rename_i sd hsd
        cases hr
        refine ⟨hgh.1, fun x hx => ?_⟩
        rcases List.mem_append.1 hx with hx | hx
        · exact hgh.2 x hx
        · rw [List.mem_singleton] at hx
          subst hx
          exact oldSchemaChild_held hsd
      · exact startUnknown_held (h := { g with inOld := false }) ⟨hgh.1, hgh.2⟩ hr
    · exact startUnknown_held hgh hr

theorem startPlain_held {n : NumLib} {os : List (Observer σ)} {h h' : Handler σ} {name : Str} {attrs : List (Str × Str)}
    (hh : h.Held n) (hr : h.startPlain n os name attrs = .ok h') : h'.Held n := by
  by_cases hs : name = chars! "Schema"
  · simp only [Handler.startPlain, if_pos hs] at hr
    exact startPlain_rest (g := { h with
      oldName := findOldSchemaName attrs h.oldName, chars := [] :: h.chars }) ⟨hh.1, hh.2⟩ hr
  · simp only [Handler.startPlain, if_neg hs] at hr
    exact startPlain_rest (g := { h with
      chars := [] :: h.chars }) ⟨hh.1, hh.2⟩ hr

theorem startElement_held {n : NumLib} {os : List (Observer σ)} {h h' : Handler σ} {name : Str} {attrs : List (Str × Str)}
    (hh : h.Held n) (hr : h.startElement n os name attrs = .ok h') : h'.Held n := by
  unfold Handler.startElement at hr
  simp only at hr
  split at hr
  · cases hr; exact ⟨hh.1, hh.2⟩
  · generalize hg : (if h.inDesc > 0 ∧ name = chars! "description" then
      ({ h with nesting := inc h.nesting, inDesc := inc h.inDesc } : Handler σ) else { h with nesting := inc h.nesting }) = g at hr
    have hgh : g.Held n := by
      rw [← hg]
      split <;> exact ⟨hh.1, hh.2⟩
    split at hr
    · cases hc : appendTop (startText name attrs) g.chars with
      | ok c => rw [hc] at hr; cases hr; exact ⟨hgh.1, hgh.2⟩
      | throws => rw [hc] at hr; cases hr
      | ub => rw [hc] at hr; cases hr
    · exact startPlain_held hgh hr

theorem endOldSchema_held {n : NumLib} {h : Handler σ} {name : Str} {e : Elem} {r : Elem × Handler σ} (hh : h.Held n)
    (he : Held n e) (hr : h.endOldSchema name e = .ok r) : Held n r.1 ∧ r.2.Held n := by
  unfold Handler.endOldSchema at hr
  split at hr
  · cases hr; exact ⟨he, hh⟩
  · split at hr
    · cases hx : oldSchemaEnd e h.oldName with
      | ok x => rw [hx] at hr; cases hr; exact ⟨oldSchemaEnd_held he hx, hh.1, hh.2⟩
      | throws => rw [hx] at hr; cases hr
      | ub => rw [hx] at hr; cases hr
    · split at hr
      · cases hx : oldSchemaParentEnd e h.oldName (h.simpleData.drop h.taken) with
        | ok x =>
          rw [hx] at hr
          cases hr
          exact ⟨oldSchemaParentEnd_held he (fun y hy => hh.2 y (List.mem_of_mem_drop hy)) hx, hh.1, hh.2⟩
        | throws => rw [hx] at hr; cases hr
        | ub => rw [hx] at hr; cases hr
      · cases hr; exact ⟨he, hh⟩

theorem attach_held {n : NumLib} {os : List (Observer σ)} {h h' : Handler σ} {child : Elem} (hh : h.Held n)
    (hc : Held n child) (hr : h.attach n os child = .ok h') : h'.Held n := by
  unfold Handler.attach at hr
  split at hr
  · rename_i x p rest hs
    have hp : Held n p := hh.1 p (by rw [hs]; simp)
    simp only at hr
    cases hg : giveChild n (callAll (fun o s => o.endElement s p child) os h.obs).1 p child with
    | ok p' =>
      rw [hg] at hr
      cases hr
      have hp' : Held n p' := by
        unfold giveChild at hg
        split at hg
        · exact addElement_held hp hc hg
        · cases hg; exact hp
      refine ⟨fun x hx => ?_, hh.2⟩
      rcases List.mem_cons.1 hx with rfl | hx
      · exact hp'
      · exact hh.1 x (by rw [hs]; simp [hx])
    | throws => rw [hg] at hr; cases hr
    | ub => rw [hg] at hr; cases hr
  · cases hr
    refine ⟨fun x hx => ?_, hh.2⟩
    rw [List.mem_singleton] at hx
    subst hx
    exact hc
  · cases hr; exact hh

theorem endPlain_held {n : NumLib} {os : List (Observer σ)} {h h' : Handler σ} {name : Str} (hh : h.Held n)
    (hr : h.endPlain n os name = .ok h') : h'.Held n := by
  unfold Handler.endPlain at hr
  split at hr
  · cases hr; exact hh
  · rename_i top rest hs
    split at hr
    · cases hr
    · rename_i s chars hch
      split at hr
      · cases hr
        refine ⟨hh.1, fun x hx => ?_⟩
        rcases List.mem_append.1 hx with hx | hx
        · exact hh.2 x (List.dropLast_subset _ hx)
        · cases hl : h.simpleData.getLast? with
          | none => rw [hl] at hx; cases hx
          | some y =>
            rw [hl] at hx
            simp only [Option.map_some, Option.toList_some, List.mem_singleton] at hx
            subst hx
            exact setText_held (hh.2 y (List.mem_of_getLast? hl))
      · cases hf : finishElement n top s with
        | ok e =>
          rw [hf] at hr
          simp only [Outcome.ok_bind] at hr
          have he := finishElement_held (hh.1 top (by rw [hs]; simp)) hf
          cases ho : ({ h with chars := chars } : Handler σ).endOldSchema name e with
          | ok r =>
            rw [ho] at hr
            simp only [Outcome.ok_bind] at hr
            obtain ⟨h1, h2⟩ := endOldSchema_held (h := { h with chars := chars }) ⟨hh.1, hh.2⟩ he ho
            exact attach_held h2 h1 hr
          | throws => rw [ho] at hr; cases hr
          | ub => rw [ho] at hr; cases hr
        | throws => rw [hf] at hr; cases hr
        | ub => rw [hf] at hr; cases hr

theorem endUnknown_held {n : NumLib} {h h' : Handler σ} {name : Str} (hh : h.Held n)
    (hr : h.endUnknown name = .ok h') : h'.Held n := by
  unfold Handler.endUnknown at hr
  cases hc : appendTop (endText name) h.chars with
  | ok c =>
    rw [hc] at hr
    simp only [Outcome.ok_bind] at hr
    split at hr
    · split at hr
      · rename_i hs
        cases hr
        refine ⟨fun x hx => ?_, hh.2⟩
        rcases List.mem_cons.1 hx with rfl | hx
        · exact addUnknown_held (hh.1 _ (by rw [hs]; simp))
        · exact hh.1 x (by rw [hs]; simp [hx])
      · cases hr
    · cases hr; exact ⟨hh.1, hh.2⟩
  | throws => rw [hc] at hr; cases hr
  | ub => rw [hc] at hr; cases hr

theorem endElement_held {n : NumLib} {os : List (Observer σ)} {h h' : Handler σ} {name : Str} (hh : h.Held n)
    (hr : h.endElement n os name = .ok h') : h'.Held n := by
  unfold Handler.endElement at hr
  simp only at hr
  have hg : (({ h with nesting := dec h.nesting } : Handler σ).leaveDescription name).Held n := by
    unfold Handler.leaveDescription
    split
    · split <;> exact ⟨hh.1, hh.2⟩
    · exact ⟨hh.1, hh.2⟩
  split at hr
  · exact endUnknown_held hg hr
  · exact endPlain_held hg hr

theorem step_held {n : NumLib} {os : List (Observer σ)} {h h' : Handler σ} {ev : Ev} (hh : h.Held n)
    (hr : h.step n os ev = .ok h') : h'.Held n := by
  cases ev with
  | start name attrs => exact startElement_held hh hr
  | stop name => exact endElement_held hh hr
  | empty name attrs =>
    simp only [Handler.step] at hr
    cases hx : h.startElement n os name attrs with
    | ok g =>
      rw [hx] at hr
      exact endElement_held (startElement_held hh hx) hr
    | throws => rw [hx] at hr; cases hr
    | ub => rw [hx] at hr; cases hr
  | chars s =>
    simp only [Handler.step, Handler.charData] at hr
    cases hc : appendTop s h.chars with
    | ok c => rw [hc] at hr; cases hr; exact ⟨hh.1, hh.2⟩
    | throws => rw [hc] at hr; cases hr
    | ub => rw [hc] at hr; cases hr

theorem run_held {n : NumLib} {os : List (Observer σ)} : ∀ {evs : List Ev} {h h' : Handler σ}, h.Held n →
    h.run n os evs = .ok h' → h'.Held n
  | [], h, h', hh, hr => by cases hr; exact hh
  | ev :: evs, h, h', hh, hr => by
    rw [Handler.run] at hr
    cases hx : h.step n os ev with
    | ok g =>
      rw [hx] at hr
      simp only [Outcome.ok_bind] at hr
      split at hr
      · cases hr; exact step_held hh hx
      · exact run_held (step_held hh hx) hr
    | throws => rw [hx] at hr; cases hr
    | ub => rw [hx] at hr; cases hr

/-- Every element the parser returns is held, whatever the document and the observers. -/
theorem parse_held {n : NumLib} {os : List (Observer σ)} {s s' : σ} {evs : List Ev} {e : Elem}
    (h : parseEvents n os s evs = .ok (some e, s')) : Held n e := by
  unfold parseEvents at h
  cases hr : (Handler.init s).run n os evs with
  | ok g =>
    rw [hr] at h
    simp only [Outcome.ok_bind, Outcome.ok.injEq, Prod.mk.injEq] at h
    have hg : g.Held n := run_held ⟨(by intro e he; cases he), (by intro e he; cases he)⟩ hr
    have hp := h.1
    split at hp
    · cases hp
    · unfold Handler.popRoot at hp
      split at hp
      · rename_i x hs
        cases hp
        exact hg.1 e (by rw [hs]; simp)
      · cases hp
  | throws => rw [hr] at h; cases h
  | ub => rw [hr] at h; cases h

end Kml.Dom
