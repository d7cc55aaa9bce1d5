import Verif.Lemmas.Faithful
import Verif.Lemmas.SafeBuild

/-! What the parser makes of a document that comes through is canonical: the elements. -/

set_option linter.unusedVariables false

namespace Kml.Dom

open Kml

theorem selfParsing_complex : ∀ t, selfParsing t = true → Xsd.elementType t = .complex := by
  intro t h
  simp only [selfParsing, Bool.or_eq_true, decide_eq_true_eq] at h
  rcases h with ((rfl | rfl) | rfl) | rfl <;> decide +kernel

theorem coordinates_row' : kml22Elements[Ty.«coordinates»]? = some (chars! "coordinates", .complex) := by decide +kernel

theorem taker_self : (taker Ty.«Snippet» (.node Ty.«Snippet» .empty (fun _ => []) [] [])).isSome = true ∧
    (taker Ty.«linkSnippet» (.node Ty.«linkSnippet» .empty (fun _ => []) [] [])).isSome = true ∧
    (taker Ty.«SimpleData» (.node Ty.«SimpleData» .empty (fun _ => []) [] [])).isSome = true := by decide +kernel

theorem faithful_description : isKnown (chars! "description") = true ∧
    Xsd.elementType (Xsd.elementId (chars! "description")) = .simple := by decide +kernel

section

attribute [local irreducible] kml22Elements Xsd.tagToId classes inc dec uintSize

theorem selfParsing_textual (t : Ty) : selfParsing t = textual t := by
  unfold selfParsing textual
  cases decide (t = Ty.«Snippet») <;> cases decide (t = Ty.«linkSnippet») <;> cases decide (t = Ty.«coordinates») <;> rfl

/-- What `Canonical` asks for beyond `Held`. -/
inductive Extra (n : NumLib) (pretty : Bool) : Nat → Option Ty → Elem → Prop
  | field {k : Nat} {p : Option Ty} {t : Ty} {s : Str} : Clean s → Extra n pretty (k + 1) p (.field t s)
  | node {k : Nat} {p : Option Ty} {t : Ty} {a : Attrs} {slots : Mem → List Elem} {mis : List Elem} {unk : List Str} :
    textual t = false → HomeType p t → a.Canonical n (classAt t) →
    (t = Ty.«Schema» → a.unknown.get (chars! "parent") = none) →
    (t = Ty.«XalLocality» → slots M.«localityname» = []) →
    (∀ m, ∀ x ∈ slots m, Extra n pretty k (some t) x) → (∀ x ∈ mis, Extra n pretty k (some t) x) →
    (∀ s ∈ unk, KeptUnknown k s) → Extra n pretty (k + 1) p (.node t a slots mis unk)
  | text {k : Nat} {p : Option Ty} {t : Ty} {a : Attrs} {s : Str} :
    t = Ty.«Snippet» ∨ t = Ty.«linkSnippet» ∨ t = Ty.«SimpleData» → pretty = false →
    a.Canonical n (classAt t) → Clean s → Extra n pretty (k + 1) p (.node t a (textSlots s) [] [])
  | points {k : Nat} {p : Option Ty} {pts : List Coords.Vec3} :
    (∀ v ∈ pts, Coords.IsPoint n v) → (pretty = true ∨ pts.length ≤ 1) →
    Extra n pretty (k + 1) p (.node Ty.«coordinates» .empty (pointSlots pts) [] [])

theorem clean_settled {n : NumLib} {act : Act} {t : Ty} {s : Str} (h : act.isCdata = true) (hs : Clean s) :
    Settled n act (.field t s) := by
  have hi : insideCdata s = s := by
    unfold insideCdata
    rw [if_neg]
    intro hx
    exact hs.2.1 (List.isPrefixOf_iff_prefix.1 hx).isInfix
  cases act with
  | field m k =>
    cases k <;> cases h
    show Outcome.ok (some (insideCdata s)) = _
    rw [hi]
  | fields m k =>
    cases k <;> cases h
    show Outcome.ok (some (insideCdata s)) = _
    rw [hi]
  | one => cases h
  | many => cases h
  | selfText => cases h
  | selfPoints => cases h

theorem extra_canonical {n : NumLib} {pretty : Bool} {k : Nat} {p : Option Ty} {e : Elem} (h : Extra n pretty k p e) :
    Held n e → Canonical n pretty k p e := by
  induction h with
  | field hs =>
    intro hh
    cases hh with
    | field ht => exact .field ht (clean_quotable hs)
  | @node k p t a slots mis unk h1 h2 h3 h4 h5 h6 h7 h8 ih6 ih7 =>
    intro hh
    cases hh with
    | node g1 g2 g3 g4 g5 g6 g7 =>
      refine .node g1 h1 h2 h3 h4 ?_ h5 g5 (fun m x hx => ih6 m x hx (g6 m x hx)) (fun x hx => ih7 x hx (g7 x hx)) h8
      intro m x hx
      obtain ⟨act, a1, a2, a3, a4⟩ := g4 m x hx
      refine ⟨act, a1, a2, ?_, a4⟩
      rcases a3 with ⟨b1, t', s', rfl⟩ | a3
      · cases h6 m _ hx with
        | field hs => exact clean_settled b1 hs
      · exact a3
    | text ht => rcases ht with rfl | rfl | rfl <;> cases h1
    | points => cases h1
  | text h1 h2 h3 h4 => intro _; exact .text h1 h2 h3 (clean_quotable h4)
  | points h1 h2 => intro _; exact .points h1 h2

/-! ### Adding a child -/

theorem value_extra {n : NumLib} {pretty : Bool} {k : Nat} {t : Ty} {cd : Str} {slots : Mem → List Elem} {child : Elem} {act : Act}
    {v : List Elem} (htext : textual t = false) (hs : ∀ m, ∀ x ∈ slots m, Extra n pretty k (some t) x) (hc : Held n child)
    (hx : Extra n pretty k (some t) child) (ht : taker t child = some act)
    (hv : act.value n cd (slots act.mem) child = .ok v) : ∀ x ∈ v, Extra n pretty k (some t) x := by
  have hplain := taker_plain ht
  obtain ⟨c, test, hcls, hmem, _, hr, hmatch⟩ := taker_rule ht
  have hclean : ∀ {ty : Ty} {s : Str}, Extra n pretty k (some t) (.field ty s) → Clean s := by
    intro ty s h
    cases h with
    | field h => exact h
  have hfield : ∀ {ty : Ty} {s : Str}, Clean s → Extra n pretty k (some t) (.field ty s) := by
    intro ty s h
    cases hx <;> exact .field h
  cases act with
  | field m kd =>
    obtain ⟨ct, text, rfl, _⟩ := field_child hc.proper hmem hr hmatch (.inl ⟨m, kd, rfl⟩)
    simp only [Act.value, Act.mem] at hv
    cases hrv : readValue n kd ct (single (slots m)) text with
    | ok o =>
      rw [hrv] at hv
      simp only [Outcome.ok_bind, Outcome.ok.injEq] at hv
      subst hv
      cases o with
      | none => intro x hx; cases hx
      | some s =>
        intro x hxm
        simp only [Option.map_some, Option.toList_some, List.mem_singleton] at hxm
        subst hxm
        refine hfield (readValue_clean hplain ?_ (hclean hx) hrv)
        intro o ho
        cases hsl : slots m with
        | nil => rw [hsl] at ho; cases ho
        | cons y ys =>
          have hy := hs m y (by rw [hsl]; simp)
          rw [hsl] at ho
          cases ys with
          | cons _ _ => cases y <;> simp [single] at ho
          | nil =>
            cases y with
            | node => cases ho
            | field ty s' =>
              simp only [single, Option.some.injEq] at ho
              subst ho
              exact hclean hy
    | throws => rw [hrv] at hv; cases hv
    | ub => rw [hrv] at hv; cases hv
  | fields m kd =>
    obtain ⟨ct, text, rfl, _⟩ := field_child hc.proper hmem hr hmatch (.inr ⟨m, kd, rfl⟩)
    simp only [Act.value, Act.mem] at hv
    cases hrv : readValue n kd ct none text with
    | ok o =>
      rw [hrv] at hv
      simp only [Outcome.ok_bind, Outcome.ok.injEq] at hv
      subst hv
      intro x hxm
      rcases List.mem_append.1 hxm with hxm | hxm
      · exact hs m x hxm
      · cases o with
        | none => cases hxm
        | some s =>
          simp only [Option.map_some, Option.toList_some, List.mem_singleton] at hxm
          subst hxm
          exact hfield (readValue_clean hplain (by intro o ho; cases ho) (hclean hx) hrv)
    | throws => rw [hrv] at hv; cases hv
    | ub => rw [hrv] at hv; cases hv
  | one m =>
    simp only [Act.value, Outcome.ok.injEq] at hv
    subst hv
    intro x hxm
    rw [List.mem_singleton] at hxm
    subst hxm
    exact hx
  | many m =>
    simp only [Act.value, Outcome.ok.injEq] at hv
    subst hv
    intro x hxm
    rcases List.mem_append.1 hxm with hxm | hxm
    · exact hs m x hxm
    · rw [List.mem_singleton] at hxm
      subst hxm
      exact hx
  | selfText m =>
    have := List.all_eq_true.1 (List.all_eq_true.1 classes_self _ hmem) _ hr
    rw [htext] at this
    cases this
  | selfPoints m =>
    have := List.all_eq_true.1 (List.all_eq_true.1 classes_self _ hmem) _ hr
    rw [htext] at this
    cases this

theorem addElement_extra {n : NumLib} {pretty : Bool} {k : Nat} {p : Option Ty} {cd : Str} {cur child r : Elem}
    (hcur : Extra n pretty (k + 1) p cur) (htext : textual cur.ty = false) (hc : Held n child)
    (hx : Extra n pretty k (some cur.ty) child)
    (hloc : cur.ty = Ty.«XalLocality» → child.ty ≠ Ty.«xalLocalityName»)
    (h : addElement n cd cur child = .ok r) : Extra n pretty (k + 1) p r := by
  cases hcur with
  | field hs => cases h; exact .field hs
  | @node _ _ t a slots mis unk h1 h2 h3 h4 h5 h6 h7 h8 =>
    rcases addElement_node h with ⟨ht, rfl⟩ | ⟨act, v, ht, hv, rfl⟩
    · refine .node h1 h2 h3 h4 h5 h6 ?_ h8
      intro x hxm
      rcases List.mem_append.1 hxm with hxm | hxm
      · exact h7 x hxm
      · rw [List.mem_singleton] at hxm; subst hxm; exact hx
    · have hval := value_extra h1 h6 hc hx ht hv
      refine .node h1 h2 h3 h4 ?_ ?_ h7 h8
      · intro hl
        obtain ⟨c, test, hcls, hmem, _, hr, hmatch⟩ := taker_rule ht
        have hne : ¬ M.«localityname» = act.mem := by
          intro he
          rw [hl] at hcls
          have hca := classAt_eq hcls
          have := List.all_eq_true.1 locality_rules (test, act) (by rw [hca]; exact hr)
          simp only [Bool.or_eq_true, decide_eq_true_eq, ne_eq] at this
          rcases this with h9 | h9
          · exact h9 he.symm
          · have h9 := eq_of_beq h9
            rw [h9] at hmatch
            exact hloc hl (of_decide_eq_true hmatch)
        rw [show setSlot slots act.mem v M.«localityname» = slots M.«localityname» from if_neg hne]
        exact h5 hl
      · intro m x hxm
        by_cases he : m = act.mem
        · subst he
          rw [show setSlot _ act.mem v act.mem = v from if_pos rfl] at hxm
          exact hval x hxm
        · rw [show setSlot _ act.mem v m = _ from if_neg he] at hxm
          exact h6 m x hxm
  | text ht => rcases ht with rfl | rfl | rfl <;> cases htext
  | points => cases htext

theorem addUnknown_extra {n : NumLib} {pretty : Bool} {k : Nat} {p : Option Ty} {cur : Elem} {s : Str}
    (hcur : Extra n pretty (k + 1) p cur) (htext : textual cur.ty = false) (hs : KeptUnknown k s) :
    Extra n pretty (k + 1) p (addUnknownElement cur s) := by
  cases hcur with
  | field hs => exact .field hs
  | @node _ _ t a slots mis unk h1 h2 h3 h4 h5 h6 h7 h8 =>
    refine .node h1 h2 h3 h4 h5 h6 h7 ?_
    intro x hxm
    rcases List.mem_append.1 hxm with hxm | hxm
    · exact h8 x hxm
    · rw [List.mem_singleton] at hxm; subst hxm; exact hs
  | text ht => rcases ht with rfl | rfl | rfl <;> cases htext
  | points => cases htext

/-! ### New elements -/

/-- What a start tag makes. -/
theorem made_cases {n : NumLib} {p : Option Ty} {name : Str} {attrs : List (Str × Str)} {e : Elem}
    (h : makeElement n p (Xsd.elementId name) attrs = some e) :
    (Xsd.elementType (Xsd.elementId name) = .simple ∧ e = .field (Xsd.elementId name) []) ∨
    ∃ t, Xsd.elementType (Xsd.elementId name) = .complex ∧ (classOf t).isSome = true ∧
      ((Xsd.elementId name = Ty.«Icon» ∧ p = some Ty.«IconStyle» ∧ t = Ty.«IconStyleIcon») ∨
        (¬ (Xsd.elementId name = Ty.«Icon» ∧ p = some Ty.«IconStyle») ∧ t = Xsd.elementId name)) ∧
      e = .node t (if attrs = [] then .empty else parseAttributes n (classAt t) (attrMap attrs)) (fun _ => []) [] [] := by
  unfold makeElement at h
  cases hk : Xsd.elementType (Xsd.elementId name) with
  | complex =>
    rw [hk] at h
    simp only at h
    cases hc : classOf (Xsd.elementId name) with
    | none => rw [hc] at h; cases h
    | some c =>
      rw [hc] at h
      simp only [Option.some.injEq] at h
      right
      by_cases hi : Xsd.elementId name = Ty.«Icon» ∧ p = some Ty.«IconStyle»
      · rw [if_pos hi] at h
        exact ⟨_, rfl, classOf_iconStyleIcon, .inl ⟨hi.1, hi.2, rfl⟩, h.symm⟩
      · rw [if_neg hi] at h
        exact ⟨_, rfl, by rw [hc]; rfl, .inr ⟨hi, rfl⟩, h.symm⟩
  | simple =>
    rw [hk] at h
    simp only [Option.some.injEq] at h
    exact .inl ⟨rfl, h.symm⟩
  | unknown => rw [hk] at h; cases h

theorem made_attrs {n : NumLib} {t : Ty} {attrs : List (Str × Str)} (hc : (classOf t).isSome = true)
    (hv : ∀ e ∈ attrs, XmlName e.1 ∧ PlainAttr e.2) :
    (if attrs = [] then Attrs.empty else parseAttributes n (classAt t) (attrMap attrs)).Canonical n (classAt t) := by
  obtain ⟨c, hc⟩ := Option.isSome_iff_exists.1 hc
  split
  · exact empty_canonical n _
  · rw [classAt_eq hc]
    exact parseAttributes_canonical hc hv

theorem new_extra {n : NumLib} {pretty : Bool} {k : Nat} {p : Option Ty} {pn : Option Str} {name : Str} {attrs : List (Str × Str)}
    {ks : List Xml} {e : Elem} (h : makeElement n p (Xsd.elementId name) attrs = some e)
    (hF : FaithfulElem n pretty pn name attrs ks) (htext : textual e.ty = false) : Extra n pretty (k + 1) p e := by
  rcases made_cases h with ⟨_, rfl⟩ | ⟨t, hk, hc, ht, rfl⟩
  · exact .field (easy_clean (by intro c hc; cases hc))
  · refine .node htext ?_ (made_attrs hc hF.values) ?_ (fun _ => rfl) (by intro m x hx; cases hx) (by intro x hx; cases hx)
      (by intro x hx; cases hx)
    · rcases ht with ⟨h1, h2, rfl⟩ | ⟨h1, rfl⟩
      · exact ⟨fun _ => h2, fun h => absurd h (by decide)⟩
      · refine ⟨fun h => ?_, fun h h2 => h1 ⟨h, h2⟩⟩
        exact absurd (name_of_row h (by decide) faithful_rows.2.2.2.1) hF.icon
    · intro hs
      subst hs
      rcases ht with ⟨_, _, ht⟩ | ⟨_, ht⟩
      · exact absurd ht (by decide)
      · have hn : name = chars! "Schema" := name_of_row ht.symm (by decide) faithful_rows.1
        have hp := hF.schema hn
        split
        · rfl
        · obtain ⟨c, hcc⟩ := Option.isSome_iff_exists.1 hc
          rw [classAt_eq hcc]
          exact parseAttributes_unknown hcc hp

/-- Content without elements leaves the element as it is. -/
theorem kids_texts {n : NumLib} {σ : Type} {os : List (Observer σ)} : ∀ {ks : List Xml} {d : Nat} {cur : Elem} {text : Str} {s : σ},
    NoElements ks → buildKids n os d cur text s ks = .ok (some (cur, text ++ directText ks, s))
  | [], d, cur, text, s, _ => by rw [buildKids, directText, List.append_nil]
  | .text t :: ks, d, cur, text, s, h => by
    rw [buildKids, buildKid]
    simp only [Outcome.ok_bind]
    rw [kids_texts (fun x hx => h x (List.mem_cons_of_mem _ hx)), directText, List.append_assoc]
  | .empty m a :: ks, d, cur, text, s, h => by have := h _ (List.mem_cons_self ..); cases this
  | .elem m a ys :: ks, d, cur, text, s, h => by have := h _ (List.mem_cons_self ..); cases this

theorem readPoints_inv {n : NumLib} {s : Str} {l : List Elem} (h : readPoints n s = .ok l) :
    ∃ vs, Coords.parse n s.length s [] = some (.ok vs) ∧ l = vs.map fun v => .field Ty.Unknown (pointText v) := by
  unfold readPoints at h
  split at h
  · rename_i o ho
    cases o with
    | ok vs =>
      simp only [Outcome.ok_bind, Outcome.ok.injEq] at h
      exact ⟨vs, ho, h.symm⟩
    | throws => cases h
    | ub => cases h
  · cases h

theorem parsed_points {n : NumLib} {s : Str} {vs : List Coords.Vec3} (h : Coords.parse n s.length s [] = some (.ok vs)) :
    ∀ v ∈ vs, Coords.IsPoint n v := by
  intro v hv
  obtain ⟨h1, h2, h3⟩ := Coords.C23_values n _ _ _ h v hv
  have hr : ∀ x, Coords.ReadFrom n s x → n.num x = x := by
    rintro x ⟨t, _, _, rfl⟩
    exact n.num_num t
  have h0 : n.num ['0'] = ['0'] := n.num_small _ (by decide)
  refine ⟨hr _ h1, ?_, ?_⟩
  · rcases h2 with h2 | h2
    · exact hr _ h2
    · rw [h2]; exact h0
  · rcases h3 with ⟨_, h3⟩ | ⟨_, h3⟩
    · exact hr _ h3
    · rw [h3]; exact h0

/-- The end of an element. -/
theorem finish_extra {n : NumLib} {pretty : Bool} {k d : Nat} {p : Option Ty} {pn : Option Str} {name : Str}
    {attrs : List (Str × Str)} {ks : List Xml} {e e1 child : Elem} {t1 : Str}
    (h : makeElement n p (Xsd.elementId name) attrs = some e) (hF : FaithfulElem n pretty pn name attrs ks)
    (hk : (e.ty = Ty.«description» ∧ e1 = e ∧ t1 = renderAll ks) ∨
      (e.ty ≠ Ty.«description» ∧ buildKids n ([] : List (Observer Unit)) d e [] () ks = .ok (some (e1, t1, ()))))
    (hopen : Xsd.elementType (Xsd.elementId name) ≠ .simple → textual e.ty = false → Extra n pretty (k + 1) p e1)
    (hf : finishElement n e1 t1 = .ok child) : Extra n pretty (k + 1) p child := by
  have hdesc := makeElement_description h
  rcases made_cases h with ⟨hs, rfl⟩ | ⟨t, hcx, hc, ht, rfl⟩
  · have he1 : e1 = .field (Xsd.elementId name) [] ∧ Clean t1 := by
      have hcl := hF.simple hs
      rcases hk with ⟨a1, a2, a3⟩ | ⟨a1, a2⟩
      · rw [if_pos (hdesc.1 a1)] at hcl
        exact ⟨a2, a3 ▸ hcl⟩
      · rw [if_neg (fun hx => a1 (hdesc.2 hx))] at hcl
        obtain ⟨_, b2, b3⟩ := buildKids_head a2
        simp only [List.nil_append] at b3
        exact ⟨b2 _ _ rfl, b3 ▸ hcl⟩
    obtain ⟨rfl, hcl⟩ := he1
    unfold finishElement at hf
    rw [if_neg] at hf
    · cases hf; exact .field hcl
    · intro hsp
      have := selfParsing_complex _ hsp
      simp only [Elem.ty] at this
      rw [hs] at this
      cases this
  · have hnd : t ≠ Ty.«description» := by
      rintro rfl
      rcases ht with ⟨_, _, ht⟩ | ⟨_, ht⟩
      · exact absurd ht (by decide)
      · rw [← ht, description_simple] at hcx
        cases hcx
    have hkids : buildKids n ([] : List (Observer Unit)) d
        (.node t (if attrs = [] then .empty else parseAttributes n (classAt t) (attrMap attrs)) (fun _ => []) [] []) [] () ks
        = .ok (some (e1, t1, ())) := by
      rcases hk with ⟨a1, _⟩ | ⟨_, a2⟩
      · exact absurd a1 hnd
      · exact a2
    cases htx : textual t with
    | false =>
      have hE := hopen (by rw [hcx]; intro hx; cases hx) htx
      have hhd := (buildKids_head hkids).1
      simp only at hhd
      unfold finishElement at hf
      rw [if_neg] at hf
      · cases e1 with
        | field => cases hhd
        | node => cases hf; exact hE
      · have : e1.ty = t := congrArg Prod.fst hhd
        rw [selfParsing_textual, this, htx]
        intro hx; cases hx
    | true =>
      have htn : t = Xsd.elementId name := by
        rcases ht with ⟨_, _, rfl⟩ | ⟨_, ht⟩
        · cases htx
        · exact ht
      have hsp : selfParsing t = true := by rw [selfParsing_textual]; exact htx
      by_cases hco : t = Ty.«coordinates»
      · subst hco
        have hn : name = chars! "coordinates" := name_of_row htn.symm (by decide) coordinates_row'
        obtain ⟨rfl, hno, hpts⟩ := hF.points hn
        rw [kids_texts hno] at hkids
        simp only [if_true, List.nil_append, Outcome.ok.injEq, Option.some.injEq, Prod.mk.injEq, and_true] at hkids
        obtain ⟨rfl, rfl⟩ := hkids
        unfold finishElement at hf
        rw [if_pos (by exact hsp)] at hf
        change addElement n _ (.node _ _ _ _ _) (.node _ _ _ _ _) = _ at hf
        rcases addElement_node hf with ⟨hno, _⟩ | ⟨act, v, ht', hv, rfl⟩
        · rw [taker_coordinates] at hno; cases hno
        · rw [taker_coordinates] at ht'
          cases ht'
          simp only [Act.value] at hv
          cases hr : readPoints n (directText ks) with
          | ok l =>
            rw [hr] at hv
            simp only [Outcome.ok_bind, Outcome.ok.injEq, List.nil_append] at hv
            subst hv
            obtain ⟨vs, g1, rfl⟩ := readPoints_inv hr
            exact .points (parsed_points g1) (hpts.imp_right fun hx => hx vs g1)
          | throws => rw [hr] at hv; cases hv
          | ub => rw [hr] at hv; cases hv
      · have h3 : t = Ty.«Snippet» ∨ t = Ty.«linkSnippet» ∨ t = Ty.«SimpleData» := by
          simp only [textual, Bool.or_eq_true, decide_eq_true_eq] at htx
          rcases htx with ((hx | hx) | hx) | hx
          · exact .inl hx
          · exact .inr (.inl hx)
          · exact absurd hx hco
          · exact .inr (.inr hx)
        have hn : name = chars! "Snippet" ∨ name = chars! "linkSnippet" ∨ name = chars! "SimpleData" := by
          rcases h3 with h3 | h3 | h3
          · exact .inl (name_of_row (htn.symm.trans h3) (by decide) faithful_rows.2.2.2.2.1)
          · exact .inr (.inl (name_of_row (htn.symm.trans h3) (by decide) faithful_rows.2.2.2.2.2.1))
          · exact .inr (.inr (name_of_row (htn.symm.trans h3) (by decide) faithful_rows.2.2.2.2.2.2))
        obtain ⟨hpr, hno, hcl⟩ := hF.text hn
        have hat := made_attrs (n := n) hc hF.values
        rw [kids_texts hno] at hkids
        simp only [List.nil_append, Outcome.ok.injEq, Option.some.injEq, Prod.mk.injEq, and_true] at hkids
        obtain ⟨rfl, rfl⟩ := hkids
        unfold finishElement at hf
        rw [if_pos (by exact hsp)] at hf
        change addElement n _ (.node _ _ _ _ _) (.node _ _ _ _ _) = _ at hf
        rcases addElement_node hf with ⟨hno, _⟩ | ⟨act, v, ht', hv, rfl⟩
        · exfalso
          rw [taker_node t t _ .empty _ (fun _ => []) _ [] _ []] at hno
          rcases h3 with rfl | rfl | rfl
          · have := taker_self.1; rw [hno] at this; cases this
          · have := taker_self.2.1; rw [hno] at this; cases this
          · have := taker_self.2.2; rw [hno] at this; cases this
        · have := taker_text h3 ht'
          subst this
          simp only [Act.value, Outcome.ok.injEq] at hv
          subst hv
          exact .text h3 hpr hat hcl

/-! ### The content -/

/-- A child of an element that is still open. -/
theorem child_extra {n : NumLib} {pretty : Bool} {k d : Nat} {p : Option Ty} {pn : Option Str} {name : Str}
    {attrs : List (Str × Str)} {ks : List Xml} {cur : Elem} {text whole : Str} {height : Nat} {r : Elem × Str × Unit}
    (hcur : Extra n pretty (k + 1) p cur) (hheld : Held n cur) (htext : textual cur.ty = false) (hd : k + d = 100)
    (hpar : cur.ty = Ty.«XalLocality» → pn = some (chars! "xal:Locality"))
    (hF : isKnown name = true → FaithfulElem n pretty pn name attrs ks)
    (hU : isKnown name = false → d + 1 + height ≤ 100 → KeptUnknown k (whole ++ ['\n']))
    (ih : ∀ e r k', isKnown name = true → k' + (d + 1) = 100 → Xsd.elementType (Xsd.elementId name) ≠ .simple →
      textual e.ty = false → Held n e → Extra n pretty (k' + 1) (some cur.ty) e →
      (e.ty = Ty.«XalLocality» → name = chars! "xal:Locality") →
      buildKids n ([] : List (Observer Unit)) (d + 1) e [] () ks = .ok (some r) → Held n r.1 ∧ Extra n pretty (k' + 1) (some cur.ty) r.1)
    (h : buildChild n ([] : List (Observer Unit)) d cur text () name attrs whole (renderAll ks) height
      (fun e s => buildKids n [] (d + 1) e [] s ks) = .ok (some r)) :
    Held n r.1 ∧ Extra n pretty (k + 1) p r.1 := by
  obtain ⟨cur', text', s'⟩ := r
  obtain ⟨h1, h2, h3⟩ := buildChild_inv h
  dsimp only
  rcases h3 with ⟨h3, h4, h5, h6, _⟩ | ⟨h3, e, child, s2, h4, h5, h6, _⟩
  · subst h6
    exact ⟨addUnknown_held hheld, addUnknown_extra hcur htext (hU h3 h5)⟩
  · have hFF := hF h3
    obtain ⟨k', rfl⟩ : ∃ k', k = k' + 1 := ⟨k - 1, by omega⟩
    obtain ⟨s1, _, h9⟩ := buildKnown_inv h5
    have hmade := makeElement_held h4
    have hkinds : ∃ e1 t1, ((e.ty = Ty.«description» ∧ e1 = e ∧ t1 = renderAll ks) ∨
        (e.ty ≠ Ty.«description» ∧ buildKids n ([] : List (Observer Unit)) (d + 1) e [] () ks = .ok (some (e1, t1, ())))) ∧
        finishElement n e1 t1 = .ok child := by
      rcases h9 with ⟨a1, _, a3, _⟩ | ⟨a1, e1, t1, a2, a3⟩
      · exact ⟨e, renderAll ks, .inl ⟨a1, rfl, rfl⟩, a3⟩
      · exact ⟨e1, t1, .inr ⟨a1, a2⟩, a3⟩
    obtain ⟨e1, t1, hk, hf⟩ := hkinds
    have hopen : Xsd.elementType (Xsd.elementId name) ≠ .simple → textual e.ty = false →
        Held n e1 ∧ Extra n pretty (k' + 1) (some cur.ty) e1 := by
      intro hs ht
      rcases hk with ⟨a1, rfl, _⟩ | ⟨a1, a2⟩
      · exact ⟨hmade, new_extra h4 hFF ht⟩
      · refine ih e _ k' h3 (by omega) hs ht hmade (new_extra h4 hFF ht) ?_ a2
        intro hx
        exact name_of_made h4 hx (by decide) faithful_rows.2.1
    have hchild : Held n child := by
      have : Held n e1 := by
        rcases hk with ⟨_, rfl, _⟩ | ⟨_, a2⟩
        · exact hmade
        · rcases made_cases h4 with ⟨_, rfl⟩ | ⟨t, b1, b2, b3, rfl⟩
          · have g := (buildKids_head a2).2.1 _ _ rfl
            dsimp only at g
            rw [g]; exact hmade
          · cases htx : textual t with
            | false => exact (hopen (by rw [b1]; intro hx; cases hx) htx).1
            | true =>
              have htn : t = Xsd.elementId name := by
                rcases b3 with ⟨_, _, rfl⟩ | ⟨_, ht⟩
                · cases htx
                · exact ht
              have hno : NoElements ks := by
                by_cases hco : t = Ty.«coordinates»
                · exact (hFF.points (name_of_row (htn.symm.trans hco) (by decide) coordinates_row')).2.1
                · refine (hFF.text ?_).2.1
                  simp only [textual, Bool.or_eq_true, decide_eq_true_eq] at htx
                  rcases htx with ((hx | hx) | hx) | hx
                  · exact .inl (name_of_row (htn.symm.trans hx) (by decide) faithful_rows.2.2.2.2.1)
                  · exact .inr (.inl (name_of_row (htn.symm.trans hx) (by decide) faithful_rows.2.2.2.2.2.1))
                  · exact absurd hx hco
                  · exact .inr (.inr (name_of_row (htn.symm.trans hx) (by decide) faithful_rows.2.2.2.2.2.2))
              rw [kids_texts hno] at a2
              cases a2
              exact hmade
      exact finishElement_held this hf
    have hx : Extra n pretty (k' + 1) (some cur.ty) child := finish_extra h4 hFF hk (fun a b => (hopen a b).2) hf
    have hadd : addElement n [] cur child = .ok cur' := h6
    refine ⟨addElement_held hheld hchild hadd, addElement_extra hcur htext hchild hx ?_ hadd⟩
    intro hl hn
    have hty : child.ty = e.ty := by
      have g1 : child.head = e1.head := finishElement_node hf
      have g2 : e1.head = e.head := by
        rcases hk with ⟨_, rfl, _⟩ | ⟨_, a2⟩
        · rfl
        · exact (buildKids_head a2).1
      exact congrArg Prod.fst (g1.trans g2)
    have hname : name = chars! "xal:LocalityName" := name_of_made h4 (hty.symm.trans hn) (by decide) faithful_rows.2.2.1
    exact hFF.locality hname (hpar hl)

mutual

theorem xmlAll_and {P Q : Str → List (Str × Str) → Prop} : ∀ {x : Xml}, x.All P → x.All Q → x.All fun m a => P m a ∧ Q m a
  | .text _, _, _ => trivial
  | .empty _ _, h1, h2 => ⟨h1, h2⟩
  | .elem _ _ ks, h1, h2 => ⟨⟨h1.1, h2.1⟩, allOf_and h1.2 h2.2⟩

theorem allOf_and {P Q : Str → List (Str × Str) → Prop} : ∀ {xs : List Xml}, AllOf P xs → AllOf Q xs →
    AllOf (fun m a => P m a ∧ Q m a) xs
  | [], _, _ => trivial
  | _ :: _, h1, h2 => ⟨xmlAll_and h1.1 h2.1, allOf_and h1.2 h2.2⟩

end

theorem made_known {n : NumLib} {p : Option Ty} {name : Str} {attrs : List (Str × Str)} {e : Elem}
    (h : makeElement n p (Xsd.elementId name) attrs = some e) : isKnown name = true := by
  unfold makeElement at h
  unfold isKnown
  split at h
  · rename_i hk
    rw [hk]
    split at h
    · cases h
    · rename_i hc; simp only; rw [hc]; rfl
  · rename_i hk; rw [hk]
  · cases h

theorem kept_unknown {k : Nat} {x : Xml} {name : Str} (hn : x.name? = some name) (hu : isKnown name = false) (hp : x.Plain)
    (hd : x.depth ≤ k) (hold : x.All NotOldSchema) (htame : x.Tame) : KeptUnknown k (x.render ++ ['\n']) := by
  have hnd : name ≠ chars! "description" := by
    rintro rfl
    rw [faithful_description.1] at hu
    cases hu
  refine ⟨x, rfl, hp, by rw [hn]; simp [hu], hd, ?_⟩
  cases x with
  | text s => cases hn
  | empty m a => cases hn; exact ⟨hnd, hold⟩
  | elem m a ks =>
    cases hn
    rw [Xml.Tame, if_neg hnd, if_neg (by rw [hu]; intro hx; cases hx)] at htame
    exact ⟨⟨hnd, hold.1⟩, allOf_and htame hold.2⟩

mutual

theorem kid_extra {n : NumLib} {pretty : Bool} (x : Xml) {k d : Nat} {p : Option Ty} {pn : Option Str} {cur : Elem} {text : Str}
    {r : Elem × Str × Unit} (hcur : Extra n pretty (k + 1) p cur) (hheld : Held n cur) (htext : textual cur.ty = false)
    (hd : k + d = 100) (hpar : cur.ty = Ty.«XalLocality» → pn = some (chars! "xal:Locality")) (hold : x.All NotOldSchema)
    (htame : x.Tame) (hF : x.Faithful n pretty pn)
    (h : buildKid n ([] : List (Observer Unit)) d cur text () x = .ok (some r)) : Held n r.1 ∧ Extra n pretty (k + 1) p r.1 := by
  match x with
  | .text t => rw [buildKid] at h; cases h; exact ⟨hheld, hcur⟩
  | .empty name attrs =>
    rw [buildKid] at h
    rw [Xml.Faithful] at hF
    refine child_extra (ks := []) hcur hheld htext hd hpar (fun hk => by rw [if_pos hk] at hF; exact hF) ?_ ?_ h
    · intro hu hh
      rw [if_neg (by rw [hu]; intro hx; cases hx)] at hF
      exact kept_unknown rfl hu hF (by simp only [Xml.depth]; omega) hold htame
    · intro e r k' _ _ _ _ a1 a2 _ a3
      rw [buildKids] at a3
      cases a3
      exact ⟨a1, a2⟩
  | .elem name attrs ks =>
    rw [buildKid] at h
    rw [Xml.Faithful] at hF
    refine child_extra (ks := ks) hcur hheld htext hd hpar (fun hk => by rw [if_pos hk] at hF; exact hF.1) ?_ ?_ h
    · intro hu hh
      rw [if_neg (by rw [hu]; intro hx; cases hx)] at hF
      exact kept_unknown rfl hu hF (by simp only [Xml.depth]; omega) hold htame
    · intro e r k' hk hd' hs htx a1 a2 hnm a3
      rw [if_pos hk] at hF
      rcases hF.2 with hF2 | hF2
      · exact absurd hF2 hs
      · have hnd : name ≠ chars! "description" := by
          rintro rfl
          exact hs faithful_description.2
        rw [Xml.Tame, if_neg hnd, if_pos hk] at htame
        exact kids_extra ks a2 a1 htx hd' (fun hx => by rw [hnm hx]) hold.2 htame hF2 a3

theorem kids_extra {n : NumLib} {pretty : Bool} (xs : List Xml) {k d : Nat} {p : Option Ty} {pn : Option Str} {cur : Elem} {text : Str}
    {r : Elem × Str × Unit} (hcur : Extra n pretty (k + 1) p cur) (hheld : Held n cur) (htext : textual cur.ty = false)
    (hd : k + d = 100) (hpar : cur.ty = Ty.«XalLocality» → pn = some (chars! "xal:Locality")) (hold : AllOf NotOldSchema xs)
    (htame : TameAll xs) (hF : FaithfulAll n pretty pn xs)
    (h : buildKids n ([] : List (Observer Unit)) d cur text () xs = .ok (some r)) : Held n r.1 ∧ Extra n pretty (k + 1) p r.1 := by
  match xs with
  | [] => rw [buildKids] at h; cases h; exact ⟨hheld, hcur⟩
  | x :: xs =>
    obtain ⟨c, t, s1, h1, h2⟩ := buildKids_cons_inv h
    obtain ⟨a1, a2⟩ := kid_extra x hcur hheld htext hd hpar hold.1 htame.1 hF.1 h1
    have hty : c.ty = cur.ty := congrArg Prod.fst (buildKid_head h1).1
    exact kids_extra xs a2 a1 (hty ▸ htext) hd (hty ▸ hpar) hold.2 htame.2 hF.2 h2

end

/-- The element a document that comes through stands for is canonical. -/
theorem parsed_canonical {n : NumLib} {pretty : Bool} {name : Str} {attrs : List (Str × Str)} {ks : List Xml} {e : Elem}
    (hold : (Xml.elem name attrs ks).All NotOldSchema) (htame : (Xml.elem name attrs ks).Tame)
    (hF : (Xml.elem name attrs ks).Faithful n pretty none)
    (h : parseEvents n [] () (Xml.elem name attrs ks).events = .ok (some e, ())) : Canonical n pretty 100 none e := by
  refine extra_canonical ?_ (parse_held h)
  have hb := buildRoot_of_parse hold htame h
  unfold buildRoot at hb
  split at hb
  · cases hb
  · rename_i e0 hm
    have hk : isKnown name = true := made_known hm
    rw [Xml.Faithful, if_pos hk] at hF
    obtain ⟨s1, _, h9⟩ := buildKnown_inv hb
    have hmade := makeElement_held hm
    rcases h9 with ⟨a1, _, a3, _⟩ | ⟨a1, e1, t1, a2, a3⟩
    · exact finish_extra (d := 1) hm hF.1 (.inl ⟨a1, rfl, rfl⟩) (fun _ ht => new_extra hm hF.1 ht) a3
    · refine finish_extra hm hF.1 (.inr ⟨a1, a2⟩) (fun hs ht => ?_) a3
      rcases hF.2 with hF2 | hF2
      · exact absurd hF2 hs
      · have hnd : name ≠ chars! "description" := fun hx => a1 ((makeElement_description hm).2 hx)
        rw [Xml.Tame, if_neg hnd, if_pos hk] at htame
        refine (kids_extra ks (new_extra hm hF.1 ht) hmade ht (by decide) ?_ hold.2 htame hF2 a2).2
        intro hx
        rw [name_of_made hm hx (by decide) faithful_rows.2.1]

end

end Kml.Dom
