import Verif.Lemmas.StyleSplit
import Verif.Spec.StyleInline

/-!
# Lemmas about moving shared styles into features
-/

namespace Kml.Dom

open Kml

/-! ### Facts about the tables -/

theorem feature_selector_rules : featureTypes.all (fun t => (classAt t).rules.all fun r =>
    r.2.mem != M.«styleselector» || r.1 == .isA Ty.«StyleSelector») = true := by
  decide +kernel

theorem document_rules : (classAt Ty.«Document»).rules.all (fun r =>
    r.2.mem != M.«styleselector_array» ||
      (r.1 == .isA Ty.«StyleSelector» && r.2 == .many M.«styleselector_array»)) = true := by
  decide +kernel

theorem document_selector : ∀ t ∈ [Ty.«Style», Ty.«StyleMap»],
    taker Ty.«Document» (newNode t) = some (.many M.«styleselector_array») := by
  decide +kernel

theorem feature_not_special : ∀ t ∈ featureTypes, t ≠ Ty.«Update» ∧ t ≠ Ty.«Document» ∧ selfParsing t = false := by decide

theorem document_not_feature : featureTypes.contains Ty.«Document» = false := by decide

theorem self_not_special : ∀ t ∈ [Ty.«coordinates», Ty.«Snippet», Ty.«linkSnippet», Ty.«SimpleData»],
    t ≠ Ty.«Update» ∧ t ≠ Ty.«Document» ∧ featureTypes.contains t = false := by decide

theorem iconStyleIcon_not_feature : featureTypes.contains Ty.«IconStyleIcon» = false := by decide

attribute [local irreducible] kml22Elements Xsd.tagToId classes inc dec uintSize

/-! ### What becomes of an element -/

section

variable {gives : Str → Option Elem}

theorem inlinedAll_map (l : List Elem) : inlinedAll gives l = l.map (Elem.inlined gives) := by
  induction l with
  | nil => rw [inlinedAll]; rfl
  | cons e es ih => rw [inlinedAll, ih]; rfl

theorem inlined_head (e : Elem) : (e.inlined gives).head = e.head := by
  cases e with
  | field => rw [Elem.inlined]
  | node =>
    rw [Elem.inlined]
    split <;> rfl

theorem inlined_ty (e : Elem) : (e.inlined gives).ty = e.ty := head_ty (inlined_head e)

theorem inlined_isA (e : Elem) (t : Ty) : (e.inlined gives).isA t = e.isA t := by
  cases e with
  | field => rw [Elem.inlined]
  | node =>
    rw [Elem.inlined]
    split <;> rfl

theorem inlined_objectId (e : Elem) : (e.inlined gives).objectId = e.objectId := by
  cases e with
  | field => rw [Elem.inlined]
  | node =>
    rw [Elem.inlined]
    split <;> rfl

theorem inlined_sane {e : Elem} (h : Sane e) : Sane (e.inlined gives) := sane_head (inlined_head e) h

theorem matches_inlined (e : Elem) (test : Test) : test.matches (e.inlined gives) = test.matches e := by
  cases test with
  | ty t => simp only [Test.matches, inlined_ty]
  | isA t => simp only [Test.matches, inlined_isA]
  | any => rfl

theorem taker_inlined (t : Ty) (e : Elem) : taker t (e.inlined gives) = taker t e := by
  unfold taker findRule
  simp only [matches_inlined]

theorem single_inlined (l : List Elem) : single (inlinedAll gives l) = single l := by
  rw [inlinedAll_map]
  match l with
  | [] => rfl
  | [.field t s] => simp only [List.map_cons, List.map_nil, Elem.inlined]
  | [.node t a slots mis unk] =>
    simp only [List.map_cons, List.map_nil, Elem.inlined]
    split <;> rfl
  | .field _ _ :: y :: zs => rfl
  | .node _ _ _ _ _ :: y :: zs =>
    simp only [List.map_cons, Elem.inlined]
    split <;> rfl

theorem inlinedAll_fields {l : List Elem} (h : ∀ x ∈ l, ∃ t s, x = .field t s) : inlinedAll gives l = l := by
  rw [inlinedAll_map]
  refine (List.map_congr_left fun x hx => ?_).trans (List.map_id _)
  obtain ⟨t, s, rfl⟩ := h x hx
  rw [Elem.inlined]; rfl

theorem readPoints_fields {n : NumLib} {s : Str} {pts : List Elem} (h : readPoints n s = .ok pts) :
    ∀ x ∈ pts, ∃ t s, x = .field t s := by
  unfold readPoints at h
  split at h
  · rename_i r _
    cases r with
    | ok l =>
      simp only [Outcome.ok_bind, Outcome.ok.injEq] at h
      subst h
      intro x hx
      obtain ⟨v, _, rfl⟩ := List.mem_map.1 hx
      exact ⟨_, _, rfl⟩
    | throws => cases h
    | ub => cases h
  · cases h

theorem inlinedAll_append (a b : List Elem) : inlinedAll gives (a ++ b) = inlinedAll gives a ++ inlinedAll gives b := by
  simp only [inlinedAll_map, List.map_append]

theorem value_inlined (n : NumLib) (cd : Str) (old : List Elem) (child : Elem) (act : Act) :
    act.value n cd (inlinedAll gives old) (child.inlined gives) =
      (act.value n cd old child >>= fun v => .ok (inlinedAll gives v)) := by
  have hopt : ∀ (t : Ty) (v : Option Str), inlinedAll gives (v.map (Elem.field t)).toList = (v.map (Elem.field t)).toList :=
    fun t v => inlinedAll_fields fun x hx => by
      cases v with
      | none => cases hx
      | some s => exact ⟨t, s, by simpa using hx⟩
  cases act with
  | field m k =>
    cases child with
    | field t text =>
      simp only [Elem.inlined, Act.value, single_inlined]
      cases readValue n k t (single old) text with
      | ok v => simp only [Outcome.ok_bind, hopt]
      | throws => rfl
      | ub => rfl
    | node t a slots mis unk =>
      rw [Elem.inlined]
      split <;> rfl
  | fields m k =>
    cases child with
    | field t text =>
      simp only [Elem.inlined, Act.value]
      cases readValue n k t none text with
      | ok v => simp only [Outcome.ok_bind, inlinedAll_append, hopt]
      | throws => rfl
      | ub => rfl
    | node t a slots mis unk =>
      rw [Elem.inlined]
      split <;> rfl
  | one m => simp only [Act.value, Outcome.ok_bind, inlinedAll]
  | many m => simp only [Act.value, Outcome.ok_bind, inlinedAll_append, inlinedAll]
  | selfText m => simp only [Act.value, Outcome.ok_bind, inlinedAll, Elem.inlined]
  | selfPoints m =>
    simp only [Act.value]
    cases hp : readPoints n cd with
    | ok v => simp only [Outcome.ok_bind, inlinedAll_append, inlinedAll_fields (readPoints_fields hp)]
    | throws => rfl
    | ub => rfl

theorem addElement_eq (n : NumLib) (cd : Str) (t : Ty) (a : Attrs) (slots : Mem → List Elem) (mis : List Elem)
    (unk : List Str) (x : Elem) :
    addElement n cd (.node t a slots mis unk) x =
      match taker t x with
      | none => .ok (.node t a slots (mis ++ [x]) unk)
      | some act => act.value n cd (slots act.mem) x >>= fun v => .ok (.node t a (setSlot slots act.mem v) mis unk) := by
  unfold taker
  rw [addElement]
  cases hc : classOf t with
  | none => simp only
  | some c =>
    simp only
    cases hr : findRule c.rules x with
    | none => simp only
    | some act =>
      simp only [apply_eq]
      cases act.value n cd (slots act.mem) x <;> rfl

/-- Adding a child, where nothing is moved. -/
theorem add_inlined {n : NumLib} {cd : Str} {P c : Elem} (hu : P.ty ≠ Ty.«Update»)
    (hf : featureTypes.contains P.ty = true → c.ty ≠ Ty.«styleUrl» ∧
      (P.hasStyleUrl = true → c.isA Ty.«StyleSelector» = false))
    (hd : P.ty = Ty.«Document» → c.isA Ty.«StyleSelector» = true → c.objectId = none) :
    addElement n cd (P.inlined gives) (c.inlined gives) =
      (addElement n cd P c >>= fun r => .ok (r.inlined gives)) := by
  cases P with
  | field t s => simp only [Elem.inlined, addElement, Outcome.ok_bind]
  | node t a slots mis unk =>
    have hu' : t ≠ Ty.«Update» := hu
    rw [Elem.inlined, if_neg hu', addElement_eq, addElement_eq, taker_inlined]
    cases ht : taker t c with
    | none =>
      simp only [Outcome.ok_bind, Elem.inlined, if_neg hu', inlinedAll_append, inlinedAll]
    | some act =>
      simp only
      obtain ⟨cl, test, hcl, _, _, hr, hmat⟩ := taker_rule ht
      -- the value
      have hslot : (∀ w, slotInlined gives t slots act.mem w = w) ∨ (t = Ty.«Document» ∧ act = .many M.«styleselector_array» ∧
            c.isA Ty.«StyleSelector» = true) := by
        unfold slotInlined
        by_cases h : t = Ty.«Document» ∧ act.mem = M.«styleselector_array»
        · right
          have := List.all_eq_true.1 document_rules (test, act) (by rw [← h.1, classAt_eq hcl]; exact hr)
          simp only [h.2, bne_self_eq_false, Bool.false_or, Bool.and_eq_true, beq_iff_eq] at this
          rw [this.1] at hmat
          exact ⟨h.1, this.2, hmat⟩
        · left
          intro w
          rw [if_neg h]
          split
          · rename_i hft
            have hmem := List.contains_iff_mem.1 hft
            split
            · rename_i style hst
              have hhas : (Elem.node t a slots mis unk).hasStyleUrl = true := by
                simp only [Elem.hasStyleUrl]
                cases hs : slots M.«styleurl» with
                | nil => rw [hs] at hst; cases hst
                | cons => rfl
              obtain ⟨h1, h2⟩ := hf hft
              have hne1 : act.mem ≠ M.«styleurl» := by
                intro hm
                have := List.all_eq_true.1 (List.all_eq_true.1 feature_rules t hmem) (test, act) (by rw [classAt_eq hcl]; exact hr)
                simp only [hm, bne_self_eq_false, Bool.false_or, Bool.and_eq_true, beq_iff_eq] at this
                rw [this.1] at hmat
                exact h1 (of_decide_eq_true hmat)
              have hne2 : act.mem ≠ M.«styleselector» := by
                intro hm
                have := List.all_eq_true.1 (List.all_eq_true.1 feature_selector_rules t hmem) (test, act)
                  (by rw [classAt_eq hcl]; exact hr)
                simp only [hm, bne_self_eq_false, Bool.false_or, beq_iff_eq] at this
                rw [this] at hmat
                have hmat' : c.isA Ty.«StyleSelector» = true := hmat
                rw [h2 hhas] at hmat'
                cases hmat'
              rw [if_neg hne1, if_neg hne2]
            · rfl
          · rfl
      have hkeep : ∀ v, featureTypes.contains t = true → single (setSlot slots act.mem v M.«styleurl») =
          single (slots M.«styleurl») := by
        intro v hft
        have hmem := List.contains_iff_mem.1 hft
        have hne1 : act.mem ≠ M.«styleurl» := by
          intro hm
          have := List.all_eq_true.1 (List.all_eq_true.1 feature_rules t hmem) (test, act) (by rw [classAt_eq hcl]; exact hr)
          simp only [hm, bne_self_eq_false, Bool.false_or, Bool.and_eq_true, beq_iff_eq] at this
          rw [this.1] at hmat
          exact (hf hft).1 (of_decide_eq_true hmat)
        unfold setSlot
        rw [if_neg (fun h => hne1 h.symm)]
      have hstep : ∀ (v v' : List Elem), v' = slotInlined gives t slots act.mem (inlinedAll gives v) →
          setSlot (fun m => slotInlined gives t slots m (inlinedAll gives (slots m))) act.mem v' =
          fun m => slotInlined gives t (setSlot slots act.mem v) m (inlinedAll gives (setSlot slots act.mem v m)) := by
        intro v v' hv
        funext m
        have hsame : ∀ w, slotInlined gives t (setSlot slots act.mem v) m w = slotInlined gives t slots m w := by
          intro w
          unfold slotInlined
          by_cases hft : featureTypes.contains t = true
          · rw [hkeep v hft]
          · simp only [hft, if_false, Bool.false_eq_true]
        rw [hsame]
        unfold setSlot
        split
        · rename_i hm; subst hm; exact hv
        · rfl
      rcases hslot with hslot | ⟨rfl, rfl, hsel⟩
      · rw [hslot, value_inlined]
        cases hv : act.value n cd (slots act.mem) c with
        | ok v =>
          simp only [Outcome.ok_bind, Elem.inlined, if_neg hu']
          rw [hstep v _ (hslot _).symm]
        | throws => rfl
        | ub => rfl
      · simp only [Act.value, Outcome.ok_bind, Elem.inlined, if_neg hu']
        rw [hstep (slots (Act.many M.«styleselector_array»).mem ++ [c]) _ ?_]
        have hid := hd rfl hsel
        unfold slotInlined
        rw [if_pos ⟨rfl, rfl⟩, if_pos ⟨rfl, rfl⟩, inlinedAll_append, List.filter_append, inlinedAll, inlinedAll]
        simp [inlined_objectId, hid]

/-- A shared style is not added. -/
theorem drop_inlined {n : NumLib} {P c r : Elem} (hd : P.ty = Ty.«Document») (hs : c.ty = Ty.«Style» ∨ c.ty = Ty.«StyleMap»)
    (hcx : c.complex = true) (hsn : Sane P) (hid : c.objectId.isSome = true) (h : addElement n [] P c = .ok r) :
    r.inlined gives = P.inlined gives := by
  cases P with
  | field t s => cases h; rfl
  | node t a slots mis unk =>
    have ht : t = Ty.«Document» := hd
    subst ht
    have htake : taker Ty.«Document» c = some (.many M.«styleselector_array») := by
      have := document_selector c.ty (by simpa using hs)
      rw [← this]
      cases c with
      | field => cases hcx
      | node => exact taker_node _ _ _ _ _ _ _ _ _ _
    rw [addElement_eq, htake] at h
    simp only [Act.value, Outcome.ok_bind, Outcome.ok.injEq] at h
    subst h
    rw [Elem.inlined, Elem.inlined, if_neg (by decide), if_neg (by decide)]
    congr 1
    funext m
    unfold slotInlined
    by_cases hm : m = M.«styleselector_array»
    · subst hm
      rw [if_pos ⟨rfl, rfl⟩, if_pos ⟨rfl, rfl⟩]
      simp only [setSlot, Act.mem, if_true, inlinedAll_append, List.filter_append]
      rw [inlinedAll, inlinedAll]
      have : (c.inlined gives).objectId.isNone = false := by
        rw [inlined_objectId]
        cases hc : c.objectId with
        | none => rw [hc] at hid; cases hid
        | some => rfl
      simp [this]
    · simp only [hm, and_false, document_not_feature, Bool.false_eq_true, if_false, setSlot, Act.mem]

/-- A reference that gives nothing is added. -/
theorem url_kept {P : Elem} {url : Str} (hf : featureTypes.contains P.ty = true) (hs : P.hasStyleUrl = false)
    (hg : gives url = none) : (P.setStyleUrl url).inlined gives = (P.inlined gives).setStyleUrl url := by
  cases P with
  | field t s => rfl
  | node t a slots mis unk =>
    obtain ⟨h1, h2, _⟩ := feature_not_special t (List.contains_iff_mem.1 hf)
    have hnil : slots M.«styleurl» = [] := by
      simpa [Elem.hasStyleUrl] using hs
    simp only [Elem.setStyleUrl, Elem.inlined, if_neg h1]
    congr 1
    funext m
    have hf' : featureTypes.contains t = true := hf
    have e1 : ∀ w, slotInlined gives t (setSlot slots M.«styleurl» [Elem.field Ty.«styleUrl» url]) m w = w := by
      intro w
      unfold slotInlined
      rw [if_neg (fun h => h2 h.1), if_pos hf']
      simp [setSlot, single, hg]
    have e2 : ∀ m w, slotInlined gives t slots m w = w := by
      intro m w
      unfold slotInlined
      rw [if_neg (fun h => h2 h.1), if_pos hf']
      simp [hnil, single]
    rw [e1]
    simp only [e2]
    unfold setSlot
    split
    · rw [inlinedAll, inlinedAll, Elem.inlined]
    · rfl

/-- A reference that gives a style is replaced by it. -/
theorem url_moved {P style : Elem} {url : Str} (hf : featureTypes.contains P.ty = true) (hs : P.hasStyleUrl = false)
    (hg : gives url = some style) : (P.setStyleUrl url).inlined gives = (P.inlined gives).setStyleSelector style := by
  cases P with
  | field t s => rfl
  | node t a slots mis unk =>
    obtain ⟨h1, h2, _⟩ := feature_not_special t (List.contains_iff_mem.1 hf)
    have hnil : slots M.«styleurl» = [] := by
      simpa [Elem.hasStyleUrl] using hs
    simp only [Elem.setStyleUrl, Elem.setStyleSelector, Elem.inlined, if_neg h1]
    congr 1
    funext m
    have hf' : featureTypes.contains t = true := hf
    have e2 : ∀ m w, slotInlined gives t slots m w = w := by
      intro m w
      unfold slotInlined
      rw [if_neg (fun h => h2 h.1), if_pos hf']
      simp [hnil, single]
    simp only [e2]
    unfold slotInlined
    rw [if_neg (fun h => h2 h.1), if_pos hf']
    simp only [setSlot, if_true, single, Option.bind_some, hg]
    by_cases hm : m = M.«styleurl»
    · subst hm
      simp [hnil, inlinedAll, show (M.«styleurl» = M.«styleselector») = False from by simp]
    · simp only [if_neg hm]

theorem setCharData_inlined (e : Elem) (s : Str) : setCharData (e.inlined gives) s = (setCharData e s).inlined gives := by
  cases e with
  | field => simp only [Elem.inlined, setCharData]
  | node t a slots mis unk =>
    have h1 : setCharData (.node t a slots mis unk) s = .node t a slots mis unk := rfl
    rw [h1, Elem.inlined]
    split <;> rfl

/-- The end of an element. -/
theorem finish_inlined (n : NumLib) (e : Elem) (s : Str) :
    finishElement n (e.inlined gives) s = (finishElement n e s >>= fun r => .ok (r.inlined gives)) := by
  unfold finishElement
  rw [inlined_ty, setCharData_inlined]
  split
  · rename_i hself
    have hty : (setCharData e s).ty = e.ty := by cases e <;> rfl
    have hmem : e.ty ∈ [Ty.«coordinates», Ty.«Snippet», Ty.«linkSnippet», Ty.«SimpleData»] := by
      unfold selfParsing at hself
      simp only [Bool.or_eq_true, decide_eq_true_eq] at hself
      simp only [List.mem_cons, List.not_mem_nil, or_false]
      tauto
    obtain ⟨h1, h2, h3⟩ := self_not_special _ hmem
    refine add_inlined (by rw [hty]; exact h1) (fun h => ?_) (fun h => ?_)
    · rw [hty, h3] at h; cases h
    · rw [hty] at h; exact absurd h h2
  · rfl

end

/-! ### Parsing along -/

theorem style_id {n : NumLib} {p : Ty} {x : Xml} {c : Elem} {name : Str} {attrs : List (Str × Str)} {ks : List Xml}
    (h : StandsFor n p x c) (hp : x.parts = some (name, attrs, ks)) (hs : c.ty = Ty.«Style» ∨ c.ty = Ty.«StyleMap») :
    c.objectId = attrValue (chars! "id") attrs := by
  obtain ⟨name', attrs', ks', hp', hty, h2⟩ := standsFor_cases h
  rw [hp] at hp'
  cases hp'
  have hcx := style_complex h hs
  rcases h2 with ⟨hsim, _⟩ | ⟨_, hc, slots, mis, unk, rfl⟩
  · obtain ⟨s, rfl⟩ := simple_field h hp hsim
    cases hcx
  · rw [node_objectId hc]
    unfold tagId
    rw [if_pos]
    rw [← hty] at hs
    exact (style_not_textual (tyIn p name) (by simpa [Elem.ty] using hs)).2.2.1

/-- The shared styles marked are put into the map. -/
def Put (n : NumLib) (gives : Str → Option Elem) (marks : List (Option Xml)) (m m' : StdMap Elem) : Prop :=
  ∃ cs, Each (StandsFor n Ty.«Document») (marks.filterMap id) cs ∧
    m' = cs.foldl (fun m c => m.set (c.objectId.getD []) (c.inlined gives)) m

theorem Put.none {n : NumLib} {gives : Str → Option Elem} {marks : List (Option Xml)} {m : StdMap Elem}
    (h : marks.filterMap id = []) : Put n gives marks m m := ⟨[], by rw [h]; exact .nil, rfl⟩

theorem Put.append {n : NumLib} {gives : Str → Option Elem} {a b : List (Option Xml)} {m m' m'' : StdMap Elem}
    (h : Put n gives a m m') (h' : Put n gives b m' m'') : Put n gives (a ++ b) m m'' := by
  obtain ⟨cs, h1, rfl⟩ := h
  obtain ⟨ds, h2, rfl⟩ := h'
  exact ⟨cs ++ ds, by rw [List.filterMap_append]; exact h1.append h2, by rw [List.foldl_append]⟩

theorem Put.same {n : NumLib} {gives : Str → Option Elem} {marks : List (Option Xml)} {m m' : StdMap Elem}
    (h : Put n gives marks m m') (hn : ∀ a ∈ marks, a = Option.none) : m' = m := by
  obtain ⟨cs, h1, rfl⟩ := h
  have : marks.filterMap id = [] := by
    rw [List.filterMap_eq_nil_iff]
    intro a ha
    rw [hn a ha]; rfl
  rw [this] at h1
  cases h1
  rfl

section

/-- `localStyle`, with `j` for a style that cannot be resolved. -/
def localOr (j : Option Elem) (split : Str → Option (Str × Str)) (resolve : StdMap Elem → Str → Outcome Elem)
    (shared : StdMap Elem) (url : Str) : Option Elem :=
  match split url with
  | some ([], id) =>
    if (shared.get id).isSome then
      match resolve shared url with
      | .ok style => some style
      | _ => j
    else none
  | _ => none

theorem localOr_none : localOr none = localStyle := by
  funext split resolve shared url
  unfold localOr localStyle
  rfl

variable {n : NumLib} {split : Str → Option (Str × Str)} {resolve : StdMap Elem → Str → Outcome Elem} {F : StdMap Elem}
  {j : Option Elem}

theorem update_not_style {x : Xml} {p : Ty} {c : Elem} (hst : StandsFor n p x c) (h : c.ty = Ty.«Update») :
    c.isA Ty.«StyleSelector» = false := by
  rw [isA_selector (standsFor_sane hst), h]
  decide

/-- A child ends. -/
theorem attach_inline {cur c cur' : Elem} {x : Xml} {name : Str} {attrs : List (Str × Str)} {ks : List Xml} {s2 s' : Inliner}
    {r : Bool × Elem × Inliner} (hs : Sane cur) (hu : cur.ty ≠ Ty.«Update») (hst : StandsFor n cur.ty x c)
    (hp : x.parts = some (name, attrs, ks)) (hin : s2.inUpdate = decide (c.ty = Ty.«Update»))
    (hfeat : featureTypes.contains cur.ty = true → cur.hasStyleUrl = true → x.styling = false)
    (hF : none ∈ markOf cur.ty name attrs x → s'.shared = F)
    (hfin : s2.finish split resolve (cur.inlined (localOr j split resolve F)) (c.inlined (localOr j split resolve F)) = .ok r)
    (hg : giveChild n r.1 r.2.1 (c.inlined (localOr j split resolve F)) = .ok cur')
    (hs' : s' = (inliner split resolve).added r.2.2 cur' (c.inlined (localOr j split resolve F))) :
    ∃ c1, addElement n [] cur c = .ok c1 ∧ cur' = c1.inlined (localOr j split resolve F) ∧ s'.inUpdate = false ∧
      (featureTypes.contains cur.ty = true → c1.hasStyleUrl = true →
        cur.hasStyleUrl = true ∨ x.named (chars! "styleUrl") = true) ∧
      Put n (localOr j split resolve F) (markOf cur.ty name attrs x) s2.shared s'.shared := by
  have hcs := standsFor_sane hst
  have hty : c.ty = tyIn cur.ty name := by
    obtain ⟨name', attrs', ks', hp', h1, _⟩ := standsFor_cases hst
    rw [hp] at hp'
    cases hp'
    exact h1
  have hnamed : ∀ nm, x.named nm = decide (name = nm) := by
    intro nm
    cases x with
    | text => cases hp
    | empty => cases hp; rfl
    | elem => cases hp; rfl
  have hurl : ∀ c1, addElement n [] cur c = .ok c1 → featureTypes.contains cur.ty = true → c1.hasStyleUrl = true →
      cur.hasStyleUrl = true ∨ x.named (chars! "styleUrl") = true := by
    intro c1 hadd hf hc1
    rw [give_hasUrl hf hs hcs hadd, Bool.or_eq_true, decide_eq_true_eq, hty, tyIn_styleUrl] at hc1
    rw [hnamed, decide_eq_true_eq]
    exact hc1
  have hsel : c.isA Ty.«StyleSelector» = true ↔ (name = chars! "Style" ∨ name = chars! "StyleMap") := by
    rw [isA_selector hcs, hty, Bool.or_eq_true, decide_eq_true_eq, decide_eq_true_eq, tyIn_style, tyIn_styleMap]
  have hselty : c.isA Ty.«StyleSelector» = true → (c.ty = Ty.«Style» ∨ c.ty = Ty.«StyleMap») := by
    intro h
    rw [isA_selector hcs, Bool.or_eq_true, decide_eq_true_eq, decide_eq_true_eq] at h
    exact h
  have hsty : c.isA Ty.«StyleSelector» = true → x.styling = true := by
    intro h
    unfold Xml.styling
    rw [hnamed, hnamed, hnamed]
    simp only [Bool.or_eq_true, decide_eq_true_eq]
    have := hsel.1 h
    tauto
  have hadded : s'.shared = r.2.2.shared ∧ (r.2.2.inUpdate = decide (c.ty = Ty.«Update») → s'.inUpdate = false) := by
    rw [hs']
    simp only [inliner, isA_update, inlined_ty]
    by_cases h : c.ty = Ty.«Update»
    · simp [h]
    · simp [h]
  unfold Inliner.finish at hfin
  rw [hin] at hfin
  simp only [inlined_isA, inlined_ty, inlined_objectId, isDocument_eq] at hfin
  have plain : r = (true, cur.inlined (localOr j split resolve F), s2) →
      (featureTypes.contains cur.ty = true → c.ty ≠ Ty.«styleUrl») →
      (cur.ty = Ty.«Document» → c.isA Ty.«StyleSelector» = true → c.objectId = none) →
      ∃ c1, addElement n [] cur c = .ok c1 ∧ cur' = c1.inlined (localOr j split resolve F) ∧ s'.inUpdate = false ∧
      (featureTypes.contains cur.ty = true → c1.hasStyleUrl = true →
        cur.hasStyleUrl = true ∨ x.named (chars! "styleUrl") = true) ∧
      Put n (localOr j split resolve F) (markOf cur.ty name attrs x) s2.shared s'.shared := by
    rintro rfl hnu hnd
    simp only [giveChild, if_true] at hg
    rw [add_inlined hu (fun hf => ⟨hnu hf, fun hhas => by
      rw [Bool.eq_false_iff]
      intro h
      rw [hfeat hf hhas] at hsty
      exact absurd (hsty h) (by simp)⟩) hnd] at hg
    cases hadd : addElement n [] cur c with
    | ok c1 =>
      rw [hadd] at hg
      simp only [Outcome.ok_bind, Outcome.ok.injEq] at hg
      refine ⟨c1, rfl, hg.symm, hadded.2 hin, hurl c1 hadd, ?_⟩
      rw [hadded.1]
      have : markOf cur.ty name attrs x = [] := by
        unfold markOf
        rw [if_neg, if_neg]
        · rintro ⟨h1, h2⟩
          exact hnu h1 (by rw [hty]; exact (tyIn_styleUrl _ _).2 h2)
        · rintro ⟨h1, h2, h3⟩
          have h4 := hsel.2 h2
          have h5 := hnd h1 h4
          rw [style_id hst hp (hselty h4)] at h5
          rw [h5] at h3
          cases h3
      rw [this]
      exact .none rfl
    | throws => rw [hadd] at hg; cases hg
    | ub => rw [hadd] at hg; cases hg
  by_cases hcu : c.ty = Ty.«Update»
  · simp only [hcu, decide_true, if_true, Outcome.ok.injEq] at hfin
    refine plain hfin.symm (fun _ => by rw [hcu]; decide) (fun _ h => ?_)
    rw [update_not_style hst hcu] at h
    cases h
  · simp only [hcu, decide_false, Bool.false_eq_true, if_false] at hfin
    by_cases hdoc : (decide (cur.ty = Ty.«Document») && c.isA Ty.«StyleSelector») = true
    · rw [if_pos hdoc] at hfin
      rw [Bool.and_eq_true, decide_eq_true_eq] at hdoc
      obtain ⟨hd1, hd2⟩ := hdoc
      cases hid : c.objectId with
      | none =>
        rw [hid] at hfin
        have hpf : (cur.inlined (localOr j split resolve F)).plainFeature = false := by
          rw [plainFeature_iff (inlined_sane hs), inlined_ty, hd1]
          exact document_not_feature
        simp only [hpf, Bool.false_and, Bool.false_eq_true, if_false, Outcome.ok.injEq] at hfin
        refine plain hfin.symm (fun h => ?_) (fun _ _ => hid)
        rw [hd1, document_not_feature] at h
        cases h
      | some id =>
        rw [hid] at hfin
        simp only [Outcome.ok.injEq] at hfin
        subst hfin
        simp only [giveChild, Bool.false_eq_true, if_false, Outcome.ok.injEq] at hg
        have hcx := style_complex hst (hselty hd2)
        have hadd : ∃ c1, addElement n [] cur c = .ok c1 := by
          cases cur with
          | field t s => exact ⟨_, rfl⟩
          | node t a slots mis unk =>
            have ht : t = Ty.«Document» := hd1
            subst ht
            have htake : taker Ty.«Document» c = some (.many M.«styleselector_array») := by
              have := document_selector c.ty (by simpa using hselty hd2)
              rw [← this]
              cases c with
              | field => cases hcx
              | node => exact taker_node _ _ _ _ _ _ _ _ _ _
            rw [addElement_eq, htake]
            exact ⟨_, rfl⟩
        obtain ⟨c1, hadd⟩ := hadd
        refine ⟨c1, hadd, ?_, hadded.2 (by simp [hcu]), hurl c1 hadd, ?_⟩
        · rw [drop_inlined hd1 (hselty hd2) hcx hs (by rw [hid]; rfl) hadd]
          exact hg.symm
        · rw [hadded.1]
          have hm : markOf cur.ty name attrs x = [some x] := by
            unfold markOf
            refine if_pos ⟨hd1, hsel.1 hd2, ?_⟩
            rw [← style_id hst hp (hselty hd2), hid]
            rfl
          rw [hm]
          refine ⟨[c], ?_, ?_⟩
          · show Each _ [x] [c]
            exact .cons (by rw [hd1] at hst; exact hst) .nil
          · simp only [List.foldl_cons, List.foldl_nil, hid, Option.getD_some]
    · rw [if_neg hdoc] at hfin
      simp only at hfin
      have hnd : cur.ty = Ty.«Document» → c.isA Ty.«StyleSelector» = true → c.objectId = none := by
        intro h1 h2
        rw [h1, h2] at hdoc
        exact absurd rfl hdoc
      rw [plainFeature_iff (inlined_sane hs), inlined_ty] at hfin
      by_cases hft : (featureTypes.contains cur.ty && decide (c.ty = Ty.«styleUrl»)) = true
      · rw [if_pos hft] at hfin
        rw [Bool.and_eq_true, decide_eq_true_eq] at hft
        obtain ⟨hf, hcurl⟩ := hft
        have hnm : name = chars! "styleUrl" := by rw [hty] at hcurl; exact (tyIn_styleUrl _ _).1 hcurl
        obtain ⟨u, rfl⟩ : ∃ u, c = .field Ty.«styleUrl» u := by
          cases c with
          | field t' s => exact ⟨s, by rw [show t' = Ty.«styleUrl» from hcurl]⟩
          | node t' a' sl' mi' un' =>
            exfalso
            obtain ⟨c, hcl⟩ := Option.isSome_iff_exists.1 hcs
            have := List.all_eq_true.1 classes_simple _ (classOf_pair hcl)
            rw [show t' = Ty.«styleUrl» from hcurl, styleUrl_simple] at this
            simp at this
        have hno : cur.hasStyleUrl = false := by
          rw [Bool.eq_false_iff]
          intro h
          have := hfeat hf h
          unfold Xml.styling at this
          rw [hnamed] at this
          simp [hnm] at this
        have hmark : markOf cur.ty name attrs x = [none] := by
          unfold markOf
          rw [if_neg, if_pos ⟨hf, hnm⟩]
          rintro ⟨h1, _⟩
          rw [h1, document_not_feature] at hf
          cases hf
        have hF' := hF (by rw [hmark]; simp)
        have hadd := add_styleUrl (n := n) hf hs u
        refine ⟨_, hadd, ?_⟩
        rw [hadded.1] at hF'
        rw [hadded.1, hmark]
        simp only [Elem.inlined, Elem.charData] at hfin
        unfold Inliner.url at hfin
        have keep : r = (true, cur.inlined (localOr j split resolve F), s2) → localOr j split resolve F u = none →
            cur' = (cur.setStyleUrl u).inlined (localOr j split resolve F) ∧ s'.inUpdate = false ∧
            (featureTypes.contains cur.ty = true → (cur.setStyleUrl u).hasStyleUrl = true →
              cur.hasStyleUrl = true ∨ x.named (chars! "styleUrl") = true) ∧
            Put n (localOr j split resolve F) [none] s2.shared r.2.2.shared := by
          rintro rfl hnone
          simp only [giveChild, if_true, Elem.inlined] at hg
          rw [add_styleUrl (by rw [inlined_ty]; exact hf) (inlined_sane hs)] at hg
          simp only [Outcome.ok.injEq] at hg
          exact ⟨by rw [url_kept hf hno hnone]; exact hg.symm, hadded.2 hin, hurl _ hadd, .none rfl⟩
        cases hsp : split u with
        | none =>
          rw [hsp] at hfin
          simp only [Outcome.ok.injEq] at hfin
          refine keep hfin.symm ?_
          unfold localOr
          rw [hsp]
        | some q =>
          obtain ⟨path, fragment⟩ := q
          rw [hsp] at hfin
          simp only at hfin
          by_cases hc : (decide (path = []) && (s2.shared.get fragment).isSome) = true
          · rw [if_pos hc] at hfin
            rw [Bool.and_eq_true, decide_eq_true_eq] at hc
            obtain ⟨rfl, hsome⟩ := hc
            cases hr : resolve s2.shared u with
            | ok style =>
              rw [hr] at hfin
              simp only [Outcome.ok_bind, Outcome.ok.injEq] at hfin
              subst hfin
              simp only at hF'
              have hgv : localOr j split resolve F u = some style := by
                unfold localOr
                rw [hsp]
                simp only
                rw [← hF', if_pos hsome, hr]
              simp only [giveChild, Bool.false_eq_true, if_false, Outcome.ok.injEq] at hg
              exact ⟨by rw [url_moved hf hno hgv]; exact hg.symm, hadded.2 hin, hurl _ hadd, .none rfl⟩
            | throws => rw [hr] at hfin; cases hfin
            | ub => rw [hr] at hfin; cases hfin
          · rw [if_neg hc] at hfin
            simp only [Outcome.ok.injEq] at hfin
            refine keep hfin.symm ?_
            subst hfin
            unfold localOr
            rw [hsp]
            cases path with
            | nil =>
              simp only at hF' ⊢
              rw [← hF', if_neg]
              simpa using hc
            | cons => rfl
      · rw [if_neg hft] at hfin
        simp only [Outcome.ok.injEq] at hfin
        refine plain hfin.symm (fun h1 h2 => ?_) hnd
        rw [h1, h2] at hft
        exact hft rfl

theorem inliner_new {s : Inliner} {e : Elem} :
    callAll (fun o s => o.new s e) [(inliner split resolve).watch] s = (true, s.new e) := rfl

theorem new_in {s : Inliner} (h : s.inUpdate = true) (e : Elem) : s.new e = s := by
  cases s
  simp only at h
  subst h
  rfl

/-- A known element without content of its own, as one with none. -/
theorem stands_empty {p : Ty} {name : Str} {attrs : List (Str × Str)} {d : Nat} {e c : Elem}
    (hm : makeElement n (some p) (Xsd.elementId name) attrs = some e)
    (hb : buildKnown n ([] : List (Observer Unit)) (d + 1) e () [] 0 (fun e s => .ok (some (e, [], s))) = .ok (some (c, ()))) :
    StandsFor n p (.empty name attrs) c := by
  refine ⟨name, attrs, [], d, e, .inl ⟨rfl, rfl⟩, hm, ?_⟩
  have : (fun (e : Elem) (s : Unit) => buildKids n ([] : List (Observer Unit)) (d + 1) e [] s []) =
      fun e s => .ok (some (e, [], s)) := by
    funext e s; rw [buildKids]
  rw [this]
  exact hb

theorem stands_ty {p : Ty} {x : Xml} {c : Elem} {name : Str} {attrs : List (Str × Str)} {ks : List Xml}
    (h : StandsFor n p x c) (hp : x.parts = some (name, attrs, ks)) : c.ty = tyIn p name := by
  obtain ⟨name', attrs', ks', hp', h1, _⟩ := standsFor_cases h
  rw [hp] at hp'
  cases hp'
  exact h1

/-- The end of a child in an `Update`. -/
theorem attach_update {cur c cur' : Elem} {s s' : Inliner} {r : Bool × Elem × Inliner} (hin : s.inUpdate = true)
    (hc : c.ty ≠ Ty.«Update») (hfin : s.finish split resolve cur c = .ok r) (hg : giveChild n r.1 r.2.1 c = .ok cur')
    (hs' : s' = (inliner split resolve).added r.2.2 cur' c) : addElement n [] cur c = .ok cur' ∧ s' = s := by
  unfold Inliner.finish at hfin
  rw [if_pos hin] at hfin
  cases hfin
  refine ⟨hg, ?_⟩
  rw [hs']
  simp only [inliner, isA_update, hc, decide_false, Bool.false_eq_true, if_false]

mutual

theorem kid_update : ∀ (x : Xml) {d : Nat} {cur : Elem} {text : Str} {s : Inliner} {cur' : Elem} {text' : Str} {s' : Inliner},
    s.inUpdate = true → x.All (fun m _ => m ≠ chars! "Update") →
    buildKidW n (inliner split resolve) d cur text s x = .ok (some (cur', text', s')) →
    buildKid n ([] : List (Observer Unit)) d cur text () x = .ok (some (cur', text', ())) ∧ s' = s
  | .text t, d, cur, text, s, cur', text', s', hin, hx, h => by
    rw [buildKidW] at h
    cases h
    exact ⟨by rw [buildKid], rfl⟩
  | .empty name attrs, d, cur, text, s, cur', text', s', hin, hx, h => by
    rw [buildKidW] at h
    rw [buildKid]
    obtain ⟨hd, ht, h3⟩ := buildChildW_inv h
    subst ht
    rcases h3 with ⟨hk, hm, hh, hc, hs'⟩ | ⟨hk, e, child, s2, r, hm, hb, hfin, hg, hs'⟩
    · subst hs' hc
      refine ⟨?_, rfl⟩
      unfold buildChild
      rw [if_neg (by omega)]
      simp only [hm, if_neg (show ¬ d + 1 + 0 > 100 by omega)]
    · obtain ⟨s1, h1, h2⟩ := buildKnown_inv hb
      rw [inliner_new, new_in hin] at h1
      cases h1
      have hplain : buildKnown n ([] : List (Observer Unit)) (d + 1) e () [] 0
          (fun e s => .ok (some (e, [], s))) = .ok (some (child, ())) ∧ s2 = s := by
        rcases h2 with ⟨hx, hdd, hf, rfl⟩ | ⟨hx, e1, text, hkids, hf⟩
        · exact ⟨buildKnown_plain_desc hx hdd hf, rfl⟩
        · cases hkids
          exact ⟨buildKnown_plain hx rfl hf, rfl⟩
      obtain ⟨hplain, rfl⟩ := hplain
      have hcty := stands_ty (stands_empty hm hplain) rfl
      obtain ⟨hadd, hss⟩ := attach_update hin (by
        rw [hcty, Ne, tyIn_update]
        exact hx) hfin hg hs'
      exact ⟨buildChild_plain hd hm hplain hadd, hss⟩
  | .elem name attrs ks, d, cur, text, s, cur', text', s', hin, hx, h => by
    rw [buildKidW] at h
    rw [buildKid]
    obtain ⟨hd, ht, h3⟩ := buildChildW_inv h
    subst ht
    rcases h3 with ⟨hk, hm, hh, hc, hs'⟩ | ⟨hk, e, child, s2, r, hm, hb, hfin, hg, hs'⟩
    · subst hs' hc
      refine ⟨?_, rfl⟩
      unfold buildChild
      rw [if_neg (by omega)]
      simp only [hm, if_neg (show ¬ d + 1 + depthOf ks > 100 by omega)]
    · obtain ⟨s1, h1, h2⟩ := buildKnown_inv hb
      rw [inliner_new, new_in hin] at h1
      cases h1
      have hplain : buildKnown n ([] : List (Observer Unit)) (d + 1) e () (renderAll ks) (depthOf ks)
          (fun e s => buildKids n ([] : List (Observer Unit)) (d + 1) e [] s ks) = .ok (some (child, ())) ∧ s2 = s := by
        rcases h2 with ⟨hx, hdd, hf, rfl⟩ | ⟨hxd, e1, text1, hkids, hf⟩
        · exact ⟨buildKnown_plain_desc hx hdd hf, rfl⟩
        · obtain ⟨k1, k2⟩ := kids_update ks hin hx.2 hkids
          exact ⟨buildKnown_plain hxd k1 hf, k2⟩
      obtain ⟨hplain, rfl⟩ := hplain
      have hst : StandsFor n cur.ty (.elem name attrs ks) child := ⟨name, attrs, ks, d, e, .inr rfl, hm, hplain⟩
      have hcty := stands_ty hst rfl
      obtain ⟨hadd, hss⟩ := attach_update hin (by
        rw [hcty, Ne, tyIn_update]
        exact hx.1) hfin hg hs'
      exact ⟨buildChild_plain hd hm hplain hadd, hss⟩

theorem kids_update : ∀ (xs : List Xml) {d : Nat} {cur : Elem} {text : Str} {s : Inliner} {cur' : Elem} {text' : Str}
    {s' : Inliner}, s.inUpdate = true → AllOf (fun m _ => m ≠ chars! "Update") xs →
    buildKidsW n (inliner split resolve) d cur text s xs = .ok (some (cur', text', s')) →
    buildKids n ([] : List (Observer Unit)) d cur text () xs = .ok (some (cur', text', ())) ∧ s' = s
  | [], d, cur, text, s, cur', text', s', hin, hx, h => by
    rw [buildKidsW] at h
    cases h
    exact ⟨by rw [buildKids], rfl⟩
  | x :: xs, d, cur, text, s, cur', text', s', hin, hx, h => by
    obtain ⟨c, t, s1, h1, h2⟩ := buildKidsW_cons_inv h
    obtain ⟨k1, rfl⟩ := kid_update x hin hx.1 h1
    obtain ⟨k2, rfl⟩ := kids_update xs hin hx.2 h2
    refine ⟨?_, rfl⟩
    rw [buildKids, k1]
    simp only [Outcome.ok_bind]
    exact k2

end

theorem addUnknown_inlined {gives : Str → Option Elem} (e : Elem) (s : Str) (hu : e.ty ≠ Ty.«Update») :
    addUnknownElement (e.inlined gives) s = (addUnknownElement e s).inlined gives := by
  cases e with
  | field t x => simp only [Elem.inlined, addUnknownElement]
  | node t a slots mis unk =>
    have hu' : t ≠ Ty.«Update» := hu
    simp only [Elem.inlined, addUnknownElement, if_neg hu']

theorem make_inlined {gives : Str → Option Elem} {p : Option Ty} {t : Ty} {attrs : List (Str × Str)} {e : Elem}
    (h : makeElement n p t attrs = some e) : e.inlined gives = e ∧ e.hasStyleUrl = false := by
  rcases makeElement_cases h with ⟨_, rfl⟩ | ⟨_, _, he⟩
  · exact ⟨by rw [Elem.inlined], rfl⟩
  · rw [he]
    refine ⟨?_, rfl⟩
    rw [Elem.inlined]
    split
    · rfl
    · congr 1
      funext m
      unfold slotInlined
      rw [inlinedAll]
      simp [single]

theorem stylesFirst_append {a b : List (Option Xml)} (h : StylesFirst (a ++ b)) :
    StylesFirst a ∧ StylesFirst b ∧ (none ∈ a → ∀ y ∈ b, y = none) := by
  unfold StylesFirst at h
  rw [List.pairwise_append] at h
  exact ⟨h.1, h.2.1, fun hn y hy => h.2.2 none hn y hy rfl⟩

theorem feature_elementId {p : Ty} {name : Str} (h : featureTypes.contains (tyIn p name) = true) :
    featureTypes.contains (Xsd.elementId name) = true := by
  unfold tyIn at h
  split at h
  · rw [iconStyleIcon_not_feature] at h; cases h
  · exact h

theorem update_inlined {gives : Str → Option Elem} {e : Elem} (h : e.ty = Ty.«Update») : e.inlined gives = e := by
  cases e with
  | field => rw [Elem.inlined]
  | node t a slots mis unk => rw [Elem.inlined, if_pos (show t = _ from h)]

theorem objectId_head {e e' : Elem} (h : e'.head = e.head) : e'.objectId = e.objectId := by
  have h1 := congrArg (·.1) h
  have h2 := congrArg (·.2) h
  cases e <;> cases e' <;> simp only [Elem.head, Elem.ty, Elem.attrs] at h1 h2
  · rfl
  · cases h2
  · cases h2
  · subst h1
    simp only [Option.some.injEq] at h2
    subst h2
    rfl

/-- The id of an element just made, if it is a style. -/
theorem make_id {p : Ty} {name : Str} {attrs : List (Str × Str)} {e : Elem}
    (hm : makeElement n (some p) (Xsd.elementId name) attrs = some e) (hs : e.ty = Ty.«Style» ∨ e.ty = Ty.«StyleMap») :
    e.objectId = attrValue (chars! "id") attrs ∨ e.objectId = none := by
  rcases makeElement_cases hm with ⟨_, rfl⟩ | ⟨_, hc, he⟩
  · exact .inr rfl
  · left
    rw [he, node_objectId hc]
    unfold tagId
    rw [if_pos]
    exact (style_not_textual e.ty (by simpa using hs)).2.2.1

theorem finish_head {s : Inliner} {parent child : Elem} {r : Bool × Elem × Inliner}
    (h : s.finish split resolve parent child = .ok r) : r.2.1.head = parent.head ∧ r.2.2.inUpdate = s.inUpdate ∧
      (r.2.2.shared = s.shared ∨ (s.inUpdate = false ∧ parent.ty = Ty.«Document» ∧ child.isA Ty.«StyleSelector» = true ∧
        child.objectId.isSome = true)) := by
  unfold Inliner.finish at h
  split at h
  · cases h; exact ⟨rfl, rfl, .inl rfl⟩
  · rename_i hin
    split at h
    · rename_i id hid
      cases h
      refine ⟨rfl, rfl, .inr ?_⟩
      split at hid
      · rename_i hd
        rw [Bool.and_eq_true, isDocument_eq, decide_eq_true_eq] at hd
        exact ⟨by simpa using hin, hd.1, hd.2, by rw [hid]; rfl⟩
      · cases hid
    · split at h
      · unfold Inliner.url at h
        split at h
        · split at h
          · cases hr : resolve s.shared child.charData with
            | ok style =>
              rw [hr] at h
              cases h
              refine ⟨?_, rfl, .inl rfl⟩
              cases parent <;> rfl
            | throws => rw [hr] at h; cases h
            | ub => rw [hr] at h; cases h
          · cases h; exact ⟨rfl, rfl, .inl rfl⟩
        · cases h; exact ⟨rfl, rfl, .inl rfl⟩
      · cases h; exact ⟨rfl, rfl, .inl rfl⟩

/-- The end of a child; nothing is put if it is not marked as a shared style. -/
theorem inliner_kept {cur e child cur' : Elem} {x : Xml} {name : Str} {attrs : List (Str × Str)} {s2 s' : Inliner}
    {r : Bool × Elem × Inliner} (hm : makeElement n (some cur.ty) (Xsd.elementId name) attrs = some e)
    (hh : child.head = e.head) (hin : s2.inUpdate = decide (e.ty = Ty.«Update»))
    (hfin : s2.finish split resolve cur child = .ok r) (hg : giveChild n r.1 r.2.1 child = .ok cur')
    (hs' : s' = (inliner split resolve).added r.2.2 cur' child) :
    cur'.head = cur.head ∧ s'.inUpdate = false ∧
      ((∀ a ∈ markOf cur.ty name attrs x, a = none) → s'.shared = s2.shared) := by
  obtain ⟨f1, f2, f3⟩ := finish_head hfin
  have hsane := sane_head hh (make_sane hm)
  have hcty : child.ty = e.ty := head_ty hh
  have hadded : s'.shared = r.2.2.shared ∧ (r.2.2.inUpdate = decide (e.ty = Ty.«Update») → s'.inUpdate = false) := by
    rw [hs']
    simp only [inliner, isA_update, hcty]
    by_cases h : e.ty = Ty.«Update»
    · simp [h]
    · simp [h]
  refine ⟨(giveChild_head hg).1.trans f1, hadded.2 (by rw [f2, hin]), fun hmark => ?_⟩
  rw [hadded.1]
  rcases f3 with h | ⟨_, h1, h2, h3⟩
  · exact h
  · exfalso
    rw [isA_selector hsane, Bool.or_eq_true, decide_eq_true_eq, decide_eq_true_eq, hcty] at h2
    rw [objectId_head hh] at h3
    rcases make_id hm h2 with hid | hid
    · rw [hid] at h3
      have hty := makeElement_tyIn hm
      rw [hty, tyIn_style, tyIn_styleMap] at h2
      have : markOf cur.ty name attrs x = [some x] := by
        unfold markOf
        exact if_pos ⟨h1, h2, h3⟩
      rw [this] at hmark
      exact absurd (hmark _ (List.mem_singleton.2 rfl)) (by simp)
    · rw [hid] at h3; cases h3

mutual

/-- Nothing is put when no shared style is marked. -/
theorem kid_same : ∀ (x : Xml) {d : Nat} {cur : Elem} {text : Str} {s : Inliner} {c' : Elem} {t' : Str} {s' : Inliner},
    s.inUpdate = false → x.Neat →
    buildKidW n (inliner split resolve) d cur text s x = .ok (some (c', t', s')) →
    c'.head = cur.head ∧ s'.inUpdate = false ∧ ((∀ a ∈ x.marks cur.ty, a = none) → s'.shared = s.shared)
  | .text t, d, cur, text, s, c', t', s', hin, hneat, h => by
    rw [buildKidW] at h
    cases h
    exact ⟨rfl, hin, fun _ => rfl⟩
  | .empty name attrs, d, cur, text, s, c', t', s', hin, hneat, h => by
    rw [buildKidW] at h
    obtain ⟨hd, ht, h3⟩ := buildChildW_inv h
    rcases h3 with ⟨hk, hm, hh, hc, hs'⟩ | ⟨hk, e, child, s2, r, hm, hb, hfin, hg, hs'⟩
    · subst hs' hc
      exact ⟨by cases cur <;> rfl, hin, fun _ => rfl⟩
    · rw [Xml.marks, hk, if_pos rfl]
      obtain ⟨s1, h1, h2⟩ := buildKnown_inv hb
      rw [inliner_new] at h1
      cases h1
      have hstep : child.head = e.head ∧ s2 = s.new e := by
        rcases h2 with ⟨hx, hdd, hf, rfl⟩ | ⟨hx, e1, text, hkids, hf⟩
        · exact ⟨finishElement_node hf, rfl⟩
        · cases hkids
          exact ⟨finishElement_node hf, rfl⟩
      obtain ⟨hhead, rfl⟩ := hstep
      exact inliner_kept (s2 := s.new e) hm hhead (by simp only [Inliner.new, hin, Bool.false_or, isA_update]) hfin hg hs'
  | .elem name attrs ks, d, cur, text, s, c', t', s', hin, hneat, h => by
    rw [buildKidW] at h
    obtain ⟨hd, ht, h3⟩ := buildChildW_inv h
    rcases h3 with ⟨hk, hm, hh, hc, hs'⟩ | ⟨hk, e, child, s2, r, hm, hb, hfin, hg, hs'⟩
    · subst hs' hc
      exact ⟨by cases cur <;> rfl, hin, fun _ => rfl⟩
    · rw [Xml.marks, hk, if_pos rfl]
      have hty := makeElement_tyIn hm
      have hdesc := makeElement_description hm
      obtain ⟨s1, h1, h2⟩ := buildKnown_inv hb
      rw [inliner_new] at h1
      cases h1
      have hstep : child.head = e.head ∧ s2.inUpdate = decide (e.ty = Ty.«Update») ∧
          ((∀ a ∈ (if name = chars! "description" ∨ name = chars! "Update" then [] else marksOf (tyIn cur.ty name) ks), a = none) →
            s2.shared = s.shared) := by
        rcases h2 with ⟨hx, hdd, hf, rfl⟩ | ⟨hx, e1, text, hkids, hf⟩
        · exact ⟨finishElement_node hf, by simp only [Inliner.new, hin, Bool.false_or, isA_update], fun _ => rfl⟩
        · have hn : name ≠ chars! "description" := fun h => hx (hdesc.2 h)
          by_cases hup : name = chars! "Update"
          · have heu : e.ty = Ty.«Update» := by rw [hty]; exact (tyIn_update _ _).2 hup
            have hin1 : (s.new e).inUpdate = true := by
              simp only [Inliner.new, hin, Bool.false_or, isA_update, heu, decide_true]
            obtain ⟨k1, rfl⟩ := kids_update ks hin1 (hneat.1 hup) hkids
            exact ⟨(finishElement_node hf).trans (buildKids_head k1).1, by rw [hin1, heu]; rfl, fun _ => rfl⟩
          · have heu : e.ty ≠ Ty.«Update» := by rw [hty, Ne, tyIn_update]; exact hup
            have hin1 : (s.new e).inUpdate = false := by
              simp only [Inliner.new, hin, Bool.false_or, isA_update, heu, decide_false]
            rw [if_neg (by rintro (h | h); exact hn h; exact hup h)]
            obtain ⟨k1, k2, k3⟩ := kids_same ks hin1 hneat.2.2 hkids
            exact ⟨(finishElement_node hf).trans k1, by rw [k2]; simp [heu], by rw [← hty]; exact k3⟩
      obtain ⟨b1, b2, b3⟩ := inliner_kept (x := .elem name attrs ks) hm hstep.1 hstep.2.1 hfin hg hs'
      exact ⟨b1, b2, fun hmark => (b3 fun a ha => hmark a (List.mem_append_right _ ha)).trans
        (hstep.2.2 fun a ha => hmark a (List.mem_append_left _ ha))⟩

theorem kids_same : ∀ (xs : List Xml) {d : Nat} {cur : Elem} {text : Str} {s : Inliner} {c' : Elem} {t' : Str} {s' : Inliner},
    s.inUpdate = false → NeatAll xs →
    buildKidsW n (inliner split resolve) d cur text s xs = .ok (some (c', t', s')) →
    c'.head = cur.head ∧ s'.inUpdate = false ∧ ((∀ a ∈ marksOf cur.ty xs, a = none) → s'.shared = s.shared)
  | [], d, cur, text, s, c', t', s', hin, hneat, h => by
    rw [buildKidsW] at h
    cases h
    exact ⟨rfl, hin, fun _ => rfl⟩
  | x :: xs, d, cur, text, s, c', t', s', hin, hneat, h => by
    obtain ⟨c, t, s1, h1, h2⟩ := buildKidsW_cons_inv h
    rw [marksOf]
    obtain ⟨a1, a2, a3⟩ := kid_same x hin hneat.1 h1
    obtain ⟨b1, b2, b3⟩ := kids_same xs a2 hneat.2 h2
    rw [head_ty a1] at b3
    exact ⟨b1.trans a1, b2, fun hmark => (b3 fun a ha => hmark a (List.mem_append_right _ ha)).trans
      (a3 fun a ha => hmark a (List.mem_append_left _ ha))⟩

end

/-- What is known after a piece was read. -/
structure After' (n : NumLib) (gives : Str → Option Elem) (d : Nat) (cur : Elem) (text : Str) (x : Xml) (c' : Elem) (t' : Str)
    (s s' : Inliner) (c1 : Elem) : Prop where
  build : buildKid n ([] : List (Observer Unit)) d cur text () x = .ok (some (c1, t', ()))
  inlined : c' = c1.inlined gives
  out : s'.inUpdate = false
  head : c1.head = cur.head
  url : featureTypes.contains cur.ty = true → c1.hasStyleUrl = true →
    cur.hasStyleUrl = true ∨ x.named (chars! "styleUrl") = true
  put : Put n gives (x.marks cur.ty) s.shared s'.shared

mutual

theorem kid_inline : ∀ (x : Xml) {d : Nat} {cur : Elem} {text : Str} {s : Inliner} {c' : Elem} {t' : Str} {s' : Inliner},
    Sane cur → cur.ty ≠ Ty.«Update» → s.inUpdate = false → x.Neat →
    (featureTypes.contains cur.ty = true → cur.hasStyleUrl = true → x.styling = false) → StylesFirst (x.marks cur.ty) →
    (none ∈ x.marks cur.ty → s'.shared = F) →
    buildKidW n (inliner split resolve) d (cur.inlined (localOr j split resolve F)) text s x = .ok (some (c', t', s')) →
    ∃ c1, After' n (localOr j split resolve F) d cur text x c' t' s s' c1
  | .text t, d, cur, text, s, c', t', s', hs, hu, hin, hneat, hfeat, hfirst, hF, h => by
    rw [buildKidW] at h
    cases h
    exact ⟨cur, ⟨by rw [buildKid], rfl, hin, rfl, fun _ h => .inl h, by rw [Xml.marks]; exact .none rfl⟩⟩
  | .empty name attrs, d, cur, text, s, c', t', s', hs, hu, hin, hneat, hfeat, hfirst, hF, h => by
    rw [buildKidW] at h
    obtain ⟨hd, ht, h3⟩ := buildChildW_inv h
    subst ht
    rw [inlined_ty] at h3
    rcases h3 with ⟨hk, hm, hh, hc, hs'⟩ | ⟨hk, e, child, s2, r, hm, hb, hfin, hg, hs'⟩
    · subst hs' hc
      refine ⟨addUnknownElement cur ((Xml.empty name attrs).render ++ ['\n']),
        ⟨?_, addUnknown_inlined _ _ hu, hin, by cases cur <;> rfl, fun _ h => .inl (by rwa [addUnknown_hasUrl] at h), ?_⟩⟩
      · rw [buildKid]
        unfold buildChild
        rw [if_neg (by omega)]
        simp only [hm, if_neg (show ¬ d + 1 + 0 > 100 by omega)]
      · rw [Xml.marks, hk, if_neg (by simp)]
        exact .none rfl
    · rw [Xml.marks, hk, if_pos rfl] at hF
      have hty := makeElement_tyIn hm
      obtain ⟨hmk1, hmk2⟩ := make_inlined (gives := localOr j split resolve F) hm
      obtain ⟨s1, h1, h2⟩ := buildKnown_inv hb
      rw [inliner_new] at h1
      cases h1
      have hplain : ∃ c, buildKnown n ([] : List (Observer Unit)) (d + 1) e () [] 0
          (fun e s => .ok (some (e, [], s))) = .ok (some (c, ())) ∧ s2 = s.new e ∧
          child = c.inlined (localOr j split resolve F) := by
        have key : ∀ text, finishElement n e text = .ok child →
            ∃ c, finishElement n e text = .ok c ∧ child = c.inlined (localOr j split resolve F) := by
          intro text hf
          have := finish_inlined (gives := localOr j split resolve F) n e text
          rw [hmk1, hf] at this
          simp only [Outcome.ok_bind, Outcome.ok.injEq] at this
          exact ⟨child, hf, this⟩
        rcases h2 with ⟨hx, hdd, hf, rfl⟩ | ⟨hx, e1, text, hkids, hf⟩
        · obtain ⟨c, hc, hcc⟩ := key _ hf
          exact ⟨c, buildKnown_plain_desc hx hdd hc, rfl, hcc⟩
        · cases hkids
          obtain ⟨c, hc, hcc⟩ := key _ hf
          exact ⟨c, buildKnown_plain hx rfl hc, rfl, hcc⟩
      obtain ⟨c, hplain, rfl, rfl⟩ := hplain
      have hst := stands_empty hm hplain
      have hcty := stands_ty hst rfl
      obtain ⟨c1, a1, a2, a3, a4, a5⟩ := attach_inline hs hu hst rfl
        (by rw [hcty, ← hty]; simp only [Inliner.new, hin, Bool.false_or, isA_update]) hfeat hF hfin hg hs'
      refine ⟨c1, ⟨?_, a2, a3, (addElement_head a1).1, a4, ?_⟩⟩
      · rw [buildKid]; exact buildChild_plain hd hm hplain a1
      · rw [Xml.marks, hk, if_pos rfl]
        exact a5
  | .elem name attrs ks, d, cur, text, s, c', t', s', hs, hu, hin, hneat, hfeat, hfirst, hF, h => by
    rw [buildKidW] at h
    obtain ⟨hd, ht, h3⟩ := buildChildW_inv h
    subst ht
    rw [inlined_ty] at h3
    rcases h3 with ⟨hk, hm, hh, hc, hs'⟩ | ⟨hk, e, child, s2, r, hm, hb, hfin, hg, hs'⟩
    · subst hs' hc
      refine ⟨addUnknownElement cur ((Xml.elem name attrs ks).render ++ ['\n']),
        ⟨?_, addUnknown_inlined _ _ hu, hin, by cases cur <;> rfl, fun _ h => .inl (by rwa [addUnknown_hasUrl] at h), ?_⟩⟩
      · rw [buildKid]
        unfold buildChild
        rw [if_neg (by omega)]
        simp only [hm, if_neg (show ¬ d + 1 + depthOf ks > 100 by omega)]
      · rw [Xml.marks, hk, if_neg (by simp)]
        exact .none rfl
    · rw [Xml.marks, hk, if_pos rfl] at hF hfirst
      obtain ⟨hfirst1, _, hfirst3⟩ := stylesFirst_append hfirst
      have hty := makeElement_tyIn hm
      have hdesc := makeElement_description hm
      obtain ⟨hmk1, hmk2⟩ := make_inlined (gives := localOr j split resolve F) hm
      obtain ⟨s1, h1, h2⟩ := buildKnown_inv hb
      rw [inliner_new] at h1
      cases h1
      -- what the attach step needs and gives
      have key : ∀ c, buildKnown n ([] : List (Observer Unit)) (d + 1) e () (renderAll ks) (depthOf ks)
          (fun e s => buildKids n ([] : List (Observer Unit)) (d + 1) e [] s ks) = .ok (some (c, ())) →
          child = c.inlined (localOr j split resolve F) → s2.inUpdate = decide (e.ty = Ty.«Update») →
          (∃ c1, addElement n [] cur c = .ok c1 ∧ c' = c1.inlined (localOr j split resolve F) ∧ s'.inUpdate = false ∧
            (featureTypes.contains cur.ty = true → c1.hasStyleUrl = true →
              cur.hasStyleUrl = true ∨ (Xml.elem name attrs ks).named (chars! "styleUrl") = true) ∧
            Put n (localOr j split resolve F) (markOf cur.ty name attrs (.elem name attrs ks)) s2.shared s'.shared) := by
        rintro c hplain rfl hin2
        have hst : StandsFor n cur.ty (.elem name attrs ks) c := ⟨name, attrs, ks, d, e, .inr rfl, hm, hplain⟩
        have hcty := stands_ty hst rfl
        exact attach_inline hs hu hst rfl (by rw [hin2, hcty, hty]) hfeat
          (fun h => hF (List.mem_append_right _ h)) hfin hg hs'
      have wrap : ∀ c, buildKnown n ([] : List (Observer Unit)) (d + 1) e () (renderAll ks) (depthOf ks)
          (fun e s => buildKids n ([] : List (Observer Unit)) (d + 1) e [] s ks) = .ok (some (c, ())) →
          child = c.inlined (localOr j split resolve F) → s2.inUpdate = decide (e.ty = Ty.«Update») →
          Put n (localOr j split resolve F)
            (if name = chars! "description" ∨ name = chars! "Update" then [] else marksOf (tyIn cur.ty name) ks)
            s.shared s2.shared →
          ∃ c1, After' n (localOr j split resolve F) d cur t' (.elem name attrs ks) c' t' s s' c1 := by
        intro c hplain hcc hin2 hput
        obtain ⟨c1, a1, a2, a3, a4, a5⟩ := key c hplain hcc hin2
        refine ⟨c1, ⟨?_, a2, a3, (addElement_head a1).1, a4, ?_⟩⟩
        · rw [buildKid]; exact buildChild_plain hd hm hplain a1
        · rw [Xml.marks, hk, if_pos rfl]
          exact hput.append a5
      rcases h2 with ⟨hx, hdd, hf, rfl⟩ | ⟨hx, e1, text1, hkids, hf⟩
      · have hn := hdesc.1 hx
        subst hn
        have hcc := finish_inlined (gives := localOr j split resolve F) n e (renderAll ks)
        rw [hmk1, hf] at hcc
        simp only [Outcome.ok_bind, Outcome.ok.injEq] at hcc
        refine wrap child (buildKnown_plain_desc hx hdd hf) hcc ?_ ?_
        · simp only [Inliner.new, hin, Bool.false_or, isA_update]
        · rw [if_pos (.inl rfl)]
          exact .none rfl
      · have hn : name ≠ chars! "description" := fun h => hx (hdesc.2 h)
        have hmsane := make_sane hm
        by_cases hup : name = chars! "Update"
        · have heu : e.ty = Ty.«Update» := by rw [hty]; exact (tyIn_update _ _).2 hup
          have hin1 : (s.new e).inUpdate = true := by
            simp only [Inliner.new, hin, Bool.false_or, isA_update, heu, decide_true]
          obtain ⟨k1, rfl⟩ := kids_update ks hin1 (hneat.1 hup) hkids
          have hcty : child.ty = Ty.«Update» := by
            rw [head_ty (finishElement_node hf), head_ty (buildKids_head k1).1, heu]
          refine wrap child (buildKnown_plain hx k1 hf) (update_inlined hcty).symm ?_ ?_
          · rw [hin1, heu]; rfl
          · rw [if_pos (.inr hup)]
            exact .none rfl
        · have heu : e.ty ≠ Ty.«Update» := by rw [hty, Ne, tyIn_update]; exact hup
          have hin1 : (s.new e).inUpdate = false := by
            simp only [Inliner.new, hin, Bool.false_or, isA_update, heu, decide_false]
          rw [if_neg (by rintro (h | h); exact hn h; exact hup h)] at hfirst1 hfirst3 hF
          -- the shared styles are final when a reference is met
          have hF2 : none ∈ marksOf (tyIn cur.ty name) ks → s2.shared = F := by
            intro hnone
            rw [← hF (List.mem_append_left _ hnone)]
            -- nothing is put when the child ends
            obtain ⟨k1, k2, _⟩ := kids_same ks hin1 hneat.2.2 hkids
            exact ((inliner_kept (cur := cur.inlined (localOr j split resolve F)) (x := .elem name attrs ks)
              (by rw [inlined_ty]; exact hm) ((finishElement_node hf).trans k1) (by rw [k2]; simp [heu]) hfin hg hs').2.2
              (by rw [inlined_ty]; exact hfirst3 hnone)).symm
          conv at hkids => enter [1]; rw [show buildKidsW n (inliner split resolve) (d + 1) e [] (s.new e) ks = buildKidsW n (inliner split resolve) (d + 1) (e.inlined (localOr j split resolve F)) [] (s.new e) ks from by rw [hmk1]]
          obtain ⟨c1, k1, k2, k3, k4, k5⟩ := kids_inline ks (cur := e) hmsane heu hin1 hneat.2.2
            (fun hf => by rw [hty] at hf; exact hneat.2.1 (feature_elementId hf))
            (fun _ hh => by rw [hmk2] at hh; cases hh)
            (by rw [hty]; exact hfirst1) (by rw [hty]; exact hF2) hkids
          subst k2
          rw [finish_inlined] at hf
          cases hfe : finishElement n c1 text1 with
          | ok c =>
            rw [hfe] at hf
            simp only [Outcome.ok_bind, Outcome.ok.injEq] at hf
            refine wrap c (buildKnown_plain hx k1 hfe) hf.symm ?_ ?_
            · rw [k3]; simp [heu]
            · rw [if_neg (by rintro (h | h); exact hn h; exact hup h), ← hty]
              exact k5
          | throws => rw [hfe] at hf; cases hf
          | ub => rw [hfe] at hf; cases hf

theorem kids_inline : ∀ (xs : List Xml) {d : Nat} {cur : Elem} {text : Str} {s : Inliner} {c' : Elem} {t' : Str} {s' : Inliner},
    Sane cur → cur.ty ≠ Ty.«Update» → s.inUpdate = false → NeatAll xs →
    (featureTypes.contains cur.ty = true →
      xs.Pairwise fun x y => x.named (chars! "styleUrl") = true → y.styling = false) →
    (featureTypes.contains cur.ty = true → cur.hasStyleUrl = true → ∀ x ∈ xs, x.styling = false) →
    StylesFirst (marksOf cur.ty xs) → (none ∈ marksOf cur.ty xs → s'.shared = F) →
    buildKidsW n (inliner split resolve) d (cur.inlined (localOr j split resolve F)) text s xs = .ok (some (c', t', s')) →
    ∃ c1, buildKids n ([] : List (Observer Unit)) d cur text () xs = .ok (some (c1, t', ())) ∧
      c' = c1.inlined (localOr j split resolve F) ∧ s'.inUpdate = false ∧ c1.head = cur.head ∧
      Put n (localOr j split resolve F) (marksOf cur.ty xs) s.shared s'.shared
  | [], d, cur, text, s, c', t', s', hs, hu, hin, hneat, hpair, hfeat, hfirst, hF, h => by
    rw [buildKidsW] at h
    cases h
    exact ⟨cur, by rw [buildKids], rfl, hin, rfl, by rw [marksOf]; exact .none rfl⟩
  | x :: xs, d, cur, text, s, c', t', s', hs, hu, hin, hneat, hpair, hfeat, hfirst, hF, h => by
    obtain ⟨c, t, s1, h1, h2⟩ := buildKidsW_cons_inv h
    rw [marksOf] at hfirst hF
    obtain ⟨f1, f2, f3⟩ := stylesFirst_append hfirst
    obtain ⟨w1, w2, _⟩ := kid_same x hin hneat.1 h1
    obtain ⟨_, _, w3⟩ := kids_same xs w2 hneat.2 h2
    have hcty : c.ty = cur.ty := by rw [head_ty w1, inlined_ty]
    rw [hcty] at w3
    obtain ⟨e1, k1⟩ := kid_inline x hs hu hin hneat.1 (fun h h' => hfeat h h' x (List.mem_cons_self ..)) f1
      (fun hn => by rw [← hF (List.mem_append_left _ hn), w3 (f3 hn)]) h1
    obtain ⟨b, i, o, hd, url, put⟩ := k1
    subst i
    have hety := head_ty hd
    rw [← hety] at f2 hF
    obtain ⟨e2, g1, g2, g3, g4, g5⟩ := kids_inline xs (cur := e1) (sane_head hd hs) (by rw [hety]; exact hu) o hneat.2
      (fun h => (List.pairwise_cons.1 (hpair (by rw [← hety]; exact h))).2)
      (fun h h' y hy => by
        rw [hety] at h
        rcases url h h' with h'' | h''
        · exact hfeat h h'' y (List.mem_cons_of_mem _ hy)
        · exact (List.pairwise_cons.1 (hpair h)).1 y hy h'')
      f2 (fun hn => hF (List.mem_append_right _ hn)) h2
    refine ⟨e2, ?_, g2, g3, g4.trans hd, ?_⟩
    · rw [buildKids, b]
      simp only [Outcome.ok_bind]
      exact g1
    · rw [marksOf]
      rw [hety] at g5
      exact put.append g5

end

theorem root_inline {name : Str} {attrs : List (Str × Str)} {ks : List Xml} {e' : Elem} {s' : Inliner}
    (hneat : (Xml.elem name attrs ks).Neat) (hfirst : StylesFirst (docMarks name ks))
    (h : buildRootW n (inliner split resolve) Inliner.init name attrs ks = .ok (some (e', s'))) :
    ∃ e, buildRoot n ([] : List (Observer Unit)) () name attrs ks = .ok (some (e, ())) ∧
      e' = e.inlined (localOr j split resolve s'.shared) ∧
      Put n (localOr j split resolve s'.shared) (docMarks name ks) [] s'.shared := by
  unfold buildRootW at h
  unfold buildRoot
  rcases Option.eq_none_or_eq_some (makeElement n none (Xsd.elementId name) attrs) with hm | ⟨e0, hm⟩
  · rw [hm] at h; cases h
  · rw [hm] at h ⊢
    simp only at h ⊢
    have hty := makeElement_root hm
    obtain ⟨hmk1, hmk2⟩ := make_inlined (gives := localOr j split resolve s'.shared) hm
    obtain ⟨s1, h1, h2⟩ := buildKnown_inv h
    rw [inliner_new] at h1
    cases h1
    have hnodesc : e0.ty = Ty.«description» ↔ name = chars! "description" := by
      rw [hty]
      constructor
      · intro h
        refine name_of_row (nm := chars! "description") (k := .simple) h (by decide) ?_
        exact description_row
      · rintro rfl
        exact description_id
    have hupd : e0.ty = Ty.«Update» ↔ name = chars! "Update" := by
      have := tyIn_update Ty.Unknown name
      rw [← this, hty]
      unfold tyIn
      rw [if_neg fun h => absurd h.2 (by decide)]
    unfold docMarks at hfirst ⊢
    rcases h2 with ⟨hx, hdd, hf, rfl⟩ | ⟨hx, e1, text1, hkids, hf⟩
    · have hn := hnodesc.1 hx
      rw [if_pos (.inl hn)]
      have hcc := finish_inlined (gives := localOr j split resolve (Inliner.init.new e0).shared) n e0 (renderAll ks)
      rw [hmk1, hf] at hcc
      simp only [Outcome.ok_bind, Outcome.ok.injEq] at hcc
      exact ⟨e', buildKnown_plain_desc hx hdd hf, hcc, .none rfl⟩
    · have hn : name ≠ chars! "description" := fun h => hx (hnodesc.2 h)
      by_cases hup : name = chars! "Update"
      · have heu := hupd.2 hup
        have hin1 : (Inliner.init.new e0).inUpdate = true := by
          simp only [Inliner.new, isA_update, heu, decide_true, Bool.or_true]
        obtain ⟨k1, rfl⟩ := kids_update ks hin1 (hneat.1 hup) hkids
        have hcty : e'.ty = Ty.«Update» := by
          rw [head_ty (finishElement_node hf), head_ty (buildKids_head k1).1, heu]
        refine ⟨e', buildKnown_plain hx k1 hf, (update_inlined hcty).symm, ?_⟩
        rw [if_pos (.inr hup)]
        exact .none rfl
      · have heu : e0.ty ≠ Ty.«Update» := fun h => hup (hupd.1 h)
        have hin1 : (Inliner.init.new e0).inUpdate = false := by
          simp only [Inliner.new, Inliner.init, Bool.false_or, isA_update, heu, decide_false]
        rw [if_neg (by rintro (h | h); exact hn h; exact hup h)] at hfirst ⊢
        conv at hkids => enter [1]; rw [show buildKidsW n (inliner split resolve) 1 e0 [] (Inliner.init.new e0) ks = buildKidsW n (inliner split resolve) 1 (e0.inlined (localOr j split resolve s'.shared)) [] (Inliner.init.new e0) ks from by rw [hmk1]]
        obtain ⟨c1, k1, k2, k3, k4, k5⟩ := kids_inline ks (cur := e0) (make_sane hm) heu hin1 hneat.2.2
          (fun hf => by rw [hty] at hf; exact hneat.2.1 hf)
          (fun _ hh => by rw [hmk2] at hh; cases hh)
          (by rw [hty]; exact hfirst) (fun _ => rfl) hkids
        subst k2
        rw [finish_inlined] at hf
        cases hfe : finishElement n c1 text1 with
        | ok c =>
          rw [hfe] at hf
          simp only [Outcome.ok_bind, Outcome.ok.injEq] at hf
          refine ⟨c, buildKnown_plain hx k1 hfe, hf.symm, ?_⟩
          rw [← hty]
          exact k5
        | throws => rw [hfe] at hf; cases hf
        | ub => rw [hfe] at hf; cases hf

end

end Kml.Dom
