import Verif.Lemmas.OldSchemaMain

/-! Documents with an old-style schema: the schema itself and the document. -/

namespace Kml.Dom

open Kml

variable {σ : Type}

/-- The names of the fields a schema holds. -/
def heldNames (l : List Elem) : List Str :=
  l.filterMap fun f =>
    match f with
    | .node _ a _ _ _ => a.known.get (chars! "name")
    | .field _ _ => none

theorem simpleField_row : kml22Elements[Ty.«SimpleField»]? = some (chars! "SimpleField", .complex) := by decide +kernel

theorem finish_simpleField (n : NumLib) (a : Attrs) (slots : Mem → List Elem) (mis : List Elem) (unk : List Str) (s : Str) :
    finishElement n (.node Ty.«SimpleField» a slots mis unk) s = .ok (.node Ty.«SimpleField» a slots mis unk) := rfl

theorem add_simpleField (n : NumLib) (a a' : Attrs) (slots slots' : Mem → List Elem) (mis mis' : List Elem) (unk unk' : List Str) :
    addElement n [] (.node Ty.«Schema» a slots mis unk) (.node Ty.«SimpleField» a' slots' mis' unk') =
      .ok (.node Ty.«Schema» a (setSlot slots M.«simplefield_array» (slots M.«simplefield_array» ++
        [.node Ty.«SimpleField» a' slots' mis' unk'])) mis unk) := rfl

theorem finish_schema (n : NumLib) (a : Attrs) (slots : Mem → List Elem) (mis : List Elem) (unk : List Str) (s : Str) :
    finishElement n (.node Ty.«Schema» a slots mis unk) s = .ok (.node Ty.«Schema» a slots mis unk) := rfl

theorem schema_alike (slots : Mem → List Elem) (mis : List Elem) (unk : List Str) (u v N : Str) :
    Alike (.node Ty.«Schema» ⟨(StdMap.set [(chars! "name", N)] (chars! "id") u), [(chars! "parent", v)], []⟩ slots mis unk)
      (.node Ty.«Schema» ⟨[(chars! "id", u), (chars! "name", N)], [], []⟩ slots mis unk) := rfl

attribute [local irreducible] kml22Elements Xsd.tagToId classes inc dec uintSize

theorem add_other {n : NumLib} {a : Attrs} {slots : Mem → List Elem} {mis : List Elem} {unk : List Str} {c r : Elem}
    (hc : c.ty ≠ Ty.«SimpleField») (h : addElement n [] (.node Ty.«Schema» a slots mis unk) c = .ok r) :
    ∃ slots' mis', r = .node Ty.«Schema» a slots' mis' unk ∧ slots' M.«simplefield_array» = slots M.«simplefield_array» := by
  unfold addElement at h
  dsimp only at h
  rw [schema_rules.1] at h
  dsimp only at h
  rw [schema_rules.2] at h
  unfold findRule at h
  have h1 : Test.matches c (.ty Ty.«SimpleField») = false := decide_eq_false hc
  by_cases hx : c.ty = Ty.«GxSimpleArrayField»
  · have h2 : Test.matches c (.ty Ty.«GxSimpleArrayField») = true := decide_eq_true hx
    simp only [List.find?_cons, h1, h2] at h
    cases h
    exact ⟨_, _, rfl, if_neg (by decide)⟩
  · have h2 : Test.matches c (.ty Ty.«GxSimpleArrayField») = false := decide_eq_false hx
    simp only [List.find?_cons, h1, h2] at h
    cases h
    exact ⟨_, _, rfl, rfl⟩

/-- One element inside a schema. -/
theorem schema_child {n : NumLib} {d : Nat} {a : Attrs} {slots : Mem → List Elem} {mis : List Elem} {unk : List Str}
    {text : Str} {s : σ} {name : Str} {attrs : List (Str × Str)} {whole inner : Str} {height : Nat} {ks : List Xml}
    {r : Elem × Str × σ}
    (h : buildChild n [] d (.node Ty.«Schema» a slots mis unk) text s name attrs whole inner height
      (fun e s => buildKids n [] (d + 1) e [] s ks) = .ok (some r)) :
    ∃ slots' mis' unk', r.1 = .node Ty.«Schema» a slots' mis' unk' ∧ heldNames (slots' M.«simplefield_array») =
      heldNames (slots M.«simplefield_array») ++
        (if name = chars! "SimpleField" then (attrValue (chars! "name") attrs).toList else []) := by
  by_cases hn : name = chars! "SimpleField"
  · subst hn
    rw [if_pos rfl]
    obtain ⟨_, _, e, e1, t1, child, h4, _, h6, h7, h8⟩ := child_inv known_names.2.2.2.2.2.1 (by decide) h
    rw [id_simpleField, make_simpleField] at h4
    cases h4
    obtain ⟨sl, mi, un, h9, _⟩ := kids_reattr _ h6
    dsimp only at h9
    subst h9
    rw [finish_simpleField] at h7
    cases h7
    rw [add_simpleField] at h8
    refine ⟨_, _, _, (Outcome.ok.inj h8).symm, ?_⟩
    unfold setSlot heldNames
    rw [if_pos rfl, List.filterMap_append]
    congr 1
    have hg := parseAttributes_get (n := n) (attrs := attrs) simpleField_reads.1 simpleField_reads.2
    simp only [List.filterMap_cons, List.filterMap_nil]
    rw [hg]
    cases attrValue (chars! "name") attrs <;> rfl
  · rw [if_neg hn, List.append_nil]
    obtain ⟨cur', text', s'⟩ := r
    obtain ⟨_, _, h3⟩ := buildChild_inv h
    rcases h3 with ⟨_, _, _, h3, _⟩ | ⟨_, e, child, s2, h4, h5, h6, _⟩
    · exact ⟨slots, mis, _, h3, rfl⟩
    · have hty : child.ty = e.ty := by
        obtain ⟨s1, _, h9⟩ := buildKnown_inv h5
        rcases h9 with ⟨_, _, h9, _⟩ | ⟨_, e1, t1, h10, h11⟩
        · exact finishElement_ty h9
        · rw [finishElement_ty h11]
          exact congrArg (·.1) (buildKids_head h10).1
      have hne : child.ty ≠ Ty.«SimpleField» := fun hx =>
        hn (name_of_made h4 (hty ▸ hx) ⟨by decide, by decide⟩ simpleField_row)
      have h6' : addElement n [] (.node Ty.«Schema» a slots mis unk) child = .ok cur' := h6
      obtain ⟨slots', mis', h7, h8⟩ := add_other hne h6'
      exact ⟨slots', mis', unk, h7, by rw [h8]⟩

theorem schema_kids {n : NumLib} {d : Nat} {a : Attrs} : ∀ (ks : List Xml) {slots : Mem → List Elem} {mis : List Elem}
    {unk : List Str} {text : Str} {s : σ} {r : Elem × Str × σ},
    buildKids n [] d (.node Ty.«Schema» a slots mis unk) text s ks = .ok (some r) →
    ∃ slots' mis' unk', r.1 = .node Ty.«Schema» a slots' mis' unk' ∧ heldNames (slots' M.«simplefield_array») =
      heldNames (slots M.«simplefield_array») ++ fieldNamesOf ks
  | [], slots, mis, unk, text, s, r, h => by
    unfold buildKids at h
    cases h
    exact ⟨_, _, _, rfl, (List.append_nil _).symm⟩
  | x :: ks, slots, mis, unk, text, s, r, h => by
    obtain ⟨c, tx, s1, h1, h2⟩ := buildKids_cons_inv h
    have h3 : ∃ slots' mis' unk', c = .node Ty.«Schema» a slots' mis' unk' ∧ heldNames (slots' M.«simplefield_array») =
        heldNames (slots M.«simplefield_array») ++ fieldNamesOf [x] := by
      cases x with
      | text v =>
        unfold buildKid at h1
        cases h1
        exact ⟨_, _, _, rfl, (List.append_nil _).symm⟩
      | empty m b =>
        rw [buildKid_empty] at h1
        unfold buildKid at h1
        obtain ⟨sl, mi, un, k1, k2⟩ := schema_child h1
        refine ⟨sl, mi, un, k1, ?_⟩
        rw [k2]
        unfold fieldNamesOf fieldNamesOf
        rw [List.append_nil]
      | elem m b l =>
        unfold buildKid at h1
        obtain ⟨sl, mi, un, k1, k2⟩ := schema_child h1
        refine ⟨sl, mi, un, k1, ?_⟩
        rw [k2]
        unfold fieldNamesOf fieldNamesOf
        rw [List.append_nil]
    obtain ⟨sl, mi, un, rfl, h4⟩ := h3
    obtain ⟨sl', mi', un', h5, h6⟩ := schema_kids ks h2
    refine ⟨sl', mi', un', h5, ?_⟩
    rw [h6, h4, List.append_assoc]
    congr 1
    cases x with
    | text v => rfl
    | empty m b =>
      show (_ ++ []) ++ fieldNamesOf ks = _ ++ fieldNamesOf ks
      rw [List.append_nil]
    | elem m b l =>
      show (_ ++ []) ++ fieldNamesOf ks = _ ++ fieldNamesOf ks
      rw [List.append_nil]

/-- Nothing of an old-style schema so far. -/
def NoneYet (g : Handler σ) : Prop := g.fieldNames = [] ∧ g.simpleData = [] ∧ g.taken = 0

theorem fresh_cover {g : Handler σ} (hf : NoneYet g) (N : Str) : ({ g with oldName := N } : Handler σ) = cover N [] [] 0 g := by
  obtain ⟨stack, chars, skip, inDesc, nesting, inOld, oldName, fieldNames, simpleData, taken, stopped, obs⟩ := g
  obtain ⟨h1, h2, h3⟩ := hf
  dsimp only at h1 h2 h3
  subst h1 h2 h3
  rfl

/-- What reading a piece with the schema in it comes to. -/
def Begins (n : NumLib) (N : Str) (fs : List Str) (x x' : Xml) : Prop :=
  ∀ {g : Handler σ} {cur cur' : Elem} {rest : List Elem} {text : Str} {crest : List Str} {r : Elem × Str × σ},
    Idle g → NoneYet g → g.stack = cur :: rest → g.chars = text :: crest → Alike cur cur' →
    buildKid n [] g.nesting cur' text g.obs x' = .ok (some r) →
    ∃ sd' e, g.run n [] x.events =
      .ok (cover N fs sd' sd'.length { g with stack := e :: rest, chars := r.2.1 :: crest, obs := r.2.2 }) ∧ Alike e r.1

theorem old_schema {h : Handler σ} {N : Str} {a : Attrs} {slots : Mem → List Elem} {mis : List Elem} {unk : List Str} (h0 : h.oldName = N)
    (h1 : N ≠ []) : h.endOldSchema (chars! "Schema") (.node Ty.«Schema» a slots mis unk) =
      .ok (.node Ty.«Schema» { a with known := a.known.set (chars! "id") (N ++ chars! "_id") } slots mis unk,
        { h with fieldNames := h.fieldNames ++ heldNames (slots M.«simplefield_array») }) := by
  subst h0
  unfold Handler.endOldSchema
  rw [if_neg h1, if_pos rfl]
  rfl

theorem schema_begins {n : NumLib} {N p : Str} (hN : N ≠ []) (hU : isKnown N = false) {b : List (Str × Str)} {ks : List Xml}
    (hb : b = [(chars! "name", N), (chars! "parent", p)] ∨ b = [(chars! "parent", p), (chars! "name", N)])
    (ho : AllOf (Ordinary N []) ks) (ht : TameAll ks) : Begins (σ := σ) n N (fieldNamesOf ks) (.elem (chars! "Schema") b ks)
      (.elem (chars! "Schema") [(chars! "id", N ++ chars! "_id"), (chars! "name", N)] ks) := by
  intro g cur cur' rest text crest r hi hf hst hc hal h
  obtain ⟨i1, i2, i3, i4, i5, i6⟩ := hi
  have hNs : N ≠ chars! "Schema" := fun h => by rw [h, known_names.2.2.2.1] at hU; cases hU
  unfold buildKid at h
  obtain ⟨d1, h3, e, e1, t1, child, h4, h5, h6, h7, h8⟩ := child_inv known_names.2.2.2.1 (by decide) h
  rw [id_schema, make_schema_new] at h4
  cases h4
  obtain ⟨sl0, mi0, un0, q1, q2⟩ := schema_kids ks h6
  obtain ⟨sl, mi, un, k1, k2⟩ := kids_reattr ks h6
  dsimp only at k1 q1
  subst k1
  obtain ⟨rfl, rfl, rfl⟩ : sl = sl0 ∧ mi = mi0 ∧ un = un0 := by
    cases q1
    exact ⟨rfl, rfl, rfl⟩
  rw [finish_schema] at h7
  cases h7
  obtain ⟨p', a1, a2⟩ := alike_add hal.symm (schema_alike _ _ _ (N ++ chars! "_id") p N).symm h8
  have hstart := calm_start (n := n) (h := g) (name := chars! "Schema") (attrs := b) (old := N) ⟨i1, i2, i3, i4⟩ d1
    (by
      rw [if_pos rfl, i5]
      rcases hb with rfl | rfl
      · exact (find_old p N).1
      · exact (find_old p N).2)
    (e := .node Ty.«Schema» ⟨[(chars! "name", N)], [(chars! "parent", p)], []⟩ (fun _ => []) [] []) (by
      rw [show typeOfName N (chars! "Schema") = Ty.«Schema» from (if_neg fun h => hNs h.2.symm).trans id_schema]
      rcases hb with rfl | rfl
      · exact make_schema_old _ _ _ _
      · exact make_schema_old' _ _ _ _) (show ¬ Ty.«Schema» = Ty.«description» by decide)
  have hkids := kids_covered (n := n) (N := N) (fs := []) (sd := []) (k := 0) (xs := ks) (g := { g with
      nesting := g.nesting + 1, chars := [] :: g.chars
      stack := .node Ty.«Schema» ⟨[(chars! "name", N)], [(chars! "parent", p)], []⟩ (fun _ => []) [] [] :: g.stack })
    ho ht ⟨i1, i2, i3, i4, i5, d1⟩ rfl rfl (k2 _)
  rw [← fresh_cover (g := { g with
      nesting := g.nesting + 1, chars := [] :: g.chars
      stack := .node Ty.«Schema» ⟨[(chars! "name", N)], [(chars! "parent", p)], []⟩ (fun _ => []) [] [] :: g.stack }) hf N] at hkids
  refine ⟨[], p', run_join hstart i1 hkids i1 ?_, a2.symm⟩
  refine (calm_end (d := g.nesting) (e := .node Ty.«Schema» ⟨[(chars! "name", N)], [(chars! "parent", p)], []⟩ sl mi un)
    (rest := g.stack) (text := t1) (crest := g.chars)
    (h := cover N [] [] 0 { g with
      nesting := g.nesting + 1, chars := t1 :: g.chars
      stack := .node Ty.«Schema» ⟨[(chars! "name", N)], [(chars! "parent", p)], []⟩ sl mi un :: g.stack, obs := r.2.2 })
    ⟨i1, i2, i3, i4⟩ (by decide) rfl rfl rfl d1 (finish_schema _ _ _ _ _ _)).trans ?_
  rw [old_schema (by rfl) hN]
  refine (calm_attach (x := .node Ty.«Schema» ⟨[(chars! "name", N)], [(chars! "parent", p)], []⟩ sl mi un) (p := cur) (rest := rest)
    (p' := p') (by exact i1) (by rw [← hst]; rfl) a1).trans ?_
  rw [q2, h3, ← hc]
  rfl

/-- The content of an element with the schema somewhere in it. -/
theorem content_begins {n : NumLib} {N : Str} {fs : List Str} (hN : N ≠ []) (hU : isKnown N = false) {x x' : Xml}
    {pre post post' : List Xml} (hx : Begins (σ := σ) n N fs x x') (h1 : AllOf NotOldSchema pre) (h2 : TameAll pre)
    (h3 : ModernAll N fs post post') {g : Handler σ} {cur : Elem} {rest : List Elem} {text : Str} {crest : List Str}
    {r : Elem × Str × σ} (hi : Idle g) (hf : NoneYet g) (hst : g.stack = cur :: rest) (hc : g.chars = text :: crest)
    (h : buildKids n [] g.nesting cur text g.obs (pre ++ x' :: post') = .ok (some r)) :
    ∃ sd' e, g.run n [] (eventsOf (pre ++ x :: post)) =
      .ok (cover N fs sd' sd'.length { g with stack := e :: rest, chars := r.2.1 :: crest, obs := r.2.2 }) ∧ Alike e r.1 := by
  obtain ⟨q, k1, k2⟩ := kids_split h
  have k3 := run_kids n [] pre h1 h2 g cur rest text crest hi hst hc
  rw [k1] at k3
  obtain ⟨c, t, s1, k4, k5⟩ := buildKids_cons_inv k2
  obtain ⟨sd', e, j1, j2⟩ := hx (g := { g with stack := q.1 :: rest, chars := q.2.1 :: crest, obs := q.2.2 }) (cur := q.1) (cur' := q.1)
    hi hf rfl rfl rfl k4
  obtain ⟨sd'', e', j3, j4⟩ := modern_kids hN hU post h3 (sd := sd') (cur := e) (cur' := c)
    (g := { g with stack := e :: rest, chars := t :: crest, obs := s1 }) hi rfl rfl j2 k5
  refine ⟨sd'', e', ?_, j4⟩
  rw [events_append]
  exact run_seq hi.1 k3 hi.1 (run_seq (a := x.events) hi.1 j1 hi.1 j3)

theorem inside_begins {n : NumLib} {N : Str} {fs : List Str} (hN : N ≠ []) (hU : isKnown N = false) {x x' : Xml} {m : Str}
    {a : List (Str × Str)} {pre post post' : List Xml} (hk : isKnown m = true) (hd : m ≠ chars! "description")
    (hs : m ≠ chars! "Schema") (hx : Begins (σ := σ) n N fs x x')
    (h1 : AllOf NotOldSchema pre) (h2 : TameAll pre) (h3 : ModernAll N fs post post') :
    Begins (σ := σ) n N fs (.elem m a (pre ++ x :: post)) (.elem m a (pre ++ x' :: post')) := by
  intro g cur cur' rest text crest r hi hf hst hc hal h
  obtain ⟨i1, i2, i3, i4, i5, i6⟩ := hi
  have hmN : m ≠ N := fun h => by rw [h, hU] at hk; cases hk
  unfold buildKid at h
  obtain ⟨d1, g3, e, e1, t1, child, h4, h5, h6, h7, h8⟩ := child_inv hk hd h
  have hstart := calm_start (n := n) (h := g) (name := m) (attrs := a) (old := []) (e := e)
    ⟨i1, i2, i3, i4⟩ d1 (by rw [if_neg hs]; exact i5) (by
      rw [show typeOfName [] m = Xsd.elementId m from if_neg fun h => h.1 rfl]
      rw [hst]
      show makeElement n (some cur.ty) _ a = _
      rw [hal.ty]
      exact h4) h5
  obtain ⟨sd', e', j1, j2⟩ := content_begins hN hU hx h1 h2 h3 (cur := e)
    (g := { g with oldName := [], nesting := g.nesting + 1, chars := [] :: g.chars, stack := e :: g.stack })
    ⟨i1, i2, i3, i4, rfl, d1⟩ hf rfl rfl h6
  obtain ⟨child', c1, c2⟩ := alike_finish j2.symm h7
  obtain ⟨p', a1, a2⟩ := alike_add hal.symm c2 h8
  refine ⟨sd', p', run_join hstart i1 j1 i1 ?_, a2.symm⟩
  refine (calm_end (d := g.nesting) (e := e') (rest := g.stack) (text := t1) (crest := g.chars)
    (h := cover N fs sd' sd'.length { g with
      nesting := g.nesting + 1, chars := t1 :: g.chars, stack := e' :: g.stack, obs := r.2.2 })
    ⟨i1, i2, i3, i4⟩ hd rfl rfl rfl d1 c1).trans ?_
  rw [old_other hs (by exact hmN)]
  refine (calm_attach (x := e') (p := cur) (rest := rest) (p' := p') (by exact i1) (by rw [← hst]; rfl) a1).trans ?_
  rw [g3, ← hc]
  rfl

theorem upgrade_begins {n : NumLib} {N : Str} {fs : List Str} (hN : N ≠ []) (hU : isKnown N = false) {x x' : Xml}
    (h : Upgrade N fs x x') : Begins (σ := σ) n N fs x x' := by
  induction h with
  | schema hk hd hs h1 h2 hb ho ht hfs h3 =>
    subst hfs
    exact inside_begins hN hU hk hd hs (schema_begins hN hU hb ho ht) h1 h2 h3
  | inside hk hd hs h1 h2 _ h3 ih => exact inside_begins hN hU hk hd hs ih h1 h2 h3

/-! ### The modern document has no old-style schema -/

theorem allOf_join {P : Str → List (Str × Str) → Prop} : ∀ {a b : List Xml}, AllOf P a → AllOf P b → AllOf P (a ++ b)
  | [], _, _, h => h
  | _ :: _, _, h1, h2 => ⟨h1.1, allOf_join h1.2 h2⟩

theorem tameAll_join : ∀ {a b : List Xml}, TameAll a → TameAll b → TameAll (a ++ b)
  | [], _, _, h => h
  | _ :: _, _, h1, h2 => ⟨h1.1, tameAll_join h1.2 h2⟩

theorem tame_known {m : Str} {a : List (Str × Str)} {ks : List Xml} (hk : isKnown m = true) (h : TameAll ks) : (Xml.elem m a ks).Tame := by
  unfold Xml.Tame
  rw [if_pos hk]
  split
  · trivial
  · exact h

theorem data_good (N : Str) (fields : List (Str × Str)) : (asSchemaData N fields).All NotOldSchema ∧ (asSchemaData N fields).Tame := by
  have h : ∀ l : List (Str × Str), AllOf NotOldSchema (l.map fun f => Xml.elem (chars! "SimpleData") [(chars! "name", f.1)] [.text f.2]) ∧
      TameAll (l.map fun f => Xml.elem (chars! "SimpleData") [(chars! "name", f.1)] [.text f.2]) := by
    intro l
    induction l with
    | nil => exact ⟨trivial, trivial⟩
    | cons f l ih =>
      exact ⟨⟨⟨fun h => absurd h (by decide), trivial, trivial⟩, ih.1⟩, tame_known known_names.2.2.1 ⟨trivial, trivial⟩, ih.2⟩
  refine ⟨⟨fun h => absurd h (by decide), ⟨fun h => absurd h (by decide), (h fields).1⟩, trivial⟩, ?_⟩
  exact tame_known known_names.1 ⟨tame_known known_names.2.1 (h fields).2, trivial⟩

theorem apart_good {N : Str} {fs : List Str} {ks others : List Xml} {fields : List (Str × Str)} (h : Apart N fs ks fields others) :
    AllOf NotOldSchema others ∧ TameAll others := by
  induction h with
  | nil => exact ⟨trivial, trivial⟩
  | field _ _ ih => exact ih
  | other ho ht _ ih => exact ⟨⟨ordinary_notOld _ ho, ih.1⟩, ht, ih.2⟩

mutual

theorem modern_good {N : Str} {fs : List Str} : ∀ (x : Xml) {x' : Xml}, Modern N fs x x' → x'.All NotOldSchema ∧ x'.Tame
  | _, _, .same ho ht => ⟨ordinary_notOld _ ho, ht⟩
  | .elem _ a ks, _, .feature ha =>
    ⟨⟨fun h => absurd h (by decide), allOf_join (apart_good ha).1 ⟨(data_good _ _).1, trivial⟩⟩,
      tame_known known_names.2.2.2.2.1 (tameAll_join (apart_good ha).2 ⟨(data_good _ _).2, trivial⟩)⟩
  | .elem m a ks, _, @Modern.inside _ _ _ _ _ ks' hk hd ho hm =>
    ⟨⟨fun h => absurd h ho.1, (modern_allGood ks hm).1⟩, tame_known hk (modern_allGood ks hm).2⟩

theorem modern_allGood {N : Str} {fs : List Str} : ∀ (xs : List Xml) {xs' : List Xml}, ModernAll N fs xs xs' →
    AllOf NotOldSchema xs' ∧ TameAll xs'
  | [], _, .nil => ⟨trivial, trivial⟩
  | x :: xs, _, .cons h1 h2 =>
    ⟨⟨(modern_good x h1).1, (modern_allGood xs h2).1⟩, (modern_good x h1).2, (modern_allGood xs h2).2⟩

end

theorem upgrade_good {N : Str} {fs : List Str} {x x' : Xml} (h : Upgrade N fs x x') : x'.All NotOldSchema ∧ x'.Tame := by
  induction h with
  | schema hk hd hs h1 h2 hb ho ht hfs h3 =>
    have hm := modern_allGood _ h3
    refine ⟨⟨fun h => absurd h hs, allOf_join h1 ⟨⟨fun _ h => absurd h ?_, ordinary_allNotOld _ ho⟩, hm.1⟩⟩, ?_⟩
    · simp
    · exact tame_known hk (tameAll_join h2 ⟨tame_known known_names.2.2.2.1 ht, hm.2⟩)
  | inside hk hd hs h1 h2 _ h3 ih =>
    have hm := modern_allGood _ h3
    exact ⟨⟨fun h => absurd h hs, allOf_join h1 ⟨ih.1, hm.1⟩⟩, tame_known hk (tameAll_join h2 ⟨ih.2, hm.2⟩)⟩

/-- The document with the old-style schema is read as the modern one. -/
theorem upgrade_parse {n : NumLib} {N : Str} {fs : List Str} (hN : N ≠ []) (hU : isKnown N = false) {x x' : Xml}
    (h : Upgrade N fs x x') {s s' : σ} {e' : Elem} (hp : parseEvents n [] s x'.events = .ok (some e', s')) :
    ∃ e, parseEvents n [] s x.events = .ok (some e, s') ∧ Alike e e' := by
  have main : ∀ {m : Str} {a : List (Str × Str)} {x x' : Xml} {pre post post' : List Xml}, isKnown m = true → m ≠ chars! "description" →
      m ≠ chars! "Schema" → Begins (σ := σ) n N fs x x' → AllOf NotOldSchema pre → TameAll pre → ModernAll N fs post post' →
      (Xml.elem m a (pre ++ x' :: post')).All NotOldSchema → (Xml.elem m a (pre ++ x' :: post')).Tame →
      parseEvents n [] s (Xml.elem m a (pre ++ x' :: post')).events = .ok (some e', s') →
      ∃ e, parseEvents n [] s (Xml.elem m a (pre ++ x :: post)).events = .ok (some e, s') ∧ Alike e e' := by
    intro m a x x' pre post post' hk hd hs hx h1 h2 h3 hall htame hp
    have hmN : m ≠ N := fun h => by rw [h, hU] at hk; cases hk
    have hb := buildRoot_of_parse hall htame hp
    unfold buildRoot at hb
    cases hm : makeElement n none (Xsd.elementId m) a with
    | none => rw [hm] at hb; cases hb
    | some e =>
      rw [hm] at hb
      dsimp only at hb
      obtain ⟨s1, k1, k2⟩ := buildKnown_inv hb
      cases k1
      have hde : e.ty ≠ Ty.«description» := fun he => hd ((makeElement_description hm).1 he)
      rcases k2 with ⟨k2, _⟩ | ⟨_, e1, t1, k3, k4⟩
      · exact absurd k2 hde
      · have hstart := calm_start (n := n) (h := Handler.init s) (name := m) (attrs := a) (old := []) (e := e)
          ⟨rfl, rfl, rfl, rfl⟩ (Nat.succ_le_of_lt (by decide : 0 < 100)) (by rw [if_neg hs]; rfl) (by
            rw [show typeOfName [] m = Xsd.elementId m from if_neg fun h => h.1 rfl]
            exact hm) hde
        obtain ⟨sd', e2, j1, j2⟩ := content_begins hN hU hx h1 h2 h3 (cur := e) (rest := []) (crest := []) (text := [])
          (g := { Handler.init s with oldName := [], nesting := 1, chars := [[]], stack := [e] })
          ⟨rfl, rfl, rfl, rfl, rfl, by show 1 ≤ 100; decide⟩ ⟨rfl, rfl, rfl⟩ rfl rfl k3
        obtain ⟨child', c1, c2⟩ := alike_finish j2.symm k4
        refine ⟨child', ?_, c2.symm⟩
        unfold parseEvents
        rw [run_join hstart rfl j1 rfl ((calm_end (d := 0) (e := e2) (rest := []) (text := t1) (crest := [])
          (h := cover N fs sd' sd'.length { Handler.init s with nesting := 1, chars := [t1], stack := [e2], obs := s' })
          ⟨rfl, rfl, rfl, rfl⟩ hd rfl rfl rfl (by decide) c1).trans (by rw [old_other hs (by exact hmN)]; rfl))]
        rfl
  have hg := upgrade_good h
  cases h with
  | schema hk hd hs h1 h2 hb ho ht hfs h3 =>
    subst hfs
    exact main hk hd hs (schema_begins hN hU hb ho ht) h1 h2 h3 hg.1 hg.2 hp
  | inside hk hd hs h1 h2 hx h3 =>
    exact main hk hd hs (upgrade_begins hN hU hx) h1 h2 h3 hg.1 hg.2 hp

end Kml.Dom
