import Verif.Lemmas.OldSchemaSim

/-! Documents with an old-style schema: the whole document. -/

namespace Kml.Dom

open Kml

variable {σ : Type}

attribute [local irreducible] kml22Elements Xsd.tagToId classes inc dec uintSize

theorem data_depth {n : NumLib} {d : Nat} {s : σ} {N : Str} {fields : List (Str × Str)} {cur : Elem} {text : Str} {r : Elem × Str × σ}
    (h : buildKids n [] d cur text s [asSchemaData N fields] = .ok (some r)) : d + 1 ≤ 100 := by
  obtain ⟨c, t, s1, h1, _⟩ := buildKids_cons_inv h
  unfold asSchemaData buildKid at h1
  exact (child_inv known_names.1 (by decide) h1).1

/-- Content keeps the type and the attributes of what it is put in, and does not look at the attributes. -/
theorem add_reattr {n : NumLib} {t : Ty} {a : Attrs} {slots : Mem → List Elem} {mis : List Elem} {unk : List Str} {c r : Elem}
    (h : addElement n [] (.node t a slots mis unk) c = .ok r) : ∃ slots' mis', r = .node t a slots' mis' unk ∧
      ∀ a', addElement n [] (.node t a' slots mis unk) c = .ok (.node t a' slots' mis' unk) := by
  unfold addElement at h ⊢
  dsimp only at h ⊢
  cases hc : classOf t with
  | none =>
    rw [hc] at h
    cases h
    exact ⟨_, _, rfl, fun _ => rfl⟩
  | some cl =>
    rw [hc] at h
    dsimp only at h ⊢
    cases hr : findRule cl.rules c with
    | none =>
      rw [hr] at h
      cases h
      exact ⟨_, _, rfl, fun _ => rfl⟩
    | some act =>
      rw [hr] at h
      dsimp only at h ⊢
      cases hx : act.apply n [] slots c with
      | ok s =>
        rw [hx] at h
        cases h
        exact ⟨_, _, rfl, fun _ => rfl⟩
      | throws => rw [hx] at h; cases h
      | ub => rw [hx] at h; cases h

theorem child_reattr {n : NumLib} {d : Nat} {t : Ty} {a : Attrs} {slots : Mem → List Elem} {mis : List Elem} {unk : List Str}
    {text : Str} {s : σ} {name : Str} {attrs : List (Str × Str)}
    {whole inner : Str} {height : Nat} {kids : Elem → σ → Outcome (Option (Elem × Str × σ))} {r : Elem × Str × σ}
    (h : buildChild n [] d (.node t a slots mis unk) text s name attrs whole inner height kids = .ok (some r)) :
    ∃ slots' mis' unk', r.1 = .node t a slots' mis' unk' ∧ ∀ a', buildChild n [] d (.node t a' slots mis unk) text s name attrs whole
      inner height kids = .ok (some (.node t a' slots' mis' unk', r.2)) := by
  unfold buildChild at h ⊢
  rw [show (Elem.node t a slots mis unk).ty = t from rfl] at h
  simp only [show ∀ a', (Elem.node t a' slots mis unk).ty = t from fun _ => rfl]
  split at h
  · cases h
  rename_i hd
  simp only [if_neg hd]
  cases hm : makeElement n (some t) (Xsd.elementId name) attrs with
  | none =>
    rw [hm] at h
    dsimp only at h ⊢
    split at h
    · cases h
    rename_i hh
    simp only [if_neg hh]
    cases h
    exact ⟨_, _, _, rfl, fun _ => rfl⟩
  | some e =>
    rw [hm] at h
    dsimp only at h ⊢
    cases hk : buildKnown n [] (d + 1) e s inner height kids with
    | throws => rw [hk] at h; cases h
    | ub => rw [hk] at h; cases h
    | ok o =>
      rw [hk] at h
      cases o with
      | none => cases h
      | some q =>
        obtain ⟨child, s2⟩ := q
        have h' : (addElement n [] (.node t a slots mis unk) child >>= fun p => Outcome.ok (some (p, text, s2))) = .ok (some r) := by
          have e1 : (handOver n [] (.node t a slots mis unk) s2 child >>= fun r => match r with
              | none => Outcome.ok none
              | some (cur, s) => .ok (some (cur, text, s))) = .ok (some r) := h
          unfold handOver giveChild callAll at e1
          dsimp only at e1
          rw [if_pos rfl] at e1
          cases ha : addElement n [] (.node t a slots mis unk) child with
          | ok p => rw [ha] at e1; exact e1
          | throws => rw [ha] at e1; cases e1
          | ub => rw [ha] at e1; cases e1
        cases ha : addElement n [] (.node t a slots mis unk) child with
        | throws => rw [ha] at h'; cases h'
        | ub => rw [ha] at h'; cases h'
        | ok p =>
          rw [ha] at h'
          cases h'
          obtain ⟨slots', mis', h1, h2⟩ := add_reattr ha
          refine ⟨slots', mis', unk, h1, fun a' => ?_⟩
          show (handOver n [] (.node t a' slots mis unk) s2 child >>= fun r => match r with
              | none => Outcome.ok none
              | some (cur, s) => .ok (some (cur, text, s))) = _
          unfold handOver giveChild callAll
          dsimp only
          rw [if_pos rfl, h2]
          rfl

theorem kids_reattr {n : NumLib} {d : Nat} {t : Ty} {a : Attrs} : ∀ (xs : List Xml) {slots : Mem → List Elem} {mis : List Elem}
    {unk : List Str} {text : Str} {s : σ} {r : Elem × Str × σ},
    buildKids n [] d (.node t a slots mis unk) text s xs = .ok (some r) →
    ∃ slots' mis' unk', r.1 = .node t a slots' mis' unk' ∧ ∀ a', buildKids n [] d (.node t a' slots mis unk) text s xs =
      .ok (some (.node t a' slots' mis' unk', r.2))
  | [], slots, mis, unk, text, s, r, h => by
    unfold buildKids at h
    cases h
    exact ⟨_, _, _, rfl, fun _ => by unfold buildKids; rfl⟩
  | x :: xs, slots, mis, unk, text, s, r, h => by
    obtain ⟨c, tx, s1, h1, h2⟩ := buildKids_cons_inv h
    have h3 : ∃ slots' mis' unk', c = .node t a slots' mis' unk' ∧ ∀ a', buildKid n [] d (.node t a' slots mis unk) text s x =
        .ok (some (.node t a' slots' mis' unk', tx, s1)) := by
      cases x with
      | text v =>
        unfold buildKid at h1 ⊢
        cases h1
        exact ⟨_, _, _, rfl, fun _ => rfl⟩
      | empty m b =>
        unfold buildKid at h1 ⊢
        exact child_reattr h1
      | elem m b ks =>
        unfold buildKid at h1 ⊢
        exact child_reattr h1
    obtain ⟨sl, mi, un, rfl, h4⟩ := h3
    obtain ⟨sl', mi', un', h5, h6⟩ := kids_reattr xs h2
    refine ⟨sl', mi', un', h5, fun a' => ?_⟩
    unfold buildKids
    rw [h4 a']
    exact h6 a'

/-! ### After the schema -/

theorem old_parent {h : Handler σ} {N : Str} {a : Attrs} {slots : Mem → List Elem} {mis : List Elem} {unk : List Str} (h0 : h.oldName = N)
    (h1 : N ≠ []) (h2 : N ≠ chars! "Schema") : h.endOldSchema N (.node Ty.«Placemark» a slots mis unk) =
      .ok (.node Ty.«Placemark» a (setSlot slots M.«extendeddata» [dataElem N (h.simpleData.drop h.taken)]) mis unk,
        { h with taken := h.simpleData.length }) := by
  subst h0
  unfold Handler.endOldSchema
  rw [if_neg h1, if_neg h2, if_pos rfl]
  rfl

/-- What reading a piece with the schema in force comes to. -/
def Reaches (n : NumLib) (N : Str) (fs : List Str) (sd : List Elem) (g : Handler σ) (rest : List Elem) (crest : List Str) (evs : List Ev)
    (r : Elem × Str × σ) : Prop :=
  ∃ sd' e, (cover N fs sd sd.length g).run n [] evs =
    .ok (cover N fs sd' sd'.length { g with stack := e :: rest, chars := r.2.1 :: crest, obs := r.2.2 }) ∧ Alike e r.1

theorem modern_feature {n : NumLib} {N : Str} {fs : List Str} (hN : N ≠ []) (hU : isKnown N = false) {a : List (Str × Str)}
    {ks others : List Xml} {fields : List (Str × Str)} (ha : Apart N fs ks fields others) {g : Handler σ} {sd : List Elem}
    {cur cur' : Elem} {rest : List Elem} {text : Str} {crest : List Str} {r : Elem × Str × σ} (hi : Idle g)
    (hst : g.stack = cur :: rest) (hc : g.chars = text :: crest) (hal : Alike cur cur')
    (h : buildKid n [] g.nesting cur' text g.obs (.elem (chars! "Placemark") a (others ++ [asSchemaData N fields])) = .ok (some r)) :
    Reaches n N fs sd g rest crest (Xml.elem N a ks).events r := by
  obtain ⟨i1, i2, i3, i4, i5, i6⟩ := hi
  have hNs : N ≠ chars! "Schema" := fun h => by rw [h, known_names.2.2.2.1] at hU; cases hU
  have hNd : N ≠ chars! "description" := fun h => by rw [h, known_names.2.2.2.2.2.2] at hU; cases hU
  unfold buildKid at h
  obtain ⟨d1, h3, e, e1, t1, child, h4, h5, h6, h7, h8⟩ := child_inv known_names.2.2.2.2.1 (by decide) h
  rw [id_placemark] at h4
  obtain ⟨at', h9⟩ := make_placemark n (some cur'.ty) a
  rw [h9] at h4
  cases h4
  obtain ⟨q, k1, k2⟩ := kids_split h6
  obtain ⟨sl, mi, un, k3, _⟩ := kids_reattr _ k1
  obtain ⟨q1, q2, q3⟩ := q
  dsimp only at k2 k3
  subst k3
  have k4 := data_depth k2
  have k5 := data_build k2
  cases k5
  cases h7
  obtain ⟨p', a1, a2⟩ := alike_add hal.symm (show Alike _ _ from rfl) h8
  have hstart := calm_start (n := n) (h := cover N fs sd sd.length g) (name := N) (attrs := a) (old := N) ⟨i1, i2, i3, i4⟩ d1
    (by rw [if_neg hNs]; rfl) (e := .node Ty.«Placemark» at' (fun _ => []) [] []) (by
      rw [show typeOfName N N = Ty.«Placemark» from if_pos ⟨hN, rfl⟩]
      show makeElement n (g.stack.head?.map Elem.ty) _ a = _
      rw [hst]
      show makeElement n (some cur.ty) _ a = _
      rw [hal.ty]
      exact h9) (show ¬ Ty.«Placemark» = Ty.«description» by decide)
  have hkids := apart_run (n := n) (k := sd.length) hN ha (sd := sd)
    (g := { g with nesting := g.nesting + 1, chars := [] :: g.chars, stack := .node Ty.«Placemark» at' (fun _ => []) [] [] :: g.stack })
    ⟨i1, i2, i3, i4, i5, d1⟩ k4 rfl rfl k1
  refine ⟨sd ++ fields.map dataOf, p', run_join hstart i1 hkids i1 ?_, a2.symm⟩
  refine (calm_end (d := g.nesting) (e := .node Ty.«Placemark» at' sl mi un) (rest := g.stack) (text := t1) (crest := g.chars)
    (h := cover N fs (sd ++ fields.map dataOf) sd.length { g with
      nesting := g.nesting + 1, chars := t1 :: g.chars, stack := .node Ty.«Placemark» at' sl mi un :: g.stack, obs := r.2.2 })
    ⟨i1, i2, i3, i4⟩ hNd rfl rfl rfl d1 rfl).trans ?_
  rw [show setCharData (Elem.node Ty.«Placemark» at' sl mi un) t1 = Elem.node Ty.«Placemark» at' sl mi un from rfl,
    old_parent (by rfl) hN hNs]
  show (Handler.attach n [] _ (Elem.node Ty.«Placemark» at' (setSlot sl M.«extendeddata» [dataElem N ((sd ++ fields.map dataOf).drop sd.length)])
    mi un)) = _
  rw [List.drop_left]
  refine (calm_attach (x := .node Ty.«Placemark» at' sl mi un) (p := cur) (rest := rest) (p' := p') (by exact i1)
    (by rw [← hst]; rfl) a1).trans ?_
  rw [h3, ← hc]
  rfl

mutual

theorem modern_kid {n : NumLib} {N : Str} {fs : List Str} (hN : N ≠ []) (hU : isKnown N = false) : ∀ (x : Xml) {x' : Xml},
    Modern N fs x x' → ∀ {g : Handler σ} {sd : List Elem} {cur cur' : Elem} {rest : List Elem} {text : Str} {crest : List Str}
    {r : Elem × Str × σ}, Idle g → g.stack = cur :: rest → g.chars = text :: crest → Alike cur cur' →
    buildKid n [] g.nesting cur' text g.obs x' = .ok (some r) → Reaches n N fs sd g rest crest x.events r
  | x, _, .same ho ht, g, sd, cur, cur', rest, text, crest, r, hi, hst, hc, hal, h => by
    obtain ⟨e, h1, h2⟩ := alike_kid hal.symm h
    exact ⟨sd, e, kid_covered ho ht hi hst hc h1, h2.symm⟩
  | .elem _ a ks, _, .feature ha, g, sd, cur, cur', rest, text, crest, r, hi, hst, hc, hal, h =>
    modern_feature hN hU ha hi hst hc hal h
  | .elem m a ks, _, @Modern.inside _ _ _ _ _ ks' hk hd ho hm, g, sd, cur, cur', rest, text, crest, r, hi, hst, hc, hal, h => by
    obtain ⟨i1, i2, i3, i4, i5, i6⟩ := hi
    unfold buildKid at h
    obtain ⟨d1, h3, e, e1, t1, child, h4, h5, h6, h7, h8⟩ := child_inv hk hd h
    have hstart := calm_start (n := n) (h := cover N fs sd sd.length g) (name := m) (attrs := a) (old := N) (e := e)
      ⟨i1, i2, i3, i4⟩ d1 (by rw [if_neg ho.1]; rfl) (by
        rw [show typeOfName N m = Xsd.elementId m from if_neg fun h => ho.2.1 h.2]
        show makeElement n (g.stack.head?.map Elem.ty) _ a = _
        rw [hst]
        show makeElement n (some cur.ty) _ a = _
        rw [hal.ty]
        exact h4) h5
    obtain ⟨sd', e', j1, j2⟩ := modern_kids hN hU ks hm (sd := sd) (cur := e) (cur' := e)
      (g := { g with nesting := g.nesting + 1, chars := [] :: g.chars, stack := e :: g.stack })
      ⟨i1, i2, i3, i4, i5, d1⟩ rfl rfl rfl h6
    obtain ⟨child', c1, c2⟩ := alike_finish j2.symm h7
    obtain ⟨p', a1, a2⟩ := alike_add hal.symm c2 h8
    refine ⟨sd', p', run_join hstart i1 j1 i1 ?_, a2.symm⟩
    refine (calm_end (d := g.nesting) (e := e') (rest := g.stack) (text := t1) (crest := g.chars)
      (h := cover N fs sd' sd'.length { g with
        nesting := g.nesting + 1, chars := t1 :: g.chars, stack := e' :: g.stack, obs := r.2.2 })
      ⟨i1, i2, i3, i4⟩ hd rfl rfl rfl d1 c1).trans ?_
    rw [old_other ho.1 (by exact ho.2.1)]
    refine (calm_attach (x := e') (p := cur) (rest := rest) (p' := p') (by exact i1) (by rw [← hst]; rfl) a1).trans ?_
    rw [h3, ← hc]
    rfl

theorem modern_kids {n : NumLib} {N : Str} {fs : List Str} (hN : N ≠ []) (hU : isKnown N = false) : ∀ (xs : List Xml) {xs' : List Xml},
    ModernAll N fs xs xs' → ∀ {g : Handler σ} {sd : List Elem} {cur cur' : Elem} {rest : List Elem} {text : Str} {crest : List Str}
    {r : Elem × Str × σ}, Idle g → g.stack = cur :: rest → g.chars = text :: crest → Alike cur cur' →
    buildKids n [] g.nesting cur' text g.obs xs' = .ok (some r) → Reaches n N fs sd g rest crest (eventsOf xs) r
  | [], _, .nil, g, sd, cur, cur', rest, text, crest, r, hi, hst, hc, hal, h => by
    unfold buildKids at h
    cases h
    refine ⟨sd, cur, ?_, hal⟩
    show Outcome.ok _ = _
    rw [← hst, ← hc]
  | x :: xs, _, .cons h1 h2, g, sd, cur, cur', rest, text, crest, r, hi, hst, hc, hal, h => by
    obtain ⟨c, t, s1, h3, h4⟩ := buildKids_cons_inv h
    obtain ⟨sd', e, j1, j2⟩ := modern_kid hN hU x h1 (sd := sd) hi hst hc hal h3
    obtain ⟨sd'', e', j3, j4⟩ := modern_kids hN hU xs h2 (sd := sd') (cur := e) (cur' := c)
      (g := { g with stack := e :: rest, chars := t :: crest, obs := s1 }) hi rfl rfl j2 h4
    exact ⟨sd'', e', run_seq hi.1 j1 hi.1 j3, j4⟩

end

end Kml.Dom
