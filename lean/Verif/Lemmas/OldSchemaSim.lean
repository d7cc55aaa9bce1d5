import Verif.Lemmas.OldSchemaRun

/-! Documents with an old-style schema: what stands after the schema. -/

namespace Kml.Dom

open Kml

variable {σ : Type}

attribute [local irreducible] kml22Elements Xsd.tagToId classes inc dec uintSize

/-- The counters outside unknown elements, descriptions and old-style fields. -/
def Calm (h : Handler σ) : Prop := h.stopped = false ∧ h.skip = 0 ∧ h.inDesc = 0 ∧ h.inOld = false

theorem calm_start {n : NumLib} {h : Handler σ} {name : Str} {attrs : List (Str × Str)} {e : Elem} {old : Str} (hc : Calm h)
    (hn : h.nesting + 1 ≤ 100) (hold : (if name = chars! "Schema" then findOldSchemaName attrs h.oldName else h.oldName) = old)
    (hmake : makeElement n (h.stack.head?.map Elem.ty) (typeOfName old name) attrs = some e) (hd : e.ty ≠ Ty.«description») :
    h.startElement n [] name attrs = .ok { h with
      oldName := old, nesting := h.nesting + 1, chars := [] :: h.chars, stack := e :: h.stack } := by
  obtain ⟨stack, chars, skip, inDesc, nesting, inOld, oldName, fieldNames, simpleData, taken, stopped, obs⟩ := h
  obtain ⟨h1, h2, h3, h4⟩ := hc
  dsimp only at h1 h2 h3 h4 hn hold hmake ⊢
  subst h1 h2 h3 h4 hold
  have hu := uintSize_val
  have hinc : inc nesting = nesting + 1 := inc_eq (by omega)
  unfold Handler.startElement
  dsimp only
  rw [hinc, if_neg (by show ¬ nesting + 1 > 100; omega), if_neg (show ¬ (0 > 0 ∧ _) from fun h => absurd h.1 (by decide)),
    if_neg (Nat.lt_irrefl 0)]
  unfold Handler.startPlain
  split at hmake
  · rename_i hx
    rw [if_pos hx, if_pos hx]
    dsimp only
    rw [hmake]
    dsimp only
    unfold Handler.startKnown
    dsimp only
    rw [if_neg hd]
    rfl
  · rename_i hx
    rw [if_neg hx, if_neg hx]
    dsimp only
    rw [hmake]
    dsimp only
    unfold Handler.startKnown
    dsimp only
    rw [if_neg hd]
    rfl

theorem calm_end {n : NumLib} {h : Handler σ} {name text : Str} {e e' : Elem} {rest : List Elem} {crest : List Str} {d : Nat}
    (hc : Calm h) (hnd : name ≠ chars! "description") (hst : h.stack = e :: rest) (hch : h.chars = text :: crest)
    (hn : h.nesting = d + 1) (hd : d + 1 ≤ 100) (hf : finishElement n e text = .ok e') :
    h.endElement n [] name = (({ h with nesting := d, chars := crest } : Handler σ).endOldSchema name e' >>= fun r =>
      r.2.attach n [] r.1) := by
  obtain ⟨stack, chars, skip, inDesc, nesting, inOld, oldName, fieldNames, simpleData, taken, stopped, obs⟩ := h
  obtain ⟨h1, h2, h3, h4⟩ := hc
  dsimp only at h1 h2 h3 h4 hst hch hn ⊢
  subst h1 h2 h3 h4 hst hch hn
  have hu := uintSize_val
  unfold Handler.endElement Handler.leaveDescription
  rw [if_neg hnd]
  dsimp only
  rw [dec_succ (by omega), if_neg (by decide)]
  unfold Handler.endPlain
  dsimp only
  rw [Bool.false_and, hf]
  rfl

theorem calm_attach {n : NumLib} {h : Handler σ} {x p c p' : Elem} {rest : List Elem} (hs : h.stopped = false)
    (hst : h.stack = x :: p :: rest) (ha : addElement n [] p c = .ok p') :
    h.attach n [] c = .ok { h with stack := p' :: rest } := by
  obtain ⟨stack, chars, skip, inDesc, nesting, inOld, oldName, fieldNames, simpleData, taken, stopped, obs⟩ := h
  dsimp only at hs hst
  subst hs hst
  unfold Handler.attach
  dsimp only [callAll]
  unfold giveChild
  rw [if_pos rfl, ha]
  rfl

theorem old_other {h : Handler σ} {name : Str} {e : Elem} (h1 : name ≠ chars! "Schema") (h2 : name ≠ h.oldName) :
    h.endOldSchema name e = .ok (e, h) := by
  unfold Handler.endOldSchema
  rw [if_neg h1, if_neg h2, ite_self]

theorem run_join {n : NumLib} {h h1 h2 h3 : Handler σ} {m : Str} {a : List (Str × Str)} {ks : List Xml}
    (e1 : h.startElement n [] m a = .ok h1) (s1 : h1.stopped = false) (e2 : h1.run n [] (eventsOf ks) = .ok h2)
    (s2 : h2.stopped = false) (e3 : h2.endElement n [] m = .ok h3) : h.run n [] (Xml.elem m a ks).events = .ok h3 := by
  show h.run n [] (Ev.start m a :: (eventsOf ks ++ [.stop m])) = _
  unfold Handler.run
  show (h.startElement n [] m a >>= _) = _
  rw [e1]
  simp only [Outcome.ok_bind, s1]
  rw [show (if false = true then Outcome.ok h1 else h1.run n [] (eventsOf ks ++ [.stop m])) = h1.run n [] (eventsOf ks ++ [.stop m])
    from rfl, run_append n [] _ _ h1 s1, e2]
  simp only [Outcome.ok_bind, s2]
  rw [show (if false = true then Outcome.ok h2 else h2.run n [] [.stop m]) = h2.run n [] [.stop m] from rfl, run_single]
  exact e3

theorem run_seq {n : NumLib} {h h1 h2 : Handler σ} {a b : List Ev} (s : h.stopped = false) (e1 : h.run n [] a = .ok h1)
    (s1 : h1.stopped = false) (e2 : h1.run n [] b = .ok h2) : h.run n [] (a ++ b) = .ok h2 := by
  rw [run_append n [] _ _ h s, e1]
  simp only [Outcome.ok_bind, s1]
  exact e2

theorem events_append (a b : List Xml) : eventsOf (a ++ b) = eventsOf a ++ eventsOf b := by
  induction a with
  | nil => rfl
  | cons x l ih =>
    show x.events ++ eventsOf (l ++ b) = (x.events ++ eventsOf l) ++ eventsOf b
    rw [ih, List.append_assoc]

theorem kids_split {n : NumLib} {d : Nat} : ∀ {xs ys : List Xml} {cur : Elem} {text : Str} {s : σ} {r : Elem × Str × σ},
    buildKids n [] d cur text s (xs ++ ys) = .ok (some r) → ∃ q, buildKids n [] d cur text s xs = .ok (some q) ∧
      buildKids n [] d q.1 q.2.1 q.2.2 ys = .ok (some r)
  | [], ys, cur, text, s, r, h => ⟨(cur, text, s), by unfold buildKids; rfl, h⟩
  | x :: xs, ys, cur, text, s, r, h => by
    obtain ⟨c, t, s1, h1, h2⟩ := buildKids_cons_inv (show buildKids n [] d cur text s (x :: (xs ++ ys)) = _ from h)
    obtain ⟨q, h3, h4⟩ := kids_split h2
    refine ⟨q, ?_, h4⟩
    unfold buildKids
    rw [h1]
    exact h3

theorem cover_cover {N : Str} {fs fs' : List Str} {sd sd' : List Elem} {k k' : Nat} (h : Handler σ) :
    cover N fs' sd' k' (cover N fs sd k h) = cover N fs' sd' k' h := rfl

/-- Reading ordinary content with the schema in force. -/
theorem kid_covered {n : NumLib} {N : Str} {fs : List Str} {sd : List Elem} {k : Nat} {x : Xml} {g : Handler σ} {cur : Elem}
    {rest : List Elem} {text : Str} {crest : List Str} {r : Elem × Str × σ} (ho : x.All (Ordinary N fs)) (ht : x.Tame) (hi : Idle g)
    (hst : g.stack = cur :: rest) (hc : g.chars = text :: crest)
    (h : buildKid n [] g.nesting cur text g.obs x = .ok (some r)) :
    (cover N fs sd k g).run n [] x.events =
      .ok (cover N fs sd k { g with stack := r.1 :: rest, chars := r.2.1 :: crest, obs := r.2.2 }) := by
  have h1 := run_kid n [] x (ordinary_notOld x ho) ht g cur rest text crest hi hst hc
  rw [h] at h1
  have h2 := run_covered (n := n) (os := []) (N := N) (fs := fs) (sd := sd) (k := k) (h := g) ⟨hi.2.2.2.2.1, hi.2.2.2.1⟩
    (ordinary_events x ho)
  rw [h2.1, show g.run n [] x.events = _ from h1]
  rfl

theorem kids_covered {n : NumLib} {N : Str} {fs : List Str} {sd : List Elem} {k : Nat} {xs : List Xml} {g : Handler σ} {cur : Elem}
    {rest : List Elem} {text : Str} {crest : List Str} {r : Elem × Str × σ} (ho : AllOf (Ordinary N fs) xs) (ht : TameAll xs)
    (hi : Idle g) (hst : g.stack = cur :: rest) (hc : g.chars = text :: crest)
    (h : buildKids n [] g.nesting cur text g.obs xs = .ok (some r)) :
    (cover N fs sd k g).run n [] (eventsOf xs) =
      .ok (cover N fs sd k { g with stack := r.1 :: rest, chars := r.2.1 :: crest, obs := r.2.2 }) := by
  have h1 := run_kids n [] xs (ordinary_allNotOld xs ho) ht g cur rest text crest hi hst hc
  rw [h] at h1
  have h2 := run_covered (n := n) (os := []) (N := N) (fs := fs) (sd := sd) (k := k) (h := g) ⟨hi.2.2.2.2.1, hi.2.2.2.1⟩
    (ordinary_all xs ho)
  rw [h2.1, show g.run n [] (eventsOf xs) = _ from h1]
  rfl

/-! ### A field -/

theorem foreign_unknown {f : Str} (h : Foreign f) : isKnown f = false := by
  unfold isKnown
  rw [h]

theorem field_start {n : NumLib} {h : Handler σ} {f : Str} {a : List (Str × Str)} (hc : Calm h) (hn : h.nesting + 1 ≤ 100)
    (hN : h.oldName ≠ []) (hf : f ∈ h.fieldNames) (he : Foreign f) (hx : f ≠ h.oldName) :
    h.startElement n [] f a = .ok { h with
      inOld := true, nesting := h.nesting + 1, chars := [] :: h.chars
      simpleData := h.simpleData ++ [.node Ty.«SimpleData» ⟨[(chars! "name", f)], [], []⟩ (fun _ => []) [] []] } := by
  obtain ⟨stack, chars, skip, inDesc, nesting, inOld, oldName, fieldNames, simpleData, taken, stopped, obs⟩ := h
  obtain ⟨h1, h2, h3, h4⟩ := hc
  dsimp only at h1 h2 h3 h4 hn hN hf hx ⊢
  subst h1 h2 h3 h4
  have hu := uintSize_val
  have hinc : inc nesting = nesting + 1 := inc_eq (by omega)
  have hk := foreign_unknown he
  have hs : f ≠ chars! "Schema" := fun h => by rw [h, known_names.2.2.2.1] at hk; cases hk
  have ht : typeOfName oldName f = Xsd.elementId f := by
    unfold typeOfName
    rw [if_neg (fun h => hx h.2)]
  unfold Handler.startElement
  dsimp only
  rw [hinc, if_neg (by show ¬ nesting + 1 > 100; omega), if_neg (show ¬ (0 > 0 ∧ _) from fun h => absurd h.1 (by decide)),
    if_neg (Nat.lt_irrefl 0)]
  unfold Handler.startPlain
  rw [if_neg hs]
  dsimp only
  rw [ht]
  have hm := makeElement_isSome n (stack.head?.map Elem.ty) f a
  rw [hk] at hm
  rw [show makeElement n (stack.head?.map Elem.ty) (Xsd.elementId f) a = none from
    Option.isNone_iff_eq_none.1 (by rw [← Option.not_isSome, hm]; rfl)]
  dsimp only
  rw [if_pos ⟨he, hN⟩]
  unfold oldSchemaChild
  rw [if_pos hf]

theorem field_end {n : NumLib} {h : Handler σ} {f text : Str} {top : Elem} {l : List Elem} {sd : List Elem} {x : Elem}
    {crest : List Str} {d : Nat}
    (h1 : h.stopped = false) (h2 : h.skip = 0) (h4 : h.inOld = true) (hf : f ≠ chars! "description") (hst : h.stack = top :: l)
    (hch : h.chars = text :: crest) (hn : h.nesting = d + 1) (hd : d + 1 ≤ 100) (hs : h.simpleData = sd ++ [x]) :
    h.endElement n [] f = .ok { h with inOld := false, nesting := d, chars := crest, simpleData := sd ++ [setText x text] } := by
  obtain ⟨stack, chars, skip, inDesc, nesting, inOld, oldName, fieldNames, simpleData, taken, stopped, obs⟩ := h
  dsimp only at h1 h2 h4 hst hch hn hs ⊢
  subst h1 h2 h4 hst hch hn hs
  have hu := uintSize_val
  unfold Handler.endElement Handler.leaveDescription
  rw [if_neg hf]
  dsimp only
  rw [dec_succ (by omega), if_neg (by decide)]
  unfold Handler.endPlain
  dsimp only
  rw [show (true && !(sd ++ [x]).isEmpty) = true by cases sd <;> rfl]
  dsimp only
  rw [List.dropLast_concat, List.getLast?_concat]
  rfl

theorem texts_run {n : NumLib} : ∀ (ks : List Xml) (h : Handler σ) (text : Str) (crest : List Str), (∀ x ∈ ks, ∃ s, x = Xml.text s) →
    h.stopped = false → h.chars = text :: crest →
    h.run n [] (eventsOf ks) = .ok { h with chars := (text ++ directText ks) :: crest } := by
  have one : ∀ (s : Str) (h : Handler σ) (text : Str) (crest : List Str), h.stopped = false → h.chars = text :: crest →
      h.run n [] (s.map fun c => Ev.chars [c]) = .ok { h with chars := (text ++ s) :: crest } := by
    intro s
    induction s with
    | nil =>
      intro h text crest hs hc
      rw [List.append_nil, ← hc]
      rfl
    | cons c s ih =>
      intro h text crest hs hc
      show (h.charData [c] >>= fun h => if h.stopped then .ok h else h.run n [] (s.map fun c => Ev.chars [c])) = _
      unfold Handler.charData
      rw [hc]
      show (if h.stopped then _ else _) = _
      rw [if_neg (by rw [hs]; decide)]
      rw [ih { h with chars := (text ++ [c]) :: crest } (text ++ [c]) crest hs rfl, List.append_assoc]
      rfl
  intro ks
  induction ks with
  | nil =>
    intro h text crest _ hs hc
    show Outcome.ok h = _
    rw [show directText [] = [] from rfl, List.append_nil, ← hc]
  | cons x ks ih =>
    intro h text crest hx hs hc
    obtain ⟨s, rfl⟩ := hx x (by simp)
    refine run_seq hs (one s h text crest hs hc) hs ?_
    rw [ih { h with chars := (text ++ s) :: crest } (text ++ s) crest (fun x hx' => hx x (List.mem_cons_of_mem _ hx')) hs rfl,
      List.append_assoc]
    rfl

theorem field_run {n : NumLib} {N : Str} {fs : List Str} {sd : List Elem} {k : Nat} {x : Xml} {v : Str × Str} {g : Handler σ}
    {cur : Elem} {rest : List Elem} (hN : N ≠ []) (hv : FieldValue N fs x v) (hi : Idle g) (hn : g.nesting + 1 ≤ 100)
    (hst : g.stack = cur :: rest) :
    (cover N fs sd k g).run n [] x.events = .ok (cover N fs (sd ++ [dataOf v]) k g) := by
  obtain ⟨i1, i2, i3, i4, i5, i6⟩ := hi
  have hc : Calm (cover N fs sd k g) := ⟨i1, i2, i3, i4⟩
  cases hv with
  | @empty f a hf hk hx =>
    have hdf : f ≠ chars! "description" := fun h => by
      have hk := foreign_unknown hk
      rw [h, known_names.2.2.2.2.2.2] at hk
      cases hk
    show (cover N fs sd k g).run n [] [Ev.empty f a] = _
    rw [run_single]
    show ((cover N fs sd k g).startElement n [] f a >>= fun h => h.endElement n [] f) = _
    rw [field_start hc hn hN hf hk hx]
    show Handler.endElement n [] _ f = _
    refine (field_end (top := cur) (l := rest) (sd := sd) (crest := g.chars) (text := []) (d := g.nesting)
      (x := .node Ty.«SimpleData» ⟨[(chars! "name", f)], [], []⟩ (fun _ => []) [] []) (by exact i1)
      (by exact i2) rfl hdf (by exact hst) rfl rfl hn rfl).trans ?_
    unfold cover
    rw [← i4]
    rfl
  | @elem f a ks hf hk hx hks =>
    have hdf : f ≠ chars! "description" := fun h => by
      have hk := foreign_unknown hk
      rw [h, known_names.2.2.2.2.2.2] at hk
      cases hk
    refine run_join (field_start hc hn hN hf hk hx) i1 (texts_run ks _ [] g.chars hks i1 rfl) i1 ?_
    refine (field_end (top := cur) (l := rest) (sd := sd) (crest := g.chars) (text := [] ++ directText ks) (d := g.nesting)
      (x := .node Ty.«SimpleData» ⟨[(chars! "name", f)], [], []⟩ (fun _ => []) [] []) (by exact i1)
      (by exact i2) rfl hdf (by exact hst) rfl rfl hn rfl).trans ?_
    unfold cover
    rw [← i4]
    rfl

theorem apart_run {n : NumLib} {N : Str} {fs : List Str} {k : Nat} (hN : N ≠ []) {ks : List Xml} {fields : List (Str × Str)}
    {others : List Xml} (ha : Apart N fs ks fields others) : ∀ {g : Handler σ} {sd : List Elem} {cur : Elem} {rest : List Elem}
    {text : Str} {crest : List Str} {r : Elem × Str × σ}, Idle g → g.nesting + 1 ≤ 100 → g.stack = cur :: rest →
    g.chars = text :: crest → buildKids n [] g.nesting cur text g.obs others = .ok (some r) →
    (cover N fs sd k g).run n [] (eventsOf ks) =
      .ok (cover N fs (sd ++ fields.map dataOf) k { g with stack := r.1 :: rest, chars := r.2.1 :: crest, obs := r.2.2 }) := by
  induction ha with
  | nil =>
    intro g sd cur rest text crest r hi hn hst hc h
    unfold buildKids at h
    cases h
    show Outcome.ok _ = _
    rw [List.map_nil, List.append_nil, ← hst, ← hc]
  | field hv _ ih =>
    intro g sd cur rest text crest r hi hn hst hc h
    have h1 := field_run (n := n) (sd := sd) (k := k) hN hv hi hn hst
    refine run_seq hi.1 h1 hi.1 ?_
    rw [ih hi hn hst hc h, List.append_assoc]
    rfl
  | other ho ht _ ih =>
    intro g sd cur rest text crest r hi hn hst hc h
    obtain ⟨c, t, s1, h1, h2⟩ := buildKids_cons_inv h
    refine run_seq hi.1 (kid_covered ho ht hi hst hc h1) hi.1 ?_
    exact ih (g := { g with stack := c :: rest, chars := t :: crest, obs := s1 }) hi hn rfl rfl h2

end Kml.Dom
