import Verif.Model.ParseOldIn
import Verif.Lemmas.Clone

/-!
# Parsing with and without an observer that amends children, side by side
-/

namespace Kml.Dom.Amend

open Kml Kml.Dom

attribute [local irreducible] kml22Elements Xsd.tagToId classes inc dec uintSize

/-! ### Outcomes side by side -/

/-- Whenever the second goes well the first does too, with a related result, and also the other way round if `G`. -/
def Sim {α β : Type} (G : Prop) (R : α → β → Prop) (o : Outcome α) (o' : Outcome β) : Prop :=
  (∀ b, o' = .ok b → ∃ a, o = .ok a ∧ R a b) ∧ (G → ∀ a, o = .ok a → ∃ b, o' = .ok b ∧ R a b)

theorem sim_ok {α β : Type} {G : Prop} {R : α → β → Prop} {a : α} {b : β} (h : R a b) : Sim G R (.ok a) (.ok b) :=
  ⟨fun _ e => ⟨a, rfl, by cases e; exact h⟩, fun _ _ e => ⟨b, rfl, by cases e; exact h⟩⟩

theorem sim_ub {α β : Type} {G : Prop} {R : α → β → Prop} : Sim G R (.ub : Outcome α) (.ub : Outcome β) :=
  ⟨(fun _ e => nomatch e), (fun _ _ e => nomatch e)⟩

theorem sim_same {α : Type} {G : Prop} {R : α → α → Prop} {o : Outcome α} (h : ∀ a, o = .ok a → R a a) : Sim G R o o :=
  ⟨fun b e => ⟨b, e, h b e⟩, fun _ a e => ⟨a, e, h a e⟩⟩

theorem bind_ok {α β : Type} {o : Outcome α} {f : α → Outcome β} {b : β} : (o >>= f) = .ok b ↔ ∃ a, o = .ok a ∧ f a = .ok b := by
  cases o with
  | ok a => exact ⟨fun h => ⟨a, rfl, h⟩, fun ⟨x, h1, h2⟩ => by cases h1; exact h2⟩
  | throws => exact ⟨(fun h => nomatch h), fun ⟨x, h1, _⟩ => nomatch h1⟩
  | ub => exact ⟨(fun h => nomatch h), fun ⟨x, h1, _⟩ => nomatch h1⟩

theorem sim_bind {α β γ δ : Type} {G : Prop} {R : α → β → Prop} {S : γ → δ → Prop} {o : Outcome α} {o' : Outcome β}
    {f : α → Outcome γ} {f' : β → Outcome δ} (h : Sim G R o o') (hf : ∀ a b, R a b → Sim G S (f a) (f' b)) :
    Sim G S (o >>= f) (o' >>= f') := by
  constructor
  · intro d hd
    obtain ⟨b, hb, hd⟩ := bind_ok.1 hd
    obtain ⟨a, ha, hr⟩ := h.1 b hb
    obtain ⟨c, hc, hs⟩ := (hf a b hr).1 d hd
    exact ⟨c, bind_ok.2 ⟨a, ha, hc⟩, hs⟩
  · intro g c hc
    obtain ⟨a, ha, hc⟩ := bind_ok.1 hc
    obtain ⟨b, hb, hr⟩ := h.2 g a ha
    obtain ⟨d, hd, hs⟩ := (hf a b hr).2 g c hc
    exact ⟨d, bind_ok.2 ⟨b, hb, hd⟩, hs⟩

/-! ### Elements side by side -/

mutual

/-- The children are what `A` makes of them, their own children first. -/
inductive Turned (A : Elem → Elem → Prop) : Elem → Elem → Prop
  | field (t : Ty) (s : Str) : Turned A (.field t s) (.field t s)
  | node (t : Ty) (a : Attrs) (unk : List Str) {slots slots' : Mem → List Elem} {mis mis' : List Elem}
      (hl : ∀ m, (slots m).length = (slots' m).length)
      (hs : ∀ m (i : Nat) x y, (slots m)[i]? = some x → (slots' m)[i]? = some y → Given A x y)
      (ml : mis.length = mis'.length)
      (ms : ∀ (i : Nat) x y, mis[i]? = some x → mis'[i]? = some y → Given A x y) :
      Turned A (.node t a slots mis unk) (.node t a slots' mis' unk)

/-- A child and what became of it. -/
inductive Given (A : Elem → Elem → Prop) : Elem → Elem → Prop
  | mk {x y : Elem} (z : Elem) : Turned A x z → A z y → Given A x y

end

/-- Children and what became of them. -/
def Kids (A : Elem → Elem → Prop) (l l' : List Elem) : Prop :=
  l.length = l'.length ∧ ∀ (i : Nat) x y, l[i]? = some x → l'[i]? = some y → Given A x y

/-- What is known about the amending of children. -/
structure Amends (A : Elem → Elem → Prop) : Prop where
  field : ∀ t s y, A (.field t s) y ↔ y = .field t s
  node : ∀ t a slots mis unk y, A (.node t a slots mis unk) y → ∃ slots', y = .node t a slots' mis unk
  other : ∀ z, z.isA Ty.«Container» = false → A z z

variable {A : Elem → Elem → Prop}

theorem turned_node {t : Ty} {a : Attrs} {unk : List Str} {slots slots' : Mem → List Elem} {mis mis' : List Elem}
    (hs : ∀ m, Kids A (slots m) (slots' m)) (hm : Kids A mis mis') :
    Turned A (.node t a slots mis unk) (.node t a slots' mis' unk) :=
  .node t a unk (fun m => (hs m).1) (fun m => (hs m).2) hm.1 hm.2

theorem turned_cases {x y : Elem} (h : Turned A x y) : (∃ t s, x = .field t s ∧ y = .field t s) ∨
    ∃ t a slots slots' mis mis' unk, x = .node t a slots mis unk ∧ y = .node t a slots' mis' unk ∧
      (∀ m, Kids A (slots m) (slots' m)) ∧ Kids A mis mis' := by
  cases h with
  | field t s => exact Or.inl ⟨t, s, rfl, rfl⟩
  | node t a unk hl hs ml ms => exact Or.inr ⟨t, a, _, _, _, _, unk, rfl, rfl, fun m => ⟨hl m, hs m⟩, ml, ms⟩

theorem turned_ty {x y : Elem} (h : Turned A x y) : y.ty = x.ty := by
  rcases turned_cases h with ⟨t, s, rfl, rfl⟩ | ⟨t, a, slots, slots', mis, mis', unk, rfl, rfl, -⟩ <;> rfl

theorem turned_isA {x y : Elem} (h : Turned A x y) (t : Ty) : y.isA t = x.isA t := by
  rcases turned_cases h with ⟨t, s, rfl, rfl⟩ | ⟨t, a, slots, slots', mis, mis', unk, rfl, rfl, -⟩ <;> rfl

theorem given_cases (hA : Amends A) {x y : Elem} (h : Given A x y) : (∃ t s, x = .field t s ∧ y = .field t s) ∨
    ∃ t a slots slots' mis mis' unk, x = .node t a slots mis unk ∧ y = .node t a slots' mis' unk := by
  obtain ⟨z, h1, h2⟩ := h
  rcases turned_cases h1 with ⟨t, s, rfl, rfl⟩ | ⟨t, a, slots, slots', mis, mis', unk, rfl, rfl, -⟩
  · exact Or.inl ⟨t, s, rfl, (hA.field t s y).1 h2⟩
  · obtain ⟨slots'', rfl⟩ := hA.node _ _ _ _ _ _ h2
    exact Or.inr ⟨t, a, slots, slots'', mis, mis', unk, rfl, rfl⟩

theorem given_field (hA : Amends A) (t : Ty) (s : Str) : Given A (.field t s) (.field t s) :=
  ⟨_, .field t s, (hA.field t s _).2 rfl⟩

theorem kids_nil : Kids A [] [] := ⟨rfl, by simp⟩

theorem kids_one {x y : Elem} (h : Given A x y) : Kids A [x] [y] := by
  refine ⟨rfl, fun i a b ha hb => ?_⟩
  cases i with
  | zero => cases ha; cases hb; exact h
  | succ i => simp at ha

theorem kids_append {l l' k k' : List Elem} (h : Kids A l l') (hk : Kids A k k') : Kids A (l ++ k) (l' ++ k') := by
  refine ⟨by simp [h.1, hk.1], fun i x y hx hy => ?_⟩
  by_cases hi : i < l.length
  · rw [List.getElem?_append_left hi] at hx
    rw [List.getElem?_append_left (by rw [← h.1]; exact hi)] at hy
    exact h.2 i x y hx hy
  · rw [List.getElem?_append_right (by omega)] at hx
    rw [List.getElem?_append_right (by have := h.1; omega), ← h.1] at hy
    exact hk.2 _ x y hx hy

theorem kids_same {l : List Elem} (h : ∀ x ∈ l, Given A x x) : Kids A l l := by
  refine ⟨rfl, fun i x y hx hy => ?_⟩
  rw [hx] at hy
  cases hy
  exact h x (List.mem_of_getElem? hx)

theorem kids_cases {l l' : List Elem} (h : Kids A l l') : (l = [] ∧ l' = []) ∨
    ∃ x y k k', l = x :: k ∧ l' = y :: k' ∧ Given A x y ∧ Kids A k k' := by
  obtain ⟨h1, h2⟩ := h
  cases l with
  | nil => cases l' with
    | nil => exact Or.inl ⟨rfl, rfl⟩
    | cons y k' => simp at h1
  | cons x k => cases l' with
    | nil => simp at h1
    | cons y k' =>
      refine Or.inr ⟨x, y, k, k', rfl, rfl, h2 0 x y rfl rfl, by simpa using h1, fun i a b ha hb => h2 (i + 1) a b ?_ ?_⟩
      · simpa using ha
      · simpa using hb

theorem kids_slot {slots slots' : Mem → List Elem} (h : ∀ m, Kids A (slots m) (slots' m)) {l l' : List Elem} (hl : Kids A l l')
    (i : Mem) : ∀ m, Kids A (setSlot slots i l m) (setSlot slots' i l' m) := by
  intro m
  unfold setSlot
  split
  · exact hl
  · exact h m

theorem kids_single (hA : Amends A) {l l' : List Elem} (h : Kids A l l') : single l' = single l := by
  rcases kids_cases h with ⟨rfl, rfl⟩ | ⟨x, y, k, k', rfl, rfl, hg, hk⟩
  · rfl
  · rcases kids_cases hk with ⟨rfl, rfl⟩ | ⟨x2, y2, k2, k2', rfl, rfl, -, -⟩
    · rcases given_cases hA hg with ⟨t, s, rfl, rfl⟩ | ⟨t, a, slots, slots', mis, mis', unk, rfl, rfl⟩ <;> rfl
    · unfold single
      split <;> split <;> simp_all

theorem given_rule (hA : Amends A) {x y : Elem} (h : Given A x y) (rules : List Rule) : findRule rules y = findRule rules x := by
  have : ∀ r : Test, r.matches y = r.matches x := by
    intro r
    rcases given_cases hA h with ⟨t, s, rfl, rfl⟩ | ⟨t, a, slots, slots', mis, mis', unk, rfl, rfl⟩ <;> cases r <;> rfl
  unfold findRule
  simp only [this]

theorem readPoints_fields {n : NumLib} {s : Str} {pts : List Elem} (h : readPoints n s = .ok pts) : ∀ p ∈ pts, ∃ t s, p = .field t s := by
  unfold readPoints at h
  split at h
  · obtain ⟨vs, -, h⟩ := bind_ok.1 h
    cases h
    intro p hp
    obtain ⟨v, -, rfl⟩ := List.mem_map.1 hp
    exact ⟨_, _, rfl⟩
  · exact nomatch h

theorem kids_fields (hA : Amends A) (t : Ty) (v : Option Str) : Kids A (v.map (Elem.field t)).toList (v.map (Elem.field t)).toList := by
  apply kids_same
  intro x hx
  cases v with
  | none => simp at hx
  | some s =>
    simp at hx
    rw [hx]
    exact given_field hA t s

theorem apply_sim (hA : Amends A) {G : Prop} (n : NumLib) (s : Str) {slots slots' : Mem → List Elem}
    (hs : ∀ m, Kids A (slots m) (slots' m)) {x y : Elem} (hg : Given A x y) (act : Act) :
    Sim G (fun a b => ∀ m, Kids A (a m) (b m)) (act.apply n s slots x) (act.apply n s slots' y) := by
  cases act with
  | field m k =>
    rcases given_cases hA hg with ⟨t, text, rfl, rfl⟩ | ⟨t, a, sl, sl', mis, mis', unk, rfl, rfl⟩
    · show Sim G _ (readValue n k t (single (slots m)) text >>= fun v => .ok (setSlot slots m (v.map (Elem.field t)).toList))
        (readValue n k t (single (slots' m)) text >>= fun v => .ok (setSlot slots' m (v.map (Elem.field t)).toList))
      rw [kids_single hA (hs m)]
      refine sim_bind (R := Eq) (sim_same fun _ _ => rfl) ?_
      rintro v _ rfl
      exact sim_ok (kids_slot hs (kids_fields hA t v) m)
    · exact sim_ok (kids_slot hs kids_nil m)
  | fields m k =>
    rcases given_cases hA hg with ⟨t, text, rfl, rfl⟩ | ⟨t, a, sl, sl', mis, mis', unk, rfl, rfl⟩
    · show Sim G _ (readValue n k t none text >>= fun v => .ok (setSlot slots m (slots m ++ (v.map (Elem.field t)).toList)))
        (readValue n k t none text >>= fun v => .ok (setSlot slots' m (slots' m ++ (v.map (Elem.field t)).toList)))
      refine sim_bind (R := Eq) (sim_same fun _ _ => rfl) ?_
      rintro v _ rfl
      exact sim_ok (kids_slot hs (kids_append (hs m) (kids_fields hA t v)) m)
    · exact sim_ok hs
  | one m => exact sim_ok (kids_slot hs (kids_one hg) m)
  | many m => exact sim_ok (kids_slot hs (kids_append (hs m) (kids_one hg)) m)
  | selfText m => exact sim_ok (kids_slot hs (kids_one (given_field hA _ _)) m)
  | selfPoints m =>
    show Sim G _ (readPoints n s >>= fun pts => .ok (setSlot slots m (slots m ++ pts)))
      (readPoints n s >>= fun pts => .ok (setSlot slots' m (slots' m ++ pts)))
    refine sim_bind (R := fun a b => a = b ∧ Kids A a b) (sim_same fun pts hp => ⟨rfl, kids_same fun x hx => ?_⟩) ?_
    · obtain ⟨t, v, rfl⟩ := readPoints_fields hp x hx
      exact given_field hA t v
    · rintro v _ ⟨rfl, hk⟩
      exact sim_ok (kids_slot hs (kids_append (hs m) hk) m)

theorem addElement_sim (hA : Amends A) {G : Prop} (n : NumLib) (s : Str) {p p' x y : Elem} (hp : Turned A p p') (hg : Given A x y) :
    Sim G (Turned A) (addElement n s p x) (addElement n s p' y) := by
  rcases turned_cases hp with ⟨t, v, rfl, rfl⟩ | ⟨t, a, slots, slots', mis, mis', unk, rfl, rfl, hs, hm⟩
  · exact sim_ok hp
  · unfold addElement
    dsimp only
    cases classOf t with
    | none => exact sim_ok (turned_node hs (kids_append hm (kids_one hg)))
    | some c =>
      dsimp only
      rw [given_rule hA hg]
      cases findRule c.rules x with
      | none => exact sim_ok (turned_node hs (kids_append hm (kids_one hg)))
      | some act => exact sim_bind (apply_sim hA n s hs hg act) fun u v h => sim_ok (turned_node h hm)

/-! ### Handlers side by side -/

/-- A `SimpleData` with a text at most. -/
def Bare (d : Elem) : Prop :=
  ∃ a slots, d = .node Ty.«SimpleData» a slots [] [] ∧ ∀ m, ∀ x ∈ slots m, ∃ t s, x = Elem.field t s

theorem data_container : (Elem.node Ty.«SimpleData» Attrs.empty (fun _ => []) [] []).isA Ty.«Container» = false := by decide +kernel

theorem bare_given (hA : Amends A) {d : Elem} (h : Bare d) : Given A d d := by
  obtain ⟨a, slots, rfl, h⟩ := h
  refine .mk _ (turned_node (fun m => kids_same fun x hx => ?_) kids_nil) (hA.other _ data_container)
  obtain ⟨t, s, rfl⟩ := h m x hx
  exact given_field hA t s

/-- The stacks are side by side and all else is the same; the `SimpleData` in waiting have nothing to amend. -/
structure Beside (A : Elem → Elem → Prop) (h h' : Handler Unit) : Prop where
  stack : Each (Turned A) h.stack h'.stack
  rest : h' = { h with stack := h'.stack }
  data : ∀ d ∈ h.simpleData, Bare d

theorem turned_new (t : Ty) (a : Attrs) : Turned A (.node t a (fun _ => []) [] []) (.node t a (fun _ => []) [] []) :=
  turned_node (fun _ => kids_nil) kids_nil

theorem turned_made {n : NumLib} {parent : Option Ty} {t : Ty} {attrs : List (Str × Str)} {e : Elem}
    (h : makeElement n parent t attrs = some e) : Turned A e e := by
  unfold makeElement at h
  split at h
  · split at h
    · exact nomatch h
    · cases h
      exact turned_new _ _
  · cases h
    exact .field _ _
  · exact nomatch h

theorem appendTop_sim {G : Prop} (s : Str) (cs : List Str) : Sim G Eq (appendTop s cs) (appendTop s cs) := sim_same fun _ _ => rfl

theorem startUnknown_sim {G : Prop} {h h' : Handler Unit} (hb : Beside A h h') (name : Str) (attrs : List (Str × Str)) :
    Sim G (Beside A) (h.startUnknown name attrs) (h'.startUnknown name attrs) := by
  obtain ⟨stack, cs, skip, inDesc, nesting, inOld, oldName, fieldNames, simpleData, taken, stopped, obs⟩ := h
  obtain ⟨hs, hr, hd⟩ := hb
  rw [hr]
  dsimp only at *
  generalize h'.stack = st' at *
  unfold Handler.startUnknown
  cases hs with
  | nil => exact sim_ok ⟨.nil, rfl, hd⟩
  | cons hx ht =>
    dsimp only
    refine sim_bind (R := Eq) (appendTop_sim _ _) ?_
    rintro c _ rfl
    exact sim_ok ⟨.cons hx ht, rfl, hd⟩

theorem startPlain_sim {G : Prop} {h h' : Handler Unit} (hb : Beside A h h') (n : NumLib) (name : Str)
    (attrs : List (Str × Str)) : Sim G (Beside A) (h.startPlain n [] name attrs) (h'.startPlain n [] name attrs) := by
  obtain ⟨stack, cs, skip, inDesc, nesting, inOld, oldName, fieldNames, simpleData, taken, stopped, obs⟩ := h
  obtain ⟨hs, hr, hd⟩ := hb
  rw [hr]
  dsimp only at *
  generalize h'.stack = st' at *
  clear hr
  have hty : st'.head?.map Elem.ty = stack.head?.map Elem.ty := by
    cases hs with
    | nil => rfl
    | cons hx ht => simp [turned_ty hx]
  have key : ∀ old : Str, Sim G (Beside A)
      (match makeElement n (stack.head?.map Elem.ty) (typeOfName old name) attrs with
        | some e => .ok ((⟨stack, [] :: cs, skip, inDesc, nesting, inOld, old, fieldNames, simpleData, taken, stopped, obs⟩ : Handler Unit).startKnown [] e)
        | none =>
          if Xsd.elementType (typeOfName old name) = .unknown ∧ old ≠ [] then
            match oldSchemaChild name fieldNames with
            | some sd => .ok ⟨stack, [] :: cs, skip, inDesc, nesting, true, old, fieldNames, simpleData ++ [sd], taken, stopped, obs⟩
            | none => Handler.startUnknown ⟨stack, [] :: cs, skip, inDesc, nesting, false, old, fieldNames, simpleData, taken, stopped, obs⟩ name attrs
          else Handler.startUnknown ⟨stack, [] :: cs, skip, inDesc, nesting, inOld, old, fieldNames, simpleData, taken, stopped, obs⟩ name attrs)
      (match makeElement n (st'.head?.map Elem.ty) (typeOfName old name) attrs with
        | some e => .ok ((⟨st', [] :: cs, skip, inDesc, nesting, inOld, old, fieldNames, simpleData, taken, stopped, obs⟩ : Handler Unit).startKnown [] e)
        | none =>
          if Xsd.elementType (typeOfName old name) = .unknown ∧ old ≠ [] then
            match oldSchemaChild name fieldNames with
            | some sd => .ok ⟨st', [] :: cs, skip, inDesc, nesting, true, old, fieldNames, simpleData ++ [sd], taken, stopped, obs⟩
            | none => Handler.startUnknown ⟨st', [] :: cs, skip, inDesc, nesting, false, old, fieldNames, simpleData, taken, stopped, obs⟩ name attrs
          else Handler.startUnknown ⟨st', [] :: cs, skip, inDesc, nesting, inOld, old, fieldNames, simpleData, taken, stopped, obs⟩ name attrs) := by
    intro old
    rw [hty]
    cases hm : makeElement n (stack.head?.map Elem.ty) (typeOfName old name) attrs with
    | some e =>
      dsimp only
      apply sim_ok
      unfold Handler.startKnown
      split <;> exact ⟨.cons (turned_made hm) hs, rfl, hd⟩
    | none =>
      dsimp only
      by_cases hc : Xsd.elementType (typeOfName old name) = .unknown ∧ old ≠ []
      · rw [if_pos hc, if_pos hc]
        cases ho : oldSchemaChild name fieldNames with
        | some sd =>
          refine sim_ok ⟨hs, rfl, ?_⟩
          intro d hdm
          rcases List.mem_append.1 hdm with hdm | hdm
          · exact hd d hdm
          · rw [List.mem_singleton.1 hdm]
            unfold oldSchemaChild at ho
            split at ho
            · cases ho
              exact ⟨_, _, rfl, by simp⟩
            · exact nomatch ho
        | none => exact startUnknown_sim ⟨hs, rfl, hd⟩ name attrs
      · rw [if_neg hc, if_neg hc]
        exact startUnknown_sim ⟨hs, rfl, hd⟩ name attrs
  unfold Handler.startPlain
  by_cases hn : name = chars! "Schema"
  · simp only [if_pos hn]
    exact key _
  · simp only [if_neg hn]
    exact key _

theorem startElement_sim {G : Prop} {h h' : Handler Unit} (hb : Beside A h h') (n : NumLib) (name : Str)
    (attrs : List (Str × Str)) : Sim G (Beside A) (h.startElement n [] name attrs) (h'.startElement n [] name attrs) := by
  obtain ⟨stack, cs, skip, inDesc, nesting, inOld, oldName, fieldNames, simpleData, taken, stopped, obs⟩ := h
  obtain ⟨hs, hr, hd⟩ := hb
  rw [hr]
  dsimp only at *
  generalize h'.stack = st' at *
  clear hr
  unfold Handler.startElement
  dsimp only
  by_cases h1 : inc nesting > maxNestingDepth
  · rw [if_pos h1, if_pos h1]
    exact sim_ok ⟨hs, rfl, hd⟩
  · rw [if_neg h1, if_neg h1]
    have key : ∀ d, Sim G (Beside A)
        (if skip > 0 then do
          let c ← appendTop (startText name attrs) cs
          .ok ⟨stack, c, inc skip, d, inc nesting, inOld, oldName, fieldNames, simpleData, taken, stopped, obs⟩
        else Handler.startPlain n [] ⟨stack, cs, skip, d, inc nesting, inOld, oldName, fieldNames, simpleData, taken, stopped, obs⟩ name attrs)
        (if skip > 0 then do
          let c ← appendTop (startText name attrs) cs
          .ok ⟨st', c, inc skip, d, inc nesting, inOld, oldName, fieldNames, simpleData, taken, stopped, obs⟩
        else Handler.startPlain n [] ⟨st', cs, skip, d, inc nesting, inOld, oldName, fieldNames, simpleData, taken, stopped, obs⟩ name attrs) := by
      intro d
      by_cases h3 : skip > 0
      · rw [if_pos h3, if_pos h3]
        refine sim_bind (R := Eq) (appendTop_sim _ _) ?_
        rintro c _ rfl
        exact sim_ok ⟨hs, rfl, hd⟩
      · rw [if_neg h3, if_neg h3]
        exact startPlain_sim ⟨hs, rfl, hd⟩ n name attrs
    by_cases h2 : inDesc > 0 ∧ name = chars! "description"
    · simp only [if_pos h2]
      exact key _
    · simp only [if_neg h2]
      exact key _

theorem endUnknown_sim {G : Prop} {h h' : Handler Unit} (hb : Beside A h h') (name : Str) :
    Sim G (Beside A) (h.endUnknown name) (h'.endUnknown name) := by
  obtain ⟨stack, cs, skip, inDesc, nesting, inOld, oldName, fieldNames, simpleData, taken, stopped, obs⟩ := h
  obtain ⟨hs, hr, hd⟩ := hb
  rw [hr]
  dsimp only at *
  generalize h'.stack = st' at *
  clear hr
  unfold Handler.endUnknown
  refine sim_bind (R := Eq) (appendTop_sim _ _) ?_
  rintro c _ rfl
  dsimp only
  by_cases h1 : dec skip = 0
  · rw [if_pos h1, if_pos h1]
    cases hs with
    | nil => exact sim_ub
    | cons hx ht =>
      cases c with
      | nil => exact sim_ub
      | cons s c =>
        refine sim_ok ⟨.cons ?_ ht, rfl, hd⟩
        rcases turned_cases hx with ⟨t, v, rfl, rfl⟩ | ⟨t, a, slots, slots', mis, mis', unk, rfl, rfl, hs, hm⟩
        · exact hx
        · exact turned_node hs hm
  · rw [if_neg h1, if_neg h1]
    exact sim_ok ⟨hs, rfl, hd⟩

theorem self_other : ∀ t : Ty, selfParsing t = true → ∀ a slots mis unk, (Elem.node t a slots mis unk).isA Ty.«Container» = false := by
  intro t ht a slots mis unk
  have h4 : t = Ty.«coordinates» ∨ t = Ty.«Snippet» ∨ t = Ty.«linkSnippet» ∨ t = Ty.«SimpleData» := by
    unfold selfParsing at ht
    simpa [or_assoc] using ht
  have key : ∀ t ∈ [Ty.«coordinates», Ty.«Snippet», Ty.«linkSnippet», Ty.«SimpleData»],
      (Elem.node t Attrs.empty (fun _ => []) [] []).isA Ty.«Container» = false := by decide +kernel
  exact key t (by simpa using h4)

theorem finish_sim (hA : Amends A) {G : Prop} (n : NumLib) {e e' : Elem} (h : Turned A e e') (s : Str) :
    Sim G (Turned A) (finishElement n e s) (finishElement n e' s) := by
  have hc : Turned A (setCharData e s) (setCharData e' s) := by
    rcases turned_cases h with ⟨t, v, rfl, rfl⟩ | ⟨t, a, slots, slots', mis, mis', unk, rfl, rfl, -⟩
    · exact .field t s
    · exact h
  unfold finishElement
  rw [turned_ty h]
  by_cases hp : selfParsing e.ty = true
  · rw [if_pos hp, if_pos hp]
    refine addElement_sim hA n s hc (.mk _ hc ?_)
    rcases turned_cases h with ⟨t, v, rfl, rfl⟩ | ⟨t, a, slots, slots', mis, mis', unk, rfl, rfl, -⟩
    · exact (hA.field _ _ _).2 rfl
    · exact hA.other _ (self_other t hp _ _ _ _)
  · rw [if_neg hp, if_neg hp]
    exact sim_ok hc

theorem schemaEnd_sim (hA : Amends A) {G : Prop} {e e' : Elem} (h : Turned A e e') (old : Str) :
    Sim G (fun a b => Turned A a.1 b.1 ∧ a.2 = b.2) (oldSchemaEnd e old) (oldSchemaEnd e' old) := by
  rcases turned_cases h with ⟨t, v, rfl, rfl⟩ | ⟨t, a, slots, slots', mis, mis', unk, rfl, rfl, hs, hm⟩
  · exact sim_ub
  · unfold oldSchemaEnd
    dsimp only
    by_cases ht : t = Ty.«Schema»
    · rw [if_pos ht, if_pos ht]
      refine sim_ok ⟨turned_node hs hm, ?_⟩
      dsimp only
      have : ∀ (l l' : List Elem), Kids A l l' →
          (l.filterMap fun f => match f with
            | .node _ a _ _ _ => a.known.get (chars! "name")
            | .field _ _ => none) =
          l'.filterMap fun f => match f with
            | .node _ a _ _ _ => a.known.get (chars! "name")
            | .field _ _ => none := by
        intro l
        induction l with
        | nil =>
          intro l' h
          rcases kids_cases h with ⟨-, rfl⟩ | ⟨x, y, k, k', h, -⟩
          · rfl
          · exact nomatch h
        | cons x l ih =>
          intro l' h
          rcases kids_cases h with ⟨h, -⟩ | ⟨x', y, k, k', he, rfl, hg, hk⟩
          · exact nomatch h
          · obtain ⟨rfl, rfl⟩ := List.cons.inj he
            rw [List.filterMap_cons, List.filterMap_cons, ih k' hk]
            rcases given_cases hA hg with ⟨t, s, rfl, rfl⟩ | ⟨t, a, sl, sl', mis, mis', unk, rfl, rfl⟩ <;> rfl
      exact this _ _ (hs _)
    · rw [if_neg ht, if_neg ht]
      exact sim_ub

theorem kids_of_one {l : List Elem} {m i : Mem} (h : ∀ x ∈ l, Given A x x) :
    Kids A (if i = m then l else []) (if i = m then l else []) := by
  split
  · exact kids_same h
  · exact kids_nil

theorem schema_containers : (Elem.node Ty.«SchemaData» Attrs.empty (fun _ => []) [] []).isA Ty.«Container» = false ∧
    (Elem.node Ty.«ExtendedData» Attrs.empty (fun _ => []) [] []).isA Ty.«Container» = false := by decide +kernel

theorem parentEnd_sim (hA : Amends A) {G : Prop} {e e' : Elem} (h : Turned A e e') (old : Str) {data : List Elem}
    (hd : ∀ d ∈ data, Given A d d) :
    Sim G (Turned A) (oldSchemaParentEnd e old data) (oldSchemaParentEnd e' old data) := by
  rcases turned_cases h with ⟨t, v, rfl, rfl⟩ | ⟨t, a, slots, slots', mis, mis', unk, rfl, rfl, hs, hm⟩
  · exact sim_ub
  · unfold oldSchemaParentEnd
    dsimp only
    by_cases ht : t = Ty.«Placemark»
    · rw [if_pos ht, if_pos ht]
      refine sim_ok (turned_node (kids_slot hs (kids_one ?_) _) hm)
      refine .mk _ (turned_node (fun m => kids_of_one ?_) kids_nil) (hA.other _ schema_containers.2)
      intro x hx
      rw [List.mem_singleton.1 hx]
      exact .mk _ (turned_node (fun m => kids_of_one hd) kids_nil) (hA.other _ schema_containers.1)
    · rw [if_neg ht, if_neg ht]
      exact sim_ub

theorem endOldSchema_sim (hA : Amends A) {G : Prop} {h h' : Handler Unit} (hb : Beside A h h') (name : Str) {e e' : Elem}
    (he : Turned A e e') :
    Sim G (fun a b => Turned A a.1 b.1 ∧ Beside A a.2 b.2) (h.endOldSchema name e) (h'.endOldSchema name e') := by
  obtain ⟨stack, cs, skip, inDesc, nesting, inOld, oldName, fieldNames, simpleData, taken, stopped, obs⟩ := h
  obtain ⟨hs, hr, hd⟩ := hb
  rw [hr]
  dsimp only at *
  generalize h'.stack = st' at *
  clear hr
  unfold Handler.endOldSchema
  dsimp only
  by_cases h1 : oldName = []
  · rw [if_pos h1, if_pos h1]
    exact sim_ok ⟨he, hs, rfl, hd⟩
  · rw [if_neg h1, if_neg h1]
    by_cases h2 : name = chars! "Schema"
    · rw [if_pos h2, if_pos h2]
      refine sim_bind (schemaEnd_sim hA he oldName) ?_
      rintro ⟨a, l⟩ ⟨b, _⟩ ⟨hab, rfl⟩
      exact sim_ok ⟨hab, hs, rfl, hd⟩
    · rw [if_neg h2, if_neg h2]
      by_cases h3 : name = oldName
      · rw [if_pos h3, if_pos h3]
        refine sim_bind (parentEnd_sim hA he oldName fun d hx => bare_given hA (hd d (List.mem_of_mem_drop hx))) ?_
        intro a b hab
        exact sim_ok ⟨hab, hs, rfl, hd⟩
      · rw [if_neg h3, if_neg h3]
        exact sim_ok ⟨he, hs, rfl, hd⟩

variable {amend : Elem → Outcome Elem}

theorem attach_sim (hA : Amends fun z y => amend z = .ok y) {h h' : Handler Unit} (hb : Beside (fun z y => amend z = .ok y) h h')
    (n : NumLib) {c c' : Elem} (hc : Turned (fun z y => amend z = .ok y) c c') :
    Sim (∀ z, ∃ y, amend z = .ok y) (Beside fun z y => amend z = .ok y) (h.attach n [] c) (h'.attachO n amend c') := by
  obtain ⟨stack, cs, skip, inDesc, nesting, inOld, oldName, fieldNames, simpleData, taken, stopped, obs⟩ := h
  obtain ⟨hs, hr, hd⟩ := hb
  rw [hr]
  dsimp only at *
  generalize h'.stack = st' at *
  clear hr
  unfold Handler.attach Handler.attachO
  cases hs with
  | nil => exact sim_ok ⟨.nil, rfl, hd⟩
  | cons hx ht =>
    cases ht with
    | nil => exact sim_ok ⟨.cons hc .nil, rfl, hd⟩
    | @cons p p' rest rest' hp ht =>
      dsimp only [callAll]
      have key : Sim (∀ z, ∃ y, amend z = .ok y) (Turned fun z y => amend z = .ok y) (giveChild n true p c)
          (amend c' >>= fun y => giveChild n true p' y) := by
        constructor
        · intro b hb
          obtain ⟨y, hy, hb⟩ := bind_ok.1 hb
          exact (addElement_sim (G := True) hA n [] hp (.mk c' hc hy)).1 b hb
        · intro g a ha
          obtain ⟨y, hy⟩ := g c'
          obtain ⟨b, hb, hr⟩ := (addElement_sim (G := True) hA n [] hp (.mk c' hc hy)).2 trivial a ha
          exact ⟨b, bind_ok.2 ⟨y, hy, hb⟩, hr⟩
      have assoc : (amend c' >>= fun child => giveChild n true p' child >>= fun parent =>
          (.ok ⟨parent :: rest', cs, skip, inDesc, nesting, inOld, oldName, fieldNames, simpleData, taken, stopped, obs⟩ : Outcome (Handler Unit))) =
          ((amend c' >>= fun y => giveChild n true p' y) >>= fun parent =>
          .ok ⟨parent :: rest', cs, skip, inDesc, nesting, inOld, oldName, fieldNames, simpleData, taken, stopped, obs⟩) := by
        cases amend c' <;> rfl
      rw [assoc]
      refine sim_bind key ?_
      intro a b hab
      refine sim_ok ⟨.cons hab ht, ?_, hd⟩
      simp

theorem endPlain_sim (hA : Amends fun z y => amend z = .ok y) {h h' : Handler Unit} (hb : Beside (fun z y => amend z = .ok y) h h')
    (n : NumLib) (name : Str) :
    Sim (∀ z, ∃ y, amend z = .ok y) (Beside fun z y => amend z = .ok y) (h.endPlain n [] name) (h'.endPlainO n amend name) := by
  obtain ⟨stack, cs, skip, inDesc, nesting, inOld, oldName, fieldNames, simpleData, taken, stopped, obs⟩ := h
  obtain ⟨hs, hr, hd⟩ := hb
  rw [hr]
  dsimp only at *
  generalize h'.stack = st' at *
  clear hr
  unfold Handler.endPlain Handler.endPlainO
  cases hs with
  | nil => exact sim_ok ⟨.nil, rfl, hd⟩
  | cons hx ht =>
    cases cs with
    | nil => exact sim_ub
    | cons s cs =>
      dsimp only
      cases (inOld && !simpleData.isEmpty) with
      | true =>
        refine sim_ok ⟨.cons hx ht, rfl, ?_⟩
        intro d hdm
        rcases List.mem_append.1 hdm with hdm | hdm
        · exact hd d (List.dropLast_subset _ hdm)
        · cases hl : simpleData.getLast? with
          | none => rw [hl] at hdm; simp at hdm
          | some x =>
            rw [hl] at hdm
            simp at hdm
            obtain ⟨a, slots, rfl, hb⟩ := hd x (List.mem_of_getLast? hl)
            rw [hdm]
            refine ⟨a, _, rfl, fun m y hy => ?_⟩
            unfold setSlot at hy
            split at hy
            · exact ⟨_, _, List.mem_singleton.1 hy⟩
            · exact hb m y hy
      | false =>
        refine sim_bind (finish_sim hA n hx s) ?_
        intro e e' he
        refine sim_bind (endOldSchema_sim hA ⟨.cons hx ht, rfl, hd⟩ name he) ?_
        rintro ⟨a, k⟩ ⟨b, k'⟩ ⟨h1, h2⟩
        exact attach_sim hA h2 n h1

theorem endElement_sim (hA : Amends fun z y => amend z = .ok y) {h h' : Handler Unit} (hb : Beside (fun z y => amend z = .ok y) h h')
    (n : NumLib) (name : Str) :
    Sim (∀ z, ∃ y, amend z = .ok y) (Beside fun z y => amend z = .ok y) (h.endElement n [] name) (h'.endElementO n amend name) := by
  have hl : Beside (fun z y => amend z = .ok y) ({ h with nesting := dec h.nesting }.leaveDescription name)
      ({ h' with nesting := dec h'.nesting }.leaveDescription name) := by
    obtain ⟨stack, cs, skip, inDesc, nesting, inOld, oldName, fieldNames, simpleData, taken, stopped, obs⟩ := h
    obtain ⟨hs, hr, hd⟩ := hb
    rw [hr]
    dsimp only at *
    generalize h'.stack = st' at *
    clear hr
    unfold Handler.leaveDescription
    dsimp only
    by_cases h1 : name = chars! "description"
    · rw [if_pos h1, if_pos h1]
      by_cases h2 : dec inDesc = 0
      · rw [if_pos h2, if_pos h2]
        exact ⟨hs, rfl, hd⟩
      · rw [if_neg h2, if_neg h2]
        exact ⟨hs, rfl, hd⟩
    · rw [if_neg h1, if_neg h1]
      exact ⟨hs, rfl, hd⟩
  unfold Handler.endElement Handler.endElementO
  dsimp only
  generalize ({ h with nesting := dec h.nesting } : Handler Unit).leaveDescription name = k at *
  generalize ({ h' with nesting := dec h'.nesting } : Handler Unit).leaveDescription name = k' at *
  have hk : k'.skip = k.skip := by rw [hl.rest]
  rw [hk]
  by_cases h1 : k.skip > 0
  · rw [if_pos h1, if_pos h1]
    exact endUnknown_sim hl name
  · rw [if_neg h1, if_neg h1]
    exact endPlain_sim hA hl n name

theorem step_sim (hA : Amends fun z y => amend z = .ok y) {h h' : Handler Unit} (hb : Beside (fun z y => amend z = .ok y) h h')
    (n : NumLib) (ev : Ev) :
    Sim (∀ z, ∃ y, amend z = .ok y) (Beside fun z y => amend z = .ok y) (h.step n [] ev) (h'.stepO n amend ev) := by
  cases ev with
  | start name attrs => exact startElement_sim hb n name attrs
  | stop name => exact endElement_sim hA hb n name
  | empty name attrs => exact sim_bind (startElement_sim hb n name attrs) fun a b hab => endElement_sim hA hab n name
  | chars s =>
    obtain ⟨stack, cs, skip, inDesc, nesting, inOld, oldName, fieldNames, simpleData, taken, stopped, obs⟩ := h
    obtain ⟨hs, hr, hd⟩ := hb
    rw [hr]
    refine sim_bind (R := Eq) (appendTop_sim _ _) ?_
    rintro c _ rfl
    exact sim_ok ⟨hs, rfl, hd⟩

theorem run_sim (hA : Amends fun z y => amend z = .ok y) (n : NumLib) (evs : List Ev) :
    ∀ {h h' : Handler Unit}, Beside (fun z y => amend z = .ok y) h h' →
    Sim (∀ z, ∃ y, amend z = .ok y) (Beside fun z y => amend z = .ok y) (h.run n [] evs) (h'.runO n amend evs) := by
  induction evs with
  | nil => exact fun hb => sim_ok hb
  | cons ev evs ih =>
    intro h h' hb
    refine sim_bind (step_sim hA hb n ev) ?_
    intro a b hab
    have hk : b.stopped = a.stopped := by rw [hab.rest]
    rw [hk]
    split
    · exact sim_ok hab
    · exact ih hab

end Kml.Dom.Amend
