import Verif.Lemmas.Listen
import Verif.Lemmas.AttrRound
import Verif.Lemmas.Held
import Verif.Lemmas.Ids
import Verif.Spec.File

/-!
# Lemmas about KML files
-/

namespace Kml.Dom

open Kml

variable {σ : Type}

/-- Every class of objects reads an id. -/
theorem object_reads_id : ∀ p ∈ classes, Ty.«Object» ∈ p.2.isA → (chars! "id", AttrKind.str) ∈ p.2.reads := by
  decide +kernel

theorem schemaData_reads : (chars! "schemaUrl", AttrKind.str) ∈ (classAt Ty.«SchemaData»).reads := by decide +kernel

attribute [local irreducible] kml22Elements Xsd.tagToId classes inc dec uintSize

/-! ### Notices taken in -/

theorem takeIn_inv {f : σ → Notice → Option σ} {s0 : σ} (Inv : List Notice → σ → Prop) (h0 : Inv [] s0)
    (step : ∀ pre s x s', Inv pre s → f s x = some s' → Inv (pre ++ [x]) s') {l : List Notice} {s' : σ}
    (h : takeIn f s0 l = some s') : Inv l s' := by
  have : ∀ (l pre : List Notice) (s : σ), Inv pre s →
      l.foldl (fun (o : Option σ) x => o.bind fun s => f s x) (some s) = some s' → Inv (pre ++ l) s' := by
    intro l
    induction l with
    | nil =>
      intro pre s hs h
      cases h
      simpa using hs
    | cons x l ih =>
      intro pre s hs h
      rw [List.foldl_cons, Option.bind_some] at h
      rcases Option.eq_none_or_eq_some (f s x) with hn | ⟨s1, hs1⟩
      · rw [hn, foldl_none] at h
        cases h
      · rw [hs1] at h
        have := ih (pre ++ [x]) s1 (step pre s x s1 hs hs1) h
        simpa using this
  have := this l [] s0 h0 h
  simpa using this

/-! ### Attributes of new elements -/

theorem attrMap_get_aux (k : Str) : ∀ (attrs : List (Str × Str)) (m : StdMap Str),
    (attrs.foldl (fun (m : StdMap Str) e => m.set e.1 e.2) m).get k = (attrValue k attrs).or (m.get k)
  | [], m => rfl
  | a :: attrs, m => by
    rw [List.foldl_cons, attrMap_get_aux k attrs, StdMap.get_set]
    unfold attrValue
    by_cases h : a.1 = k
    · rw [if_pos h, List.filter_cons_of_pos (by simpa using h), List.getLast?_cons]
      cases (List.filter (fun a => decide (a.1 = k)) attrs).getLast? with
      | none => rfl
      | some x => rfl
    · rw [if_neg h, List.filter_cons_of_neg (by simpa using h)]

theorem attrMap_get (k : Str) (attrs : List (Str × Str)) : (attrMap attrs).get k = attrValue k attrs := by
  unfold attrMap
  rw [attrMap_get_aux]
  show Option.or _ none = _
  rw [Option.or_none]

/-- The attributes of an element. -/
def Elem.attrs : Elem → Option Attrs
  | .field _ _ => none
  | .node _ a _ _ _ => some a

theorem sorted_attrMap (attrs : List (Str × Str)) : StdMap.Sorted (attrMap attrs) := by
  have : ∀ (attrs : List (Str × Str)) (m : StdMap Str), StdMap.Sorted m →
      StdMap.Sorted (attrs.foldl (fun (m : StdMap Str) e => m.set e.1 e.2) m) := by
    intro attrs
    induction attrs with
    | nil => exact fun _ h => h
    | cons a attrs ih => exact fun m h => ih _ (StdMap.sorted_set h _ _)
  exact this attrs [] StdMap.sorted_nil

/-- A text attribute of a new element is that of its tag. -/
theorem parseAttributes_get {n : NumLib} {t : Ty} {attrs : List (Str × Str)} {k : Str}
    (hk : (k, AttrKind.str) ∈ (classAt t).reads) (hn : ((classAt t).reads.map (·.1)).Nodup) :
    (if attrs = [] then Attrs.empty else parseAttributes n (classAt t) (attrMap attrs)).known.get k = attrValue k attrs := by
  split
  · rename_i h
    rw [h]
    rfl
  · show (cutKnown n (classAt t).reads [] (attrMap attrs)).1.get k = _
    rw [(cutKnown_spec n (classAt t).reads [] (attrMap attrs) StdMap.sorted_nil (sorted_attrMap attrs) hn).2.2.1 k _ hk,
      attrMap_get]
    show ((attrValue k attrs).bind fun v => some v).or none = _
    rw [Option.or_none]
    cases attrValue k attrs <;> rfl

theorem reads_nodup {t : Ty} {c : Class} (h : classOf t = some c) : (c.reads.map (·.1)).Nodup := by
  have := List.all_eq_true.1 classes_reads _ (classOf_pair h)
  rw [Bool.and_eq_true] at this
  exact of_decide_eq_true this.1

/-- The attributes a new element of a type gets from a tag. -/
def newAttrs (n : NumLib) (t : Ty) (attrs : List (Str × Str)) : Attrs :=
  if attrs = [] then .empty else parseAttributes n (classAt t) (attrMap attrs)

theorem newAttrs_get {n : NumLib} {t : Ty} {attrs : List (Str × Str)} {k : Str} (hc : (classOf t).isSome = true)
    (hk : (k, AttrKind.str) ∈ (classAt t).reads) : (newAttrs n t attrs).known.get k = attrValue k attrs := by
  obtain ⟨c, hc⟩ := Option.isSome_iff_exists.1 hc
  refine parseAttributes_get hk ?_
  rw [classAt_eq hc]
  exact reads_nodup hc

theorem node_isA {t : Ty} {a : Attrs} {slots : Mem → List Elem} {mis : List Elem} {unk : List Str} (t' : Ty) :
    (Elem.node t a slots mis unk).isA t' = (newNode t).isA t' := rfl

theorem node_objectId {n : NumLib} {t : Ty} {attrs : List (Str × Str)} {slots : Mem → List Elem} {mis : List Elem}
    {unk : List Str} (hc : (classOf t).isSome = true) :
    (Elem.node t (newAttrs n t attrs) slots mis unk).objectId = tagId t attrs := by
  unfold tagId
  rw [Elem.objectId, node_isA]
  split
  · rename_i ho
    obtain ⟨c, hcl⟩ := Option.isSome_iff_exists.1 hc
    refine newAttrs_get hc ?_
    rw [classAt_eq hcl]
    refine object_reads_id _ (classOf_pair hcl) ?_
    simp only [newNode, Elem.isA, hcl] at ho
    exact of_decide_eq_true ho
  · rfl

theorem iconStyleIcon_class : (classOf Ty.«IconStyleIcon»).isSome = true := by decide +kernel

/-- A new element. -/
theorem makeElement_cases {n : NumLib} {p : Option Ty} {t : Ty} {attrs : List (Str × Str)} {e : Elem}
    (h : makeElement n p t attrs = some e) :
    (Xsd.elementType t = .simple ∧ e = .field t []) ∨
    (Xsd.elementType t = .complex ∧ (classOf e.ty).isSome = true ∧
      e = .node e.ty (newAttrs n e.ty attrs) (fun _ => []) [] []) := by
  unfold makeElement at h
  split at h
  · rename_i hx
    split at h
    · cases h
    · rename_i c hc
      simp only [Option.some.injEq] at h
      subst h
      right
      refine ⟨hx, ?_, rfl⟩
      show (classOf (if _ then _ else _)).isSome = true
      split
      · exact iconStyleIcon_class
      · rw [hc]; rfl
  · rename_i hx
    cases h
    exact .inl ⟨hx, rfl⟩
  · cases h

/-- The type and the attributes of an element. -/
def Elem.head (e : Elem) : Ty × Option Attrs := (e.ty, e.attrs)

theorem addElement_head {n : NumLib} {cd : Str} {parent child e : Elem}
    (h : addElement n cd parent child = .ok e) :
    e.head = parent.head ∧ ∀ t s, parent = .field t s → e = .field t s := by
  cases parent with
  | field t s => cases h; exact ⟨rfl, fun _ _ h => h⟩
  | node t a slots mis unk =>
    refine ⟨?_, fun _ _ h => by cases h⟩
    simp only [addElement] at h
    split at h
    · cases h; rfl
    · split at h
      · cases h; rfl
      · rename_i act _
        cases ha : act.apply n cd slots child with
        | ok v => rw [ha] at h; cases h; rfl
        | throws => rw [ha] at h; cases h
        | ub => rw [ha] at h; cases h

theorem giveChild_head {n : NumLib} {b : Bool} {p c r : Elem} (h : giveChild n b p c = .ok r) :
    r.head = p.head ∧ ∀ t s, p = .field t s → r = .field t s := by
  unfold giveChild at h
  split at h
  · exact addElement_head h
  · cases h; exact ⟨rfl, fun _ _ h => h⟩

theorem buildKid_head {n : NumLib} {os : List (Observer σ)} : ∀ {x : Xml} {d : Nat} {cur : Elem} {text : Str} {s : σ}
    {r : Elem × Str × σ}, buildKid n os d cur text s x = .ok (some r) →
    r.1.head = cur.head ∧ (∀ t v, cur = .field t v → r.1 = .field t v) ∧ r.2.1 = text ++ directText [x] := by
  have child : ∀ {d : Nat} {cur : Elem} {text : Str} {s : σ} {name : Str} {attrs : List (Str × Str)}
      {whole inner : Str} {height : Nat} {kids : Elem → σ → Outcome (Option (Elem × Str × σ))} {r : Elem × Str × σ},
      buildChild n os d cur text s name attrs whole inner height kids = .ok (some r) →
      r.1.head = cur.head ∧ (∀ t v, cur = .field t v → r.1 = .field t v) ∧ r.2.1 = text := by
    intro d cur text s name attrs whole inner height kids r h
    obtain ⟨_, ht, h3⟩ := buildChild_inv h
    rcases h3 with ⟨_, _, _, hc, _⟩ | ⟨_, e, c, s2, _, _, hg, _⟩
    · rw [hc, ht]
      cases cur with
      | field => exact ⟨rfl, fun _ _ h => h, rfl⟩
      | node => exact ⟨rfl, fun _ _ h => (by cases h), rfl⟩
    · obtain ⟨h1, h2⟩ := giveChild_head hg
      exact ⟨h1, h2, ht⟩
  intro x d cur text s r h
  cases x with
  | text t =>
    rw [buildKid] at h
    cases h
    exact ⟨rfl, fun _ _ h => h, by simp [directText]⟩
  | empty name attrs =>
    rw [buildKid] at h
    obtain ⟨h1, h2, h3⟩ := child h
    exact ⟨h1, h2, by simp [directText, h3]⟩
  | elem name attrs ks =>
    rw [buildKid] at h
    obtain ⟨h1, h2, h3⟩ := child h
    exact ⟨h1, h2, by simp [directText, h3]⟩

theorem directText_cons (x : Xml) (xs : List Xml) : directText (x :: xs) = directText [x] ++ directText xs := by
  cases x <;> simp [directText]

theorem buildKids_head {n : NumLib} {os : List (Observer σ)} : ∀ {xs : List Xml} {d : Nat} {cur : Elem} {text : Str}
    {s : σ} {r : Elem × Str × σ}, buildKids n os d cur text s xs = .ok (some r) →
    r.1.head = cur.head ∧ (∀ t v, cur = .field t v → r.1 = .field t v) ∧ r.2.1 = text ++ directText xs
  | [], d, cur, text, s, r, h => by
    rw [buildKids] at h
    cases h
    exact ⟨rfl, fun _ _ h => h, by simp [directText]⟩
  | x :: xs, d, cur, text, s, r, h => by
    obtain ⟨c, t, s1, h1, h2⟩ := buildKids_cons_inv h
    obtain ⟨a1, a2, a3⟩ := buildKid_head h1
    obtain ⟨b1, b2, b3⟩ := buildKids_head h2
    simp only at a1 a2 a3
    refine ⟨b1.trans a1, fun t v ht => b2 t v (a2 t v ht), ?_⟩
    rw [b3, a3, directText_cons x xs, List.append_assoc]

theorem finishElement_node {n : NumLib} {e e' : Elem} {s : Str} (h : finishElement n e s = .ok e') :
    e'.head = e.head := by
  unfold finishElement at h
  split at h
  · rw [(addElement_head h).1]
    cases e <;> rfl
  · cases h
    cases e <;> rfl

theorem simple_not_self {t : Ty} (h : Xsd.elementType t = .simple) : selfParsing t = false := by
  unfold selfParsing
  have : ∀ t' ∈ [Ty.«coordinates», Ty.«Snippet», Ty.«linkSnippet», Ty.«SimpleData»], Xsd.elementType t' = .complex := by
    decide +kernel
  have hne : ∀ t' ∈ [Ty.«coordinates», Ty.«Snippet», Ty.«linkSnippet», Ty.«SimpleData»], ¬ t = t' := by
    rintro t' ht rfl
    rw [this t ht] at h
    cases h
  simp only [hne _ (List.mem_cons_self ..), hne Ty.«Snippet» (by simp), hne Ty.«linkSnippet» (by simp),
    hne Ty.«SimpleData» (by simp), decide_false, Bool.or_self]

/-- What an element of a document stands for: a simple one for its text, another one for an element with its type and
attributes. -/
theorem standsFor_cases {n : NumLib} {p : Ty} {x : Xml} {c : Elem} (h : StandsFor n p x c) :
    ∃ name attrs ks, x.parts = some (name, attrs, ks) ∧ c.ty = tyIn p name ∧
      ((Xsd.elementType (Xsd.elementId name) = .simple ∧
        (name ≠ chars! "description" → c = .field (Xsd.elementId name) (directText ks))) ∨
       (Xsd.elementType (Xsd.elementId name) = .complex ∧ (classOf (tyIn p name)).isSome = true ∧
        ∃ slots mis unk, c = .node (tyIn p name) (newAttrs n (tyIn p name) attrs) slots mis unk)) := by
  obtain ⟨name, attrs, ks, d, e, hx, hm, hb⟩ := h
  refine ⟨name, attrs, ks, ?_, ?_⟩
  · rcases hx with ⟨rfl, rfl⟩ | rfl <;> rfl
  have hty := makeElement_tyIn hm
  have hdesc := makeElement_description hm
  obtain ⟨s1, _, h2⟩ := buildKnown_inv hb
  have hhead : c.head = e.head := by
    rcases h2 with ⟨_, _, hf, _⟩ | ⟨_, e1, text, hk, hf⟩
    · exact finishElement_node hf
    · rw [finishElement_node hf]
      exact (buildKids_head hk).1
  have hcty : c.ty = e.ty := congrArg (·.1) hhead
  refine ⟨hcty.trans hty, ?_⟩
  rcases makeElement_cases hm with ⟨hs, he⟩ | ⟨hs, hc, he⟩
  · left
    refine ⟨hs, fun hn => ?_⟩
    rcases h2 with ⟨hd, _⟩ | ⟨_, e1, text, hk, hf⟩
    · exact absurd (hdesc.1 hd) hn
    · obtain ⟨_, a2, a3⟩ := buildKids_head hk
      have he1 : e1 = .field (Xsd.elementId name) [] := a2 _ _ he
      rw [he1] at hf
      unfold finishElement at hf
      rw [show (Elem.field (Xsd.elementId name) []).ty = Xsd.elementId name from rfl, simple_not_self hs] at hf
      cases hf
      have : text = [] ++ directText ks := a3
      rw [this, List.nil_append]
      rfl
  · right
    rw [hty] at hc he
    refine ⟨hs, hc, ?_⟩
    cases c with
    | field t s =>
      have := congrArg (·.2) hhead
      rw [he] at this
      cases this
    | node t a slots mis unk =>
      have h1 := congrArg (·.1) hhead
      have h2 := congrArg (·.2) hhead
      rw [he] at h1 h2
      simp only [Elem.head, Elem.ty, Elem.attrs, Option.some.injEq] at h1 h2
      exact ⟨slots, mis, unk, by rw [h1, h2]⟩

/-- A tag's id is that of the new element. -/
theorem start_id {n : NumLib} {t : Ty} {attrs : List (Str × Str)} {e : Elem}
    (h : About n (.start t attrs) (.new e)) : e.objectId = tagId t attrs := by
  obtain ⟨rfl, p, name, hm⟩ := h
  rcases makeElement_cases hm with ⟨hs, rfl⟩ | ⟨_, hc, he⟩
  · unfold tagId
    have : (newNode (Elem.field (Xsd.elementId name) []).ty).isA Ty.«Object» = false := by
      show (newNode (Xsd.elementId name)).isA Ty.«Object» = false
      have hno : ∀ t, Xsd.elementType t = .simple → (newNode t).isA Ty.«Object» = false := by
        intro t ht
        rcases Option.eq_none_or_eq_some (classOf t) with hc | ⟨c, hc⟩
        · simp only [newNode, Elem.isA, hc, decide_eq_false_iff_not]
          rintro rfl
          have : Xsd.elementType Ty.«Object» ≠ .simple := by decide +kernel
          exact this ht
        · exfalso
          have := List.all_eq_true.1 classes_simple _ (classOf_pair hc)
          simp [ht] at this
      exact hno _ hs
    rw [this]
    rfl
  · have := node_objectId (n := n) (attrs := attrs) (slots := fun _ => []) (mis := []) (unk := []) hc
    rw [← he] at this
    exact this

end Kml.Dom
