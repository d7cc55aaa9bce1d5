import Verif.Lemmas.Refine
import Verif.Props.Color32

/-! Building an element from a document never fails, except on texts that cannot be read. -/

namespace Kml.Dom

open Kml

variable {σ : Type}

/-- A branch of `AddElement` reads numbers and colours only from the elements that hold them. -/
def ruleOk (t : Ty) (r : Rule) : Bool :=
  match r.2 with
  | .field _ k | .fields _ k =>
    match k with
    | .vec3 => r.1 = .ty Ty.«GxCoord» || r.1 = .ty Ty.«GxAngles»
    | .color => r.1 = .ty Ty.«color» || r.1 = .ty Ty.«bgColor» || r.1 = .ty Ty.«textColor»
    | _ => true
  | .selfPoints _ => t = Ty.«coordinates»
  | _ => true

theorem rules_ok : ∀ c ∈ classes, ∀ r ∈ c.2.rules, ruleOk c.1 r = true := by decide +kernel

theorem named_rows :
    kml22Elements[Ty.«coordinates»]? = some (chars! "coordinates", .complex) ∧
    kml22Elements[Ty.«GxCoord»]? = some (chars! "gx:coord", .simple) ∧
    kml22Elements[Ty.«GxAngles»]? = some (chars! "gx:angles", .simple) ∧
    kml22Elements[Ty.«color»]? = some (chars! "color", .simple) ∧
    kml22Elements[Ty.«bgColor»]? = some (chars! "bgColor", .simple) ∧
    kml22Elements[Ty.«textColor»]? = some (chars! "textColor", .simple) := by decide +kernel

theorem readPoints_nil (n : NumLib) : readPoints n [] = .ok [] := rfl

attribute [local irreducible] kml22Elements Xsd.tagToId classes inc dec uintSize

theorem name_of_row {name nm : Str} {t : Ty} {k : XsdKind} (h : Xsd.elementId name = t) (h0 : t ≠ Ty.Unknown)
    (hrow : kml22Elements[t]? = some (nm, k)) : name = nm := by
  obtain ⟨_, x, hx⟩ := Xsd.row_of_elementId (n := name) (by rw [h]; exact h0)
  rw [h, hrow] at hx
  simpa using (congrArg (Option.map Prod.fst) hx).symm

/-- The name of the element a start tag made, if it is one of those whose text is read as numbers. -/
theorem name_of_made {n : NumLib} {p : Option Ty} {name nm : Str} {t : Ty} {k : XsdKind}
    {attrs : List (Str × Str)} {e : Elem} (h : makeElement n p (Xsd.elementId name) attrs = some e)
    (he : e.ty = t) (h0 : t ≠ Ty.Unknown ∧ t ≠ Ty.«IconStyleIcon»)
    (hrow : kml22Elements[t]? = some (nm, k)) : name = nm := by
  rcases makeElement_ty h with h1 | h1
  · exact name_of_row (h1.symm.trans he) h0.1 hrow
  · exact absurd (he.symm.trans h1) h0.2

/-- A child whose text can be read. -/
def GoodChild (n : NumLib) (e : Elem) : Prop :=
  ∀ t text, e = .field t text →
    ((t = Ty.«GxCoord» ∨ t = Ty.«GxAngles») → (readTriple n text).Safe) ∧
    ((t = Ty.«color» ∨ t = Ty.«bgColor» ∨ t = Ty.«textColor») → (readColor text).Safe)

theorem readValue_safe (n : NumLib) (k : Kind) (t : Ty) (old : Option Str) (text : Str)
    (h1 : k = .vec3 → (readTriple n text).Safe) (h2 : k = .color → (readColor text).Safe) :
    (readValue n k t old text).Safe := by
  cases k <;> simp only [readValue, Outcome.safe_ok]
  · obtain ⟨s, hs⟩ := h2 rfl
    simp [hs]
  · obtain ⟨s, hs⟩ := h1 rfl
    simp [hs]

theorem classOf_mem {t : Ty} {c : Class} (h : classOf t = some c) : (t, c) ∈ classes := by
  unfold classOf at h
  rw [Option.map_eq_some_iff] at h
  obtain ⟨e, he, rfl⟩ := h
  have h1 := List.mem_of_find?_eq_some he
  have h2 := List.find?_some he
  simp only [decide_eq_true_eq] at h2
  rw [← h2]
  exact h1

theorem findRule_mem {rules : List Rule} {e : Elem} {a : Act} (h : findRule rules e = some a) :
    ∃ r ∈ rules, r.1.matches e = true ∧ r.2 = a := by
  unfold findRule at h
  rw [Option.map_eq_some_iff] at h
  obtain ⟨r, hr, rfl⟩ := h
  exact ⟨r, List.mem_of_find?_eq_some hr, by simpa using List.find?_some hr, rfl⟩

theorem addElement_safe (n : NumLib) (charData : Str) (parent child : Elem) (hg : GoodChild n child)
    (hp : parent.ty = Ty.«coordinates» → (readPoints n charData).Safe) :
    (addElement n charData parent child).Safe := by
  cases parent with
  | field t s => exact Outcome.safe_ok _
  | node t a slots mis unk =>
    simp only [addElement]
    rcases Option.eq_none_or_eq_some (classOf t) with hc | ⟨c, hc⟩
    · rw [hc]; exact Outcome.safe_ok _
    · rw [hc]
      simp only
      rcases Option.eq_none_or_eq_some (findRule c.rules child) with hr | ⟨act, hr⟩
      · rw [hr]; exact Outcome.safe_ok _
      · rw [hr]
        simp only
        obtain ⟨r, hrm, hmatch, hact⟩ := findRule_mem hr
        have hok := rules_ok (t, c) (classOf_mem hc) r hrm
        suffices (act.apply n charData slots child).Safe by
          obtain ⟨v, hv⟩ := this
          rw [hv]; exact Outcome.safe_ok _
        unfold ruleOk at hok
        rw [hact] at hok
        have hval : ∀ k t' text old, (k = Kind.vec3 → (r.1 = .ty Ty.«GxCoord» ∨ r.1 = .ty Ty.«GxAngles»)) →
            (k = Kind.color → (r.1 = .ty Ty.«color» ∨ r.1 = .ty Ty.«bgColor» ∨ r.1 = .ty Ty.«textColor»)) →
            child = .field t' text → (readValue n k t' old text).Safe := by
          intro k t' text old h1 h2 hch
          have hty : ∀ x, r.1 = .ty x → t' = x := by
            intro x hx
            rw [hx, hch] at hmatch
            exact of_decide_eq_true hmatch
          apply readValue_safe
          · intro hk
            exact (hg t' text hch).1 ((h1 hk).imp (hty _) (hty _))
          · intro hk
            exact (hg t' text hch).2 ((h2 hk).imp (hty _) (Or.imp (hty _) (hty _)))
        cases act with
        | field m k =>
          cases child with
          | field t' text =>
            simp only [Act.apply]
            obtain ⟨v, hv⟩ := hval k t' text (single (slots m)) (by
              rintro rfl; simpa using hok) (by rintro rfl; simpa [or_assoc] using hok) rfl
            rw [hv]; exact Outcome.safe_ok _
          | node => exact Outcome.safe_ok _
        | fields m k =>
          cases child with
          | field t' text =>
            simp only [Act.apply]
            obtain ⟨v, hv⟩ := hval k t' text none (by
              rintro rfl; simpa using hok) (by rintro rfl; simpa [or_assoc] using hok) rfl
            rw [hv]; exact Outcome.safe_ok _
          | node => exact Outcome.safe_ok _
        | one m => exact Outcome.safe_ok _
        | many m => exact Outcome.safe_ok _
        | selfText m => exact Outcome.safe_ok _
        | selfPoints m =>
          simp only [decide_eq_true_eq] at hok
          obtain ⟨v, hv⟩ := hp hok
          simp only [Act.apply, hv, Outcome.ok_bind]
          exact Outcome.safe_ok _

/-- `AddElement` does not change the type of an element. -/
theorem addElement_ty {n : NumLib} {cd : Str} {parent child e : Elem}
    (h : addElement n cd parent child = .ok e) : e.ty = parent.ty := by
  cases parent with
  | field t s => cases h; rfl
  | node t a slots mis unk =>
    simp only [addElement] at h
    split at h
    · cases h; rfl
    · split at h
      · cases h; rfl
      · rename_i act _
        cases ha : act.apply n cd slots child with
        | ok v => rw [ha] at h; cases h; rfl
        | throws => rw [ha] at h; cases h
        | ub => rw [ha] at h; cases h

theorem setCharData_ty (e : Elem) (s : Str) : (setCharData e s).ty = e.ty := by
  cases e <;> rfl

theorem finishElement_ty {n : NumLib} {e e' : Elem} {s : Str} (h : finishElement n e s = .ok e') :
    e'.ty = e.ty := by
  unfold finishElement at h
  split at h
  · rw [addElement_ty h, setCharData_ty]
  · cases h; exact setCharData_ty e s

theorem addUnknownElement_ty (e : Elem) (s : Str) : (addUnknownElement e s).ty = e.ty := by
  cases e <;> rfl

/-- A field stays a field. -/
theorem addElement_field {n : NumLib} {cd : Str} {parent child : Elem} {t : Ty} {s : Str}
    (h : addElement n cd parent child = .ok (.field t s)) : parent = .field t s := by
  cases parent with
  | field t' s' => cases h; rfl
  | node t' a slots mis unk =>
    simp only [addElement] at h
    split at h
    · cases h
    · split at h
      · cases h
      · rename_i act _
        cases ha : act.apply n cd slots child with
        | ok v => rw [ha] at h; cases h
        | throws => rw [ha] at h; cases h
        | ub => rw [ha] at h; cases h

theorem finishElement_field {n : NumLib} {e : Elem} {s s' : Str} {t : Ty}
    (h : finishElement n e s = .ok (.field t s')) : s' = s := by
  unfold finishElement at h
  split at h
  · have := addElement_field h
    cases e with
    | field _ _ => cases this; rfl
    | node => cases this
  · cases e with
    | field _ _ => cases h; rfl
    | node => cases h

theorem finishElement_safe (n : NumLib) (e : Elem) (s : Str)
    (h : e.ty = Ty.«coordinates» → (readPoints n s).Safe)
    (hg : GoodChild n (setCharData e s)) : (finishElement n e s).Safe := by
  unfold finishElement
  split
  · refine addElement_safe n s _ _ hg (fun hx => h ?_)
    rw [setCharData_ty] at hx
    exact hx
  · exact Outcome.safe_ok _

theorem ids_ok : (Ty.«coordinates» ≠ Ty.Unknown ∧ Ty.«coordinates» ≠ Ty.«IconStyleIcon») ∧
    (Ty.«GxCoord» ≠ Ty.Unknown ∧ Ty.«GxCoord» ≠ Ty.«IconStyleIcon») ∧
    (Ty.«GxAngles» ≠ Ty.Unknown ∧ Ty.«GxAngles» ≠ Ty.«IconStyleIcon») ∧
    (Ty.«color» ≠ Ty.Unknown ∧ Ty.«color» ≠ Ty.«IconStyleIcon») ∧
    (Ty.«bgColor» ≠ Ty.Unknown ∧ Ty.«bgColor» ≠ Ty.«IconStyleIcon») ∧
    (Ty.«textColor» ≠ Ty.Unknown ∧ Ty.«textColor» ≠ Ty.«IconStyleIcon») := by decide

/-- What a readable text means for the element. -/
theorem readable_elem {n : NumLib} {p : Option Ty} {name : Str} {attrs : List (Str × Str)} {e : Elem}
    {text : Str} (h : makeElement n p (Xsd.elementId name) attrs = some e) (hr : ReadableText n name text)
    (e1 : Elem) (he1 : e1.ty = e.ty) :
    (e1.ty = Ty.«coordinates» → (readPoints n text).Safe) ∧ GoodChild n (setCharData e1 text) := by
  obtain ⟨r1, r2, r3⟩ := hr
  obtain ⟨n1, n2, n3, n4, n5, n6⟩ := named_rows
  obtain ⟨i1, i2, i3, i4, i5, i6⟩ := ids_ok
  refine ⟨fun hx => r1 (name_of_made h (he1.symm.trans hx) i1 n1), ?_⟩
  intro t s hs
  have ht : t = e.ty := by
    rw [← he1, ← setCharData_ty e1 text, hs]; rfl
  have htext : s = text := by
    cases e1 with
    | field _ _ => cases hs; rfl
    | node => cases hs
  subst htext
  refine ⟨fun hx => r2 ?_, fun hx => r3 ?_⟩
  · exact hx.imp (fun hx => name_of_made h (ht.symm.trans hx) i2 n2)
      (fun hx => name_of_made h (ht.symm.trans hx) i3 n3)
  · exact hx.imp (fun hx => name_of_made h (ht.symm.trans hx) i4 n4)
      (Or.imp (fun hx => name_of_made h (ht.symm.trans hx) i5 n5)
        (fun hx => name_of_made h (ht.symm.trans hx) i6 n6))

theorem goodChild_finished {n : NumLib} {e e' : Elem} {text : Str}
    (h : finishElement n e text = .ok e') (hg : GoodChild n (setCharData e text)) : GoodChild n e' := by
  intro t s hs
  subst hs
  have ht : t = e.ty := finishElement_ty h
  have hs := finishElement_field h
  subst hs
  have hf : ∃ s0, e = .field t s0 := by
    unfold finishElement at h
    split at h
    · have := addElement_field h
      cases e with
      | field _ _ => cases this; exact ⟨_, rfl⟩
      | node => cases this
    · cases e with
      | field _ _ => cases h; exact ⟨_, rfl⟩
      | node => cases h
  obtain ⟨s0, rfl⟩ := hf
  exact hg t s rfl

theorem handOver_none (n : NumLib) (parent child : Elem) (s : σ) (p : Elem)
    (h : addElement n [] parent child = .ok p) :
    handOver n [] parent s child = .ok (some (p, s)) := by
  simp [handOver, giveChild, callAll, h]

/-- A child is built, if its content is. -/
theorem buildChild_ok (n : NumLib) (d : Nat) (cur : Elem) (text : Str) (s : σ) (name : Str)
    (attrs : List (Str × Str)) (whole inner dt : Str) (height : Nat)
    (kids : Elem → σ → Outcome (Option (Elem × Str × σ))) (hd : d + (height + 1) ≤ 100)
    (hr : ReadableText n name dt)
    (hk : ∀ e s, ∃ e', kids e s = .ok (some (e', dt, s)) ∧ e'.ty = e.ty) :
    ∃ cur', buildChild n [] d cur text s name attrs whole inner height kids = .ok (some (cur', text, s)) ∧
      cur'.ty = cur.ty := by
  unfold buildChild
  rw [if_neg (by omega)]
  cases hm : makeElement n (some cur.ty) (Xsd.elementId name) attrs with
  | none =>
    simp only
    rw [if_neg (by omega)]
    exact ⟨_, rfl, addUnknownElement_ty _ _⟩
  | some e =>
    simp only
    have hfin : ∀ child, GoodChild n child → ∃ cur',
        (do
          let r ← handOver n [] cur s child
          match r with
          | none => (.ok none : Outcome (Option (Elem × Str × σ)))
          | some (cur, s) => .ok (some (cur, text, s))) = .ok (some (cur', text, s)) ∧
          cur'.ty = cur.ty := by
      intro child hg
      obtain ⟨p, hp⟩ := addElement_safe n [] cur child hg (fun _ => ⟨_, readPoints_nil n⟩)
      exact ⟨p, by rw [handOver_none n cur child s p hp]; rfl, addElement_ty hp⟩
    unfold buildKnown
    simp only [callAll]
    by_cases hx : e.ty = Ty.«description»
    · rw [if_pos hx, if_neg (by omega)]
      have hg : GoodChild n (setCharData e inner) := by
        intro t s' hs
        have ht : t = e.ty := by rw [← setCharData_ty e inner, hs]; rfl
        have hne : Ty.«description» ≠ Ty.«GxCoord» ∧ Ty.«description» ≠ Ty.«GxAngles» ∧
          Ty.«description» ≠ Ty.«color» ∧ Ty.«description» ≠ Ty.«bgColor» ∧
          Ty.«description» ≠ Ty.«textColor» := by decide
        obtain ⟨a, b, c, d, f⟩ := hne
        rw [hx] at ht
        subst ht
        exact ⟨fun hx => by rcases hx with hx | hx; exact absurd hx a; exact absurd hx b,
          fun hx => by
            rcases hx with hx | hx | hx
            exact absurd hx c
            exact absurd hx d
            exact absurd hx f⟩
      obtain ⟨e', he'⟩ := finishElement_safe n e inner (fun hc => by
        rw [hx] at hc
        exact absurd hc (by decide)) hg
      rw [he']
      simp only [Outcome.ok_bind]
      exact hfin e' (goodChild_finished he' hg)
    · rw [if_neg hx]
      obtain ⟨e1, he1, hty⟩ := hk e s
      rw [he1]
      simp only [Outcome.ok_bind]
      obtain ⟨h1, h2⟩ := readable_elem hm hr e1 hty
      obtain ⟨e', he'⟩ := finishElement_safe n e1 dt h1 h2
      rw [he']
      simp only [Outcome.ok_bind]
      exact hfin e' (goodChild_finished he' h2)

mutual

theorem buildKid_ok (n : NumLib) : ∀ (x : Xml) (d : Nat) (cur : Elem) (text : Str) (s : σ),
    x.Readable n → d + x.depth ≤ 100 →
    ∃ cur', buildKid n [] d cur text s x = .ok (some (cur', text ++ directText [x], s)) ∧
      cur'.ty = cur.ty
  | .text t, d, cur, text, s, _, _ => ⟨cur, by simp [buildKid, directText], rfl⟩
  | .empty name attrs, d, cur, text, s, hr, hd => by
    obtain ⟨c, h1, h2⟩ := buildChild_ok n d cur text s name attrs (Xml.empty name attrs).render [] [] 0
      (fun e s => .ok (some (e, [], s))) (by simpa [Xml.depth] using hd) hr
      (fun e s => ⟨e, rfl, rfl⟩)
    exact ⟨c, by simpa [buildKid, directText] using h1, h2⟩
  | .elem name attrs ks, d, cur, text, s, hr, hd => by
    obtain ⟨c, h1, h2⟩ := buildChild_ok n d cur text s name attrs (Xml.elem name attrs ks).render
      (renderAll ks) (directText ks) (depthOf ks) (fun e s => buildKids n [] (d + 1) e [] s ks) hd hr.1
      (fun e s => by
        have := buildKids_ok n ks (d + 1) e [] s hr.2 (by
          simp only [Xml.depth] at hd; omega)
        simpa using this)
    exact ⟨c, by simpa [buildKid, directText] using h1, h2⟩

theorem buildKids_ok (n : NumLib) : ∀ (xs : List Xml) (d : Nat) (cur : Elem) (text : Str) (s : σ),
    ReadableAll n xs → d + depthOf xs ≤ 100 →
    ∃ cur', buildKids n [] d cur text s xs = .ok (some (cur', text ++ directText xs, s)) ∧
      cur'.ty = cur.ty
  | [], d, cur, text, s, _, _ => ⟨cur, by simp [buildKids, directText], rfl⟩
  | x :: xs, d, cur, text, s, hr, hd => by
    have hm : depthOf (x :: xs) = max x.depth (depthOf xs) := rfl
    obtain ⟨c, h1, h2⟩ := buildKid_ok n x d cur text s hr.1 (by omega)
    obtain ⟨c', h3, h4⟩ := buildKids_ok n xs d c (text ++ directText [x]) s hr.2 (by omega)
    refine ⟨c', ?_, h4.trans h2⟩
    rw [buildKids, h1]
    simp only [Outcome.ok_bind]
    rw [h3]
    cases x <;> simp [directText]

end

end Kml.Dom
