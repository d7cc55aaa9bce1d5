import Verif.Lemmas.XsdFile

/-! # Lemmas: XSD documents -/

namespace Kml.XsdDoc

open Kml Kml.Attributes
open Kml.Dom (Xml eventsOf)

theorem attrMap_append (l : List (Str × Str)) (e : Str × Str) : Dom.attrMap (l ++ [e]) = (Dom.attrMap l).set e.1 e.2 := by
  simp [Dom.attrMap]

theorem attr_eq (a : List (Str × Str)) (k : Str) : getValue (Dom.attrMap a) k = attr a k := by
  induction h : a.reverse generalizing a with
  | nil =>
    rw [List.reverse_eq_nil_iff] at h
    subst h
    rfl
  | cons e r ih =>
    have ha : a = r.reverse ++ [e] := by rw [← List.reverse_reverse a, h]; simp
    subst ha
    have ih := ih r.reverse (by simp)
    rw [attrMap_append]
    unfold getValue attr at ih ⊢
    rw [StdMap.get_set, ih]
    simp only [List.reverse_append, List.reverse_singleton, List.singleton_append, List.reverse_reverse,
      List.find?_cons]
    by_cases hk : e.1 = k
    · simp [hk]
    · have : (e.1 == k) = false := by simp [hk]
      simp [hk, this]

theorem create_eq (a : List (Str × Str)) : Element.create (Dom.attrMap a) = declared a := by
  unfold Element.create declared
  simp only [attr_eq]
  cases attr a (chars! "name") with
  | some n => rfl
  | none => cases attr a (chars! "ref") <;> rfl

/-- What a tag does to the file. -/
def tagEffect (f : File) (t : Tag) : File :=
  if t.name = chars! "schema" then { f with schema := Schema.create (Dom.attrMap t.attrs) }
  else if t.name = chars! "element" ∧ t.parent = chars! "schema" then
    match declared t.attrs with
    | some e => f.addElement e
    | none => f
  else f

/-- What a tag does to the type around it. -/
def absorb (x : XType) (t : Tag) : XType :=
  match x with
  | .complex c =>
    if t.name = chars! "extension" then
      match attr t.attrs (chars! "base") with
      | some b => .complex { c with base := b }
      | none => x
    else if t.name = chars! "element" ∧ t.parent ≠ chars! "schema" then
      match declared t.attrs with
      | some e => .complex { c with sequence := c.sequence ++ [e] }
      | none => x
    else x
  | .simple s =>
    if t.name = chars! "restriction" then
      match attr t.attrs (chars! "base") with
      | some b => .simple { s with base := b }
      | none => x
    else if t.name = chars! "enumeration" then
      match attr t.attrs (chars! "value") with
      | some v => .simple { s with enumeration := s.enumeration ++ [v] }
      | none => x
    else x
  | .primitive _ => x

/-- The parent of what comes next. -/
def topOf (stk : List Str) : Str := stk.headD []

theorem dispatch_eq {n : Str} {a : List (Str × Str)} {f : File} {cur : Option XType} {stk : List Str}
    (hn : isType n = false) (hr : stk ≠ [] ∨ ¬ (n = chars! "element" ∧ (declared a).isSome = true)) :
    dispatch n (Dom.attrMap a) ⟨f, cur, stk⟩ =
      .ok ⟨tagEffect f ⟨topOf stk, n, a⟩, cur.map fun t => absorb t ⟨topOf stk, n, a⟩, stk⟩ := by
  have h1 : n ≠ chars! "complexType" := by rintro rfl; simp [isType] at hn
  have h2 : n ≠ chars! "simpleType" := by rintro rfl; simp [isType] at hn
  unfold dispatch
  rw [if_neg h1, if_neg h2]
  by_cases hs : n = chars! "schema"
  · subst hs
    rw [if_pos rfl]
    simp only [tagEffect, if_true]
    congr 2
    rcases cur with _ | ⟨_ | _ | _⟩ <;> simp [absorb]
  · rw [if_neg hs]
    by_cases he : n = chars! "element"
    · subst he
      rw [if_pos rfl]
      unfold startXsElement
      rw [create_eq]
      cases hd : declared a with
      | none =>
        simp only [tagEffect, hd]
        have : (cur.map fun t => absorb t ⟨topOf stk, chars! "element", a⟩) = cur := by
          rcases cur with _ | ⟨_ | _ | _⟩ <;> simp [absorb, hd]
        rw [this]
        simp
      | some e =>
        cases stk with
        | nil => simp [hd] at hr
        | cons p r =>
          simp only [topOf, List.headD_cons, tagEffect, hd]
          by_cases hp : p = chars! "schema"
          · subst hp
            simp only [if_true, and_self]
            have : (cur.map fun t => absorb t ⟨chars! "schema", chars! "element", a⟩) = cur := by
              rcases cur with _ | ⟨_ | _ | _⟩ <;> simp [absorb]
            rw [this]
            simp
          · simp only [if_neg hp]
            rcases cur with _ | ⟨_ | _ | _⟩ <;> simp [absorb, hd, hp]
    · rw [if_neg he]
      have ht : tagEffect f ⟨topOf stk, n, a⟩ = f := by simp [tagEffect, hs, he]
      rw [ht]
      by_cases hx : n = chars! "extension"
      · subst hx
        rw [if_pos rfl]
        unfold startExtension
        rcases cur with _ | ⟨_ | _ | c⟩ <;> simp only [absorb, attr_eq] <;> try (simp; done)
        cases h : attr a (chars! "base") <;> simp [absorb, h]
      · rw [if_neg hx]
        by_cases hx' : n = chars! "restriction"
        · subst hx'
          rw [if_pos rfl]
          unfold startRestriction
          rcases cur with _ | ⟨_ | c | _⟩ <;> simp only [absorb, attr_eq] <;> try (simp; done)
          cases h : attr a (chars! "base") <;> simp [absorb, h]
        · rw [if_neg hx']
          by_cases hx'' : n = chars! "enumeration"
          · subst hx''
            rw [if_pos rfl]
            unfold startEnumeration
            rcases cur with _ | ⟨_ | c | _⟩ <;> simp only [absorb, attr_eq] <;> try (simp; done)
            cases h : attr a (chars! "value") <;> simp [absorb, h]
          · rw [if_neg hx'']
            rcases cur with _ | ⟨_ | _ | _⟩ <;> simp [absorb, hx, hx', hx'', he]

theorem run_append (l l' : List Dom.Ev) : ∀ (st : State), run st (l ++ l') = (do let st ← run st l; run st l') := by
  induction l with
  | nil => intro st; rfl
  | cons e l ih =>
    intro st
    simp only [List.cons_append, run]
    cases step st e with
    | ok st' => simp only [Outcome.ok_bind]; exact ih st'
    | throws => rfl
    | ub => rfl

theorem run_chars (s : Str) : ∀ (st : State), run st (Dom.charEvents s) = .ok st := by
  induction s with
  | nil => intro st; rfl
  | cons c s ih => intro st; exact ih st

theorem endElement_plain {n : Str} {f : File} {cur : Option XType} {p : Str} {stk : List Str} (hn : isType n = false) :
    endElement n ⟨f, cur, p :: stk⟩ = .ok ⟨f, cur, stk⟩ := by
  have h1 : n ≠ chars! "complexType" := by rintro rfl; simp [isType] at hn
  have h2 : n ≠ chars! "simpleType" := by rintro rfl; simp [isType] at hn
  simp only [endElement, if_neg h1, if_neg h2]

theorem endElement_type {n : Str} {f : File} {t : XType} {p : Str} {stk : List Str} (hn : isType n = true) :
    endElement n ⟨f, some t, p :: stk⟩ = .ok ⟨{ f with types := f.types.set t.name t }, none, stk⟩ := by
  simp only [endElement]
  split
  · rfl
  · split
    · rfl
    · next h1 h2 => simp [isType, h1, h2] at hn

theorem endElement_none {n : Str} {f : File} {p : Str} {stk : List Str} (hn : isType n = true) :
    endElement n ⟨f, none, p :: stk⟩ = .ub := by
  simp only [endElement]
  split
  · rfl
  · split
    · rfl
    · next h1 h2 => simp [isType, h1, h2] at hn

/-- All tags' effects on the file. -/
def effTags (l : List Tag) (f : File) : File := l.foldl tagEffect f

/-- All tags' effects on the type around them. -/
def absorbAll (l : List Tag) (x : XType) : XType := l.foldl absorb x

theorem effTags_append (l l' : List Tag) (f : File) : effTags (l ++ l') f = effTags l' (effTags l f) := by
  simp [effTags]

theorem absorbAll_append (l l' : List Tag) (x : XType) : absorbAll (l ++ l') x = absorbAll l' (absorbAll l x) := by
  simp [absorbAll]

/-- The condition on the root. -/
def RootOk : Xml → Prop
  | .text _ => True
  | .empty n a => ¬ (n = chars! "element" ∧ (declared a).isSome = true)
  | .elem n a _ => ¬ (n = chars! "element" ∧ (declared a).isSome = true)

mutual

theorem run_plain : ∀ (x : Xml) (f : File) (cur : Option XType) (stk : List Str), (stk ≠ [] ∨ RootOk x) →
    (∀ t ∈ tags (topOf stk) x, isType t.name = false) →
    run ⟨f, cur, stk⟩ x.events = .ok ⟨effTags (tags (topOf stk) x) f, cur.map (absorbAll (tags (topOf stk) x)), stk⟩
  | .text s, f, cur, stk, _, _ => by
    rw [Xml.events, run_chars]
    cases cur <;> rfl
  | .empty n a, f, cur, stk, hr, h => by
    have hn : isType n = false := h ⟨topOf stk, n, a⟩ (by simp [tags])
    rw [Xml.events]
    simp only [run, step, startElement]
    rw [dispatch_eq hn hr]
    simp only [Outcome.ok_bind]
    rw [endElement_plain hn]
    rfl
  | .elem n a ks, f, cur, stk, hr, h => by
    have hn : isType n = false := h ⟨topOf stk, n, a⟩ (by simp [tags])
    rw [Xml.events, List.cons_append, run]
    simp only [step, startElement]
    rw [dispatch_eq hn hr]
    simp only [Outcome.ok_bind]
    rw [run_append, run_plain_all ks _ _ (n :: stk) (by simp) (fun t ht => h t (by
      rw [tags]
      exact List.mem_cons_of_mem _ ht))]
    simp only [Outcome.ok_bind, run, step]
    rw [endElement_plain hn]
    simp only [Outcome.ok_bind, tags, topOf, List.headD_cons]
    cases cur <;> simp [effTags, absorbAll]

theorem run_plain_all : ∀ (xs : List Xml) (f : File) (cur : Option XType) (stk : List Str), stk ≠ [] →
    (∀ t ∈ tagsOf (topOf stk) xs, isType t.name = false) →
    run ⟨f, cur, stk⟩ (eventsOf xs) =
      .ok ⟨effTags (tagsOf (topOf stk) xs) f, cur.map (absorbAll (tagsOf (topOf stk) xs)), stk⟩
  | [], f, cur, stk, _, _ => by
    cases cur <;> rfl
  | x :: xs, f, cur, stk, hr, h => by
    rw [tagsOf] at h ⊢
    rw [eventsOf, run_append, run_plain x f cur stk (.inl hr) (fun t ht => h t (List.mem_append_left _ ht))]
    simp only [Outcome.ok_bind]
    rw [run_plain_all xs _ _ stk hr (fun t ht => h t (List.mem_append_right _ ht)), effTags_append]
    cases cur <;> simp [absorbAll]

end

/-- Types added to a file. -/
def effTypes (ts : List XType) (f : File) : File :=
  { f with types := ts.foldl (fun m t => m.set t.name t) f.types }

theorem effTypes_nil (f : File) : effTypes [] f = f := rfl

theorem effTypes_append (l l' : List XType) (f : File) : effTypes (l ++ l') f = effTypes l' (effTypes l f) := by
  simp [effTypes]

theorem tagEffect_types (ts : List XType) (f : File) (t : Tag) : tagEffect (effTypes ts f) t = effTypes ts (tagEffect f t) := by
  unfold tagEffect
  split
  · rfl
  · split
    · split <;> rfl
    · rfl

theorem effTags_types (l : List Tag) : ∀ (ts : List XType) (f : File),
    effTags l (effTypes ts f) = effTypes ts (effTags l f) := by
  induction l with
  | nil => intro ts f; rfl
  | cons t l ih =>
    intro ts f
    simp only [effTags, List.foldl_cons] at ih ⊢
    rw [tagEffect_types, ih]

theorem tagEffect_type {f : File} {p n : Str} {a : List (Str × Str)} (hn : isType n = true) :
    tagEffect f ⟨p, n, a⟩ = f := by
  unfold tagEffect
  simp only
  split
  · next h => rw [h] at hn; exact absurd hn (by decide)
  · split
    · next h => rw [h.1] at hn; exact absurd hn (by decide)
    · rfl

/-- The type as it is when its start tag has been read. -/
def freshType (n name : Str) : XType :=
  if n = chars! "complexType" then .complex { name := name } else .simple { name := name }

theorem dispatch_type {n : Str} {a : List (Str × Str)} {st : State} (hn : isType n = true) :
    dispatch n (Dom.attrMap a) st =
      .ok (match st.current with
        | none => { st with current := (attr a (chars! "name")).map (freshType n) }
        | some _ => st) := by
  unfold isType at hn
  rw [Bool.or_eq_true, beq_iff_eq, beq_iff_eq] at hn
  rcases hn with rfl | rfl
  · unfold dispatch startType createType
    rw [if_neg (by decide), if_neg (by decide), if_pos rfl, attr_eq]
    congr 1
  · unfold dispatch startType createType
    rw [if_neg (by decide), if_neg (by decide), if_neg (by decide), if_neg (by decide), if_pos rfl, attr_eq]
    congr 1

theorem absorb_complex (l : List Tag) : ∀ (c : Complex), absorbAll l (.complex c) =
    .complex ⟨c.name, (valuesOf (chars! "extension") (chars! "base") l).getLast?.getD c.base, c.sequence ++ locals l⟩ := by
  induction l with
  | nil => intro c; simp [absorbAll, valuesOf, locals]
  | cons t l ih =>
    intro c
    have hstep : absorbAll (t :: l) (.complex c) = absorbAll l (absorb (.complex c) t) := rfl
    rw [hstep]
    by_cases h1 : t.name = chars! "extension"
    · have h2 : ¬ (t.parent ≠ chars! "schema" ∧ t.name = chars! "element") := by
        rintro ⟨_, h⟩; rw [h1] at h; exact absurd h (by decide)
      have hl : locals (t :: l) = locals l := by unfold locals; rw [List.filterMap_cons_none (by rw [if_neg h2])]
      rw [hl]
      simp only [absorb, if_pos h1]
      cases hb : attr t.attrs (chars! "base") with
      | none =>
        have : valuesOf (chars! "extension") (chars! "base") (t :: l) = valuesOf (chars! "extension") (chars! "base") l := by
          unfold valuesOf; rw [List.filterMap_cons_none (by rw [if_pos h1, hb])]
        rw [this]
        exact ih c
      | some b =>
        have : valuesOf (chars! "extension") (chars! "base") (t :: l) =
            b :: valuesOf (chars! "extension") (chars! "base") l := by
          unfold valuesOf; rw [List.filterMap_cons_some (by rw [if_pos h1, hb])]
        rw [this, ih, List.getLast?_cons]
        simp
    · have : valuesOf (chars! "extension") (chars! "base") (t :: l) = valuesOf (chars! "extension") (chars! "base") l := by
        unfold valuesOf; rw [List.filterMap_cons_none (by rw [if_neg h1])]
      rw [this]
      simp only [absorb, if_neg h1]
      by_cases h2 : t.parent ≠ chars! "schema" ∧ t.name = chars! "element"
      · rw [if_pos ⟨h2.2, h2.1⟩]
        cases hd : declared t.attrs with
        | none =>
          have : locals (t :: l) = locals l := by
            unfold locals; rw [List.filterMap_cons_none (by rw [if_pos h2, hd])]
          rw [this]
          exact ih c
        | some e =>
          have : locals (t :: l) = e :: locals l := by
            unfold locals; rw [List.filterMap_cons_some (by rw [if_pos h2, hd])]
          rw [this]
          simp only
          rw [ih]
          simp
      · rw [if_neg (fun h => h2 ⟨h.2, h.1⟩)]
        have : locals (t :: l) = locals l := by
          unfold locals; rw [List.filterMap_cons_none (by rw [if_neg h2])]
        rw [this]
        exact ih c

theorem absorb_simple (l : List Tag) : ∀ (s : Simple), absorbAll l (.simple s) =
    .simple ⟨s.name, (valuesOf (chars! "restriction") (chars! "base") l).getLast?.getD s.base,
      s.enumeration ++ valuesOf (chars! "enumeration") (chars! "value") l⟩ := by
  induction l with
  | nil => intro c; simp [absorbAll, valuesOf]
  | cons t l ih =>
    intro c
    have hstep : absorbAll (t :: l) (.simple c) = absorbAll l (absorb (.simple c) t) := rfl
    rw [hstep]
    by_cases h1 : t.name = chars! "restriction"
    · have h2 : ¬ t.name = chars! "enumeration" := by
        intro h; rw [h1] at h; exact absurd h (by decide)
      have hl : valuesOf (chars! "enumeration") (chars! "value") (t :: l) = valuesOf (chars! "enumeration") (chars! "value") l := by
        unfold valuesOf; rw [List.filterMap_cons_none (by rw [if_neg h2])]
      rw [hl]
      simp only [absorb, if_pos h1]
      cases hb : attr t.attrs (chars! "base") with
      | none =>
        have : valuesOf (chars! "restriction") (chars! "base") (t :: l) = valuesOf (chars! "restriction") (chars! "base") l := by
          unfold valuesOf; rw [List.filterMap_cons_none (by rw [if_pos h1, hb])]
        rw [this]
        exact ih c
      | some b =>
        have : valuesOf (chars! "restriction") (chars! "base") (t :: l) =
            b :: valuesOf (chars! "restriction") (chars! "base") l := by
          unfold valuesOf; rw [List.filterMap_cons_some (by rw [if_pos h1, hb])]
        rw [this, ih, List.getLast?_cons]
        simp
    · have : valuesOf (chars! "restriction") (chars! "base") (t :: l) = valuesOf (chars! "restriction") (chars! "base") l := by
        unfold valuesOf; rw [List.filterMap_cons_none (by rw [if_neg h1])]
      rw [this]
      simp only [absorb, if_neg h1]
      by_cases h2 : t.name = chars! "enumeration"
      · rw [if_pos h2]
        cases hd : attr t.attrs (chars! "value") with
        | none =>
          have : valuesOf (chars! "enumeration") (chars! "value") (t :: l) = valuesOf (chars! "enumeration") (chars! "value") l := by
            unfold valuesOf; rw [List.filterMap_cons_none (by rw [if_pos h2, hd])]
          rw [this]
          exact ih c
        | some e =>
          have : valuesOf (chars! "enumeration") (chars! "value") (t :: l) = e :: valuesOf (chars! "enumeration") (chars! "value") l := by
            unfold valuesOf; rw [List.filterMap_cons_some (by rw [if_pos h2, hd])]
          rw [this]
          simp only
          rw [ih]
          simp
      · rw [if_neg h2]
        have : valuesOf (chars! "enumeration") (chars! "value") (t :: l) = valuesOf (chars! "enumeration") (chars! "value") l := by
          unfold valuesOf; rw [List.filterMap_cons_none (by rw [if_neg h2])]
        rw [this]
        exact ih c

theorem absorb_fresh {n name : Str} {a : List (Str × Str)} (hname : attr a (chars! "name") = some name) (l : List Tag) :
    absorbAll l (freshType n name) = declaredType n a l := by
  unfold freshType declaredType
  split
  · rw [absorb_complex, hname]; simp
  · rw [absorb_simple, hname]; simp

mutual

theorem run_tidy : ∀ (x : Xml) (f : File) (stk : List Str), (stk ≠ [] ∨ RootOk x) → Tidy x →
    run ⟨f, none, stk⟩ x.events = .ok ⟨effTypes (typeDecls x) (effTags (tags (topOf stk) x) f), none, stk⟩
  | .text s, f, stk, _, _ => by
    rw [Xml.events, run_chars]
    rfl
  | .empty n a, f, stk, hr, h => by
    by_cases hn : isType n = true
    · rw [Tidy] at h
      obtain ⟨name, hname⟩ := Option.isSome_iff_exists.1 (h hn)
      rw [Xml.events]
      simp only [run, step, startElement]
      rw [dispatch_type hn]
      simp only [Outcome.ok_bind, hname, Option.map_some]
      rw [endElement_type hn]
      simp only [Outcome.ok_bind, typeDecls, hn, if_true, tags, effTags, List.foldl_cons, List.foldl_nil, tagEffect_type hn]
      rw [← absorb_fresh hname []]
      rfl
    · have hn : isType n = false := by simpa using hn
      rw [run_plain _ _ _ _ hr (by simp [tags, hn])]
      simp [typeDecls, hn, effTypes]
  | .elem n a ks, f, stk, hr, h => by
    rw [Tidy] at h
    by_cases hn : isType n = true
    · rw [if_pos hn] at h
      obtain ⟨name, hname⟩ := Option.isSome_iff_exists.1 h.1
      rw [Xml.events, List.cons_append, run]
      simp only [step, startElement]
      rw [dispatch_type hn]
      simp only [Outcome.ok_bind, hname, Option.map_some]
      rw [run_append, run_plain_all ks _ _ (n :: stk) (by simp) h.2]
      simp only [Outcome.ok_bind, run, step, Option.map_some]
      rw [endElement_type hn]
      simp only [Outcome.ok_bind, typeDecls, hn, if_true, tags, effTags, List.foldl_cons, tagEffect_type hn, topOf,
        List.headD_cons]
      rw [absorb_fresh hname]
      rfl
    · have hn : isType n = false := by simpa using hn
      rw [hn] at h
      rw [Xml.events, List.cons_append, run]
      simp only [step, startElement]
      rw [dispatch_eq hn hr]
      simp only [Outcome.ok_bind, Option.map_none]
      rw [run_append, run_tidy_all ks _ (n :: stk) (by simp) (by simpa using h)]
      simp only [Outcome.ok_bind, run, step]
      rw [endElement_plain hn]
      simp only [Outcome.ok_bind, typeDecls, hn, tags, topOf, List.headD_cons]
      simp [effTags]

theorem run_tidy_all : ∀ (xs : List Xml) (f : File) (stk : List Str), stk ≠ [] → TidyAll xs →
    run ⟨f, none, stk⟩ (eventsOf xs) =
      .ok ⟨effTypes (typeDeclsOf xs) (effTags (tagsOf (topOf stk) xs) f), none, stk⟩
  | [], f, stk, _, _ => rfl
  | x :: xs, f, stk, hr, h => by
    rw [TidyAll] at h
    rw [eventsOf, run_append, run_tidy x f stk (.inl hr) h.1]
    simp only [Outcome.ok_bind]
    rw [run_tidy_all xs _ stk hr h.2, tagsOf, typeDeclsOf, effTags_types, effTypes_append, effTags_append]

end

/-! ## Only tidy documents -/

/-- Some tag is the tag of a type. -/
def hasType (l : List Tag) : Bool := l.any fun t => isType t.name

theorem startElement_stack {n : Str} {a : List (Str × Str)} {st st' : State} (h : startElement n a st = .ok st') :
    st'.stack = n :: st.stack ∧ (isType n = false → st'.current.isSome = st.current.isSome) ∧
    (isType n = true → st'.current = none → st.current = none ∧ attr a (chars! "name") = none) ∧
    (isType n = true → st.current = none → st'.current.isSome = true → (attr a (chars! "name")).isSome = true) ∧
    (st.stack ≠ [] ∨ ¬ (n = chars! "element" ∧ (declared a).isSome = true)) := by
  unfold startElement at h
  obtain ⟨f, cur, stk⟩ := st
  by_cases hn : isType n = true
  · rw [dispatch_type hn] at h
    simp only [Outcome.ok_bind] at h
    cases cur with
    | none =>
      simp only at h
      cases h
      refine ⟨rfl, by simp [hn], fun _ h => ⟨rfl, by simpa using h⟩, fun _ _ h => by simpa using h, .inr ?_⟩
      rintro ⟨rfl, _⟩
      exact absurd hn (by decide)
    | some t =>
      simp only at h
      cases h
      refine ⟨rfl, by simp, fun _ h => by simp at h, fun _ h => by simp at h, .inr ?_⟩
      rintro ⟨rfl, _⟩
      exact absurd hn (by decide)
  · have hn' : isType n = false := by simpa using hn
    by_cases hr : stk ≠ [] ∨ ¬ (n = chars! "element" ∧ (declared a).isSome = true)
    · rw [dispatch_eq hn' hr] at h
      simp only [Outcome.ok_bind] at h
      cases h
      exact ⟨rfl, fun _ => by simp, fun h => absurd h hn, fun h => absurd h hn, hr⟩
    · exfalso
      apply hr
      by_cases h0 : stk = []
      · right
        rintro ⟨rfl, h1⟩
        obtain ⟨e, he⟩ := Option.isSome_iff_exists.1 h1
        subst h0
        unfold dispatch at h
        rw [if_neg (by decide), if_pos rfl] at h
        unfold startXsElement at h
        rw [create_eq, he] at h
        cases h
      · exact .inl h0

theorem endElement_stack {n : Str} {st st' : State} {p : Str} {stk : List Str} (hs : st.stack = p :: stk)
    (h : endElement n st = .ok st') :
    st'.stack = stk ∧ (isType n = false → st'.current = st.current) ∧
    (isType n = true → st'.current = none ∧ st.current.isSome = true) := by
  obtain ⟨f, cur, s⟩ := st
  simp only at hs
  subst hs
  by_cases hn : isType n = true
  · cases cur with
    | none => rw [endElement_none hn] at h; cases h
    | some t =>
      rw [endElement_type hn] at h
      cases h
      exact ⟨rfl, by simp [hn], fun _ => ⟨rfl, rfl⟩⟩
  · have hn' : isType n = false := by simpa using hn
    rw [endElement_plain hn'] at h
    cases h
    exact ⟨rfl, fun _ => rfl, fun h => absurd h hn⟩

theorem bind_ok {α β : Type} {x : Outcome α} {f : α → Outcome β} {b : β} (h : (x >>= f) = .ok b) :
    ∃ a, x = .ok a ∧ f a = .ok b := by
  cases x with
  | ok a => exact ⟨a, rfl, h⟩
  | throws => cases h
  | ub => cases h

mutual

theorem tidy_of_run : ∀ (x : Xml) (p : Str) (st st' : State), run st x.events = .ok st' →
    st'.stack = st.stack ∧ (hasType (tags p x) = true → st'.current = none) ∧
    (hasType (tags p x) = false → st'.current.isSome = st.current.isSome) ∧
    (st.current = none → Tidy x) ∧ (st.stack ≠ [] ∨ RootOk x)
  | .text s, p, st, st', h => by
    rw [Xml.events, run_chars] at h
    cases h
    exact ⟨rfl, by simp [hasType, tags], fun _ => rfl, fun _ => trivial, .inr trivial⟩
  | .empty n a, p, st, st', h => by
    rw [Xml.events] at h
    simp only [run, step] at h
    obtain ⟨st1, h0, h⟩ := bind_ok h
    obtain ⟨st2, h1, h2⟩ := bind_ok h0
    cases h
    obtain ⟨a1, a2, a3, a4, a5⟩ := startElement_stack h1
    obtain ⟨b1, b2, b3⟩ := endElement_stack a1 h2
    have ht : hasType (tags p (.empty n a)) = isType n := by simp [hasType, tags]
    rw [ht]
    refine ⟨b1, fun hn => (b3 hn).1, fun hn => by rw [b2 hn, a2 hn], fun hc => ?_, a5⟩
    rw [Tidy]
    intro hn
    exact a4 hn hc (b3 hn).2
  | .elem n a ks, p, st, st', h => by
    rw [Xml.events, List.cons_append, run] at h
    simp only [step] at h
    obtain ⟨st1, h1, h⟩ := bind_ok h
    rw [run_append] at h
    obtain ⟨st2, h2, h⟩ := bind_ok h
    simp only [run, step] at h
    obtain ⟨st3, h3, h⟩ := bind_ok h
    cases h
    obtain ⟨a1, a2, a3, a4, a5⟩ := startElement_stack h1
    obtain ⟨k1, k2, k3, k4⟩ := tidy_of_run_all ks n st1 st2 (by rw [a1]; simp) h2
    obtain ⟨b1, b2, b3⟩ := endElement_stack (k1.trans a1) h3
    have ht : hasType (tags p (.elem n a ks)) = (isType n || hasType (tagsOf n ks)) := by simp [hasType, tags]
    rw [ht]
    by_cases hn : isType n = true
    · have hk : hasType (tagsOf n ks) = false := by
        rw [← Bool.not_eq_true]
        intro hk
        have := (b3 hn).2
        rw [k2 hk] at this
        cases this
      refine ⟨b1, fun _ => (b3 hn).1, fun h => by simp [hn] at h, fun hc => ?_, a5⟩
      rw [Tidy, if_pos hn]
      refine ⟨a4 hn hc (by rw [← k3 hk]; exact (b3 hn).2), ?_⟩
      simpa [hasType] using hk
    · have hn' : isType n = false := by simpa using hn
      refine ⟨b1, fun h => ?_, fun h => ?_, fun hc => ?_, a5⟩
      · rw [b2 hn']
        exact k2 (by simpa [hn'] using h)
      · rw [b2 hn', k3 (by simpa [hn'] using h), a2 hn']
      · rw [Tidy, if_neg hn]
        refine k4 ?_
        have := a2 hn'
        rw [hc] at this
        simpa using this

theorem tidy_of_run_all : ∀ (xs : List Xml) (p : Str) (st st' : State), st.stack ≠ [] → run st (eventsOf xs) = .ok st' →
    st'.stack = st.stack ∧ (hasType (tagsOf p xs) = true → st'.current = none) ∧
    (hasType (tagsOf p xs) = false → st'.current.isSome = st.current.isSome) ∧
    (st.current = none → TidyAll xs)
  | [], p, st, st', _, h => by
    cases h
    exact ⟨rfl, by simp [hasType, tagsOf], fun _ => rfl, fun _ => trivial⟩
  | x :: xs, p, st, st', hs, h => by
    rw [eventsOf, run_append] at h
    obtain ⟨st1, h1, h⟩ := bind_ok h
    obtain ⟨a1, a2, a3, a4, _⟩ := tidy_of_run x p st st1 h1
    obtain ⟨b1, b2, b3, b4⟩ := tidy_of_run_all xs p st1 st' (by rw [a1]; exact hs) h
    have ht : hasType (tagsOf p (x :: xs)) = (hasType (tags p x) || hasType (tagsOf p xs)) := by simp [hasType, tagsOf]
    rw [ht]
    refine ⟨b1.trans a1, fun h => ?_, fun h => ?_, fun hc => ?_⟩
    · by_cases hx : hasType (tagsOf p xs) = true
      · exact b2 hx
      · have hx' : hasType (tagsOf p xs) = false := by simpa using hx
        have := b3 hx'
        rw [a2 (by simpa [hx'] using h)] at this
        simpa using this
    · rw [Bool.or_eq_false_iff] at h
      rw [b3 h.2, a3 h.1]
    · rw [TidyAll]
      refine ⟨a4 hc, b4 ?_⟩
      by_cases hx : hasType (tags p x) = true
      · exact a2 hx
      · have := a3 (by simpa using hx)
        rw [hc] at this
        simpa using this

end

/-! ## Files made from documents -/

theorem effTags_schema (l : List Tag) : ∀ (f : File), (effTags l f).schema =
    match lastSchema l with
    | some a => Schema.create (Dom.attrMap a)
    | none => f.schema := by
  induction l with
  | nil => intro f; rfl
  | cons t l ih =>
    intro f
    have hstep : effTags (t :: l) f = effTags l (tagEffect f t) := rfl
    rw [hstep, ih]
    by_cases ht : t.name = chars! "schema"
    · have : (tagEffect f t).schema = Schema.create (Dom.attrMap t.attrs) := by simp [tagEffect, ht]
      rw [this]
      unfold lastSchema
      rw [List.filter_cons_of_pos (by simp [ht]), List.getLast?_cons]
      cases (List.filter (fun t => t.name == chars! "schema") l).getLast? <;> rfl
    · have : (tagEffect f t).schema = f.schema := by
        unfold tagEffect
        rw [if_neg ht]
        split
        · split <;> rfl
        · rfl
      rw [this]
      unfold lastSchema
      rw [List.filter_cons_of_neg (by simp [ht])]

theorem effTags_elements (l : List Tag) : ∀ (f : File), (effTags l f).elements =
    (globals l).foldl (fun m e => StdMap.set m e.name_ e) f.elements := by
  induction l with
  | nil => intro f; rfl
  | cons t l ih =>
    intro f
    have hstep : effTags (t :: l) f = effTags l (tagEffect f t) := rfl
    rw [hstep, ih]
    unfold globals
    by_cases h : t.parent = chars! "schema" ∧ t.name = chars! "element"
    · have hne : t.name ≠ chars! "schema" := by rw [h.2]; decide
      cases hd : declared t.attrs with
      | none =>
        rw [List.filterMap_cons_none (by rw [if_pos h, hd])]
        simp [tagEffect, h, hd]
      | some e =>
        rw [List.filterMap_cons_some (by rw [if_pos h, hd]), List.foldl_cons]
        simp [tagEffect, h, hd, File.addElement]
    · rw [List.filterMap_cons_none (by rw [if_neg h])]
      congr 1
      unfold tagEffect
      split
      · rfl
      · rw [if_neg (fun h' => h ⟨h'.2, h'.1⟩)]

theorem effTags_types_same (l : List Tag) : ∀ (f : File), (effTags l f).types = f.types := by
  induction l with
  | nil => intro f; rfl
  | cons t l ih =>
    intro f
    have hstep : effTags (t :: l) f = effTags l (tagEffect f t) := rfl
    rw [hstep, ih]
    unfold tagEffect
    split
    · rfl
    · split
      · split <;> rfl
      · rfl

/-- A map filled from a list: the last entry of each name counts. -/
theorem get_fold {β : Type} (key : β → Str) (l : List β) : ∀ (m : StdMap β) (k : Str),
    StdMap.get (l.foldl (fun m e => StdMap.set m (key e) e) m) k =
      ((l.reverse.find? fun e => key e == k).or (StdMap.get m k)) := by
  induction l with
  | nil => intro m k; rfl
  | cons e l ih =>
    intro m k
    rw [List.foldl_cons, ih, StdMap.get_set, List.reverse_cons, List.find?_append]
    rw [Option.or_assoc]
    congr 1
    by_cases h : key e = k <;> simp [h]

theorem fold_ok {β : Type} (key : β → Str) (P : β → Prop) (l : List β) (hl : ∀ e ∈ l, P e) : ∀ (m : StdMap β), m.Sorted →
    (∀ k e, (k, e) ∈ m → key e = k ∧ P e) →
    StdMap.Sorted (l.foldl (fun m e => StdMap.set m (key e) e) m) ∧
      ∀ k e, (k, e) ∈ l.foldl (fun m e => StdMap.set m (key e) e) m → key e = k ∧ P e := by
  induction l with
  | nil => intro m h1 h2; exact ⟨h1, h2⟩
  | cons x l ih =>
    intro m h1 h2
    rw [List.foldl_cons]
    refine ih (fun e he => hl e (List.mem_cons_of_mem _ he)) _ (StdMap.sorted_set h1 _ _) ?_
    intro k e he
    have := (StdMap.get_eq_some_iff (StdMap.sorted_set h1 (key x) x)).2 he
    rw [StdMap.get_set] at this
    split at this
    · next hk => cases this; exact ⟨hk, hl x (by simp)⟩
    · exact h2 k e (StdMap.mem_of_get this)

theorem declared_typeId {a : List (Str × Str)} {e : Element} (h : declared a = some e) : e.typeId = getTypeId e.type_ := by
  unfold declared at h
  split at h
  · cases h; rfl
  · cases h; rfl
  · cases h

/-- The file a tidy document describes. -/
def fileOf (x : Xml) : File := effTypes (typeDecls x) (effTags (tags [] x) {})

theorem createFromParse_tidy {x : Xml} (hr : RootOk x) (ht : Tidy x) : createFromParse x.events = .ok (fileOf x) := by
  unfold createFromParse
  have := run_tidy x {} [] (.inr hr) ht
  rw [show ({} : State) = ⟨{}, none, []⟩ from rfl, this]
  rfl

theorem fileOf_ok (x : Xml) : (fileOf x).Ok := by
  have he : (fileOf x).elements = (globals (tags [] x)).foldl (fun m e => StdMap.set m e.name_ e) [] := by
    unfold fileOf effTypes
    simp only
    rw [effTags_elements]
  have ht : (fileOf x).types = (typeDecls x).foldl (fun m t => StdMap.set m t.name t) [] := by
    unfold fileOf effTypes
    simp only
    rw [effTags_types_same]
  have h1 := fold_ok Element.name_ (fun e => e.typeId = getTypeId e.type_) (globals (tags [] x)) (by
    intro e he
    unfold globals at he
    rw [List.mem_filterMap] at he
    obtain ⟨t, _, h⟩ := he
    split at h
    · exact declared_typeId h
    · cases h) [] StdMap.sorted_nil (by intro k e h; cases h)
  have h2 := fold_ok XType.name (fun _ => True) (typeDecls x) (fun _ _ => trivial) [] StdMap.sorted_nil
    (by intro k e h; cases h)
  exact ⟨he ▸ h1.1, ht ▸ h2.1, fun k e h => (h1.2 k e (he ▸ h)).1, fun k t h => (h2.2 k t (ht ▸ h)).1,
    fun k e h => (h1.2 k e (he ▸ h)).2⟩

end Kml.XsdDoc
