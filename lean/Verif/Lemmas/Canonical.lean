import Verif.Lemmas.CanonAttrs
import Verif.Lemmas.Print
import Verif.Lemmas.Unknown
import Verif.Props.Xsd

/-! Canonical elements are read back as they are. -/

set_option linter.unusedVariables false

namespace Kml.Dom

open Kml
open Kml.Attributes (Attributes)

theorem classes_types : (classes.all fun p => Xsd.isValid p.1 && decide (Xsd.elementType p.1 = .complex) &&
    (p.1 = Ty.«IconStyleIcon» || decide (Xsd.elementId (Xsd.elementName p.1) = p.1)) &&
    decide (p.1 ≠ Ty.«description»)) = true := by decide +kernel

theorem simple_types : ∀ t < Ty.Invalid, Xsd.elementType t = .simple →
    (Xsd.isValid t && decide (Xsd.elementId (Xsd.elementName t) = t) && !selfParsing t) = true := by
  decide +kernel

theorem classes_plain_writes : (classes.all fun p => textual p.1 || p.2.writes.all fun w =>
    match w with | .content _ _ => false | .points _ => false | _ => true) = true := by decide +kernel

theorem icon_facts : Xsd.elementName Ty.«IconStyleIcon» = chars! "Icon" ∧ Xsd.elementId (chars! "Icon") = Ty.«Icon» ∧
    Xsd.elementType Ty.«Icon» = .complex ∧ (classOf Ty.«Icon»).isSome = true := by decide +kernel

theorem schema_name : Xsd.elementId (chars! "Schema") = Ty.«Schema» ∧
    Xsd.elementName Ty.«IconStyleIcon» ≠ chars! "Schema" := by decide +kernel

theorem description_facts : Xsd.elementId (chars! "description") = Ty.«description» ∧
    Xsd.elementName Ty.«IconStyleIcon» ≠ chars! "description" := by decide +kernel

theorem textual_types : (Ty.«Snippet» ≠ Ty.«IconStyleIcon» ∧ Ty.«linkSnippet» ≠ Ty.«IconStyleIcon» ∧
    Ty.«SimpleData» ≠ Ty.«IconStyleIcon» ∧ Ty.«coordinates» ≠ Ty.«IconStyleIcon») ∧
    (Ty.«Snippet» ≠ Ty.«Icon» ∧ Ty.«linkSnippet» ≠ Ty.«Icon» ∧
    Ty.«SimpleData» ≠ Ty.«Icon» ∧ Ty.«coordinates» ≠ Ty.«Icon») ∧
    (Ty.«Snippet» ≠ Ty.«Schema» ∧ Ty.«linkSnippet» ≠ Ty.«Schema» ∧
    Ty.«SimpleData» ≠ Ty.«Schema» ∧ Ty.«coordinates» ≠ Ty.«Schema») ∧
    (Ty.«Snippet» ≠ Ty.«coordinates» ∧ Ty.«linkSnippet» ≠ Ty.«coordinates» ∧
    Ty.«SimpleData» ≠ Ty.«coordinates») := by decide

theorem icon_not_textual : textual Ty.«IconStyleIcon» = false := by decide

attribute [local irreducible] kml22Elements Xsd.tagToId classes inc dec uintSize

theorem class_facts {t : Ty} {c : Class} (hc : classOf t = some c) : Xsd.isValid t = true ∧
    Xsd.elementType t = .complex ∧ (t ≠ Ty.«IconStyleIcon» → Xsd.elementId (Xsd.elementName t) = t) ∧
    t ≠ Ty.«description» := by
  have h := List.all_eq_true.1 classes_types _ (classOf_pair hc)
  simp only [Bool.and_eq_true, Bool.or_eq_true, decide_eq_true_eq] at h
  exact ⟨h.1.1.1, h.1.1.2, fun hn => h.1.2.resolve_left hn, h.2⟩

theorem simple_facts {t : Ty} (h : Xsd.elementType t = .simple) : Xsd.isValid t = true ∧
    Xsd.elementId (Xsd.elementName t) = t ∧ selfParsing t = false := by
  have hlt : t < Ty.Invalid := by
    rcases Nat.lt_or_ge t Ty.Invalid with hx | hx
    · exact hx
    · rw [(Kml.Xsd.C21_outside t (.inr hx)).2] at h; cases h
  have := simple_types t hlt h
  simp only [Bool.and_eq_true, decide_eq_true_eq, Bool.not_eq_true'] at this
  exact ⟨this.1.1, this.1.2, this.2⟩

theorem class_name_schema {t : Ty} {c : Class} (hc : classOf t = some c) (h : Xsd.elementName t = chars! "Schema") :
    t = Ty.«Schema» := by
  by_cases ht : t = Ty.«IconStyleIcon»
  · rw [ht] at h; exact absurd h schema_name.2
  · have := (class_facts hc).2.2.1 ht
    rw [h, schema_name.1] at this
    exact this.symm

theorem class_name_description {t : Ty} {c : Class} (hc : classOf t = some c) :
    Xsd.elementName t ≠ chars! "description" := by
  intro h
  by_cases ht : t = Ty.«IconStyleIcon»
  · rw [ht] at h; exact absurd h description_facts.2
  · have := (class_facts hc).2.2.1 ht
    rw [h, description_facts.1] at this
    exact (class_facts hc).2.2.2 this.symm

theorem class_known {t : Ty} {c : Class} (hc : classOf t = some c) : isKnown (Xsd.elementName t) = true := by
  unfold isKnown
  by_cases ht : t = Ty.«IconStyleIcon»
  · rw [ht, icon_facts.1, icon_facts.2.1, icon_facts.2.2.1]
    exact icon_facts.2.2.2
  · rw [(class_facts hc).2.2.1 ht, (class_facts hc).2.1]
    simp [hc]

/-- The element made for the tag written for an element of a class. -/
theorem make_class {n : NumLib} {p : Option Ty} {t : Ty} {c : Class} (hc : classOf t = some c) (hp : HomeType p t)
    (attrs : List (Str × Str)) : makeElement n p (Xsd.elementId (Xsd.elementName t)) attrs =
      some (.node t (if attrs = [] then .empty else parseAttributes n (classAt t) (attrMap attrs)) (fun _ => []) [] []) := by
  by_cases ht : t = Ty.«IconStyleIcon»
  · subst ht
    rw [icon_facts.1, icon_facts.2.1]
    unfold makeElement
    rw [icon_facts.2.2.1]
    obtain ⟨ci, hci⟩ := Option.isSome_iff_exists.1 icon_facts.2.2.2
    simp only [hci, hp.1 rfl, and_self, if_true]
  · rw [(class_facts hc).2.2.1 ht]
    unfold makeElement
    rw [(class_facts hc).2.1]
    have : ¬ (t = Ty.«Icon» ∧ p = some Ty.«IconStyle») := fun hx => hp.2 hx.1 hx.2
    simp only [hc, if_neg this]

theorem make_simple {n : NumLib} {p : Option Ty} {t : Ty} (h : Xsd.elementType t = .simple) (attrs : List (Str × Str)) :
    makeElement n p (Xsd.elementId (Xsd.elementName t)) attrs = some (.field t []) := by
  rw [(simple_facts h).2.1]
  unfold makeElement
  rw [h]

/-! ### The unknown text in canonical elements -/

theorem exists_least {P : Nat → Prop} : ∀ (k : Nat), P k → ∃ j, P j ∧ ∀ i, P i → j ≤ i := by
  intro k
  induction k using Nat.strongRecOn with
  | ind k ih =>
    intro hk
    by_cases h : ∃ i, i < k ∧ P i
    · obtain ⟨i, hi, hp⟩ := h
      exact ih i hi hp
    · exact ⟨k, hk, fun i hi => Nat.le_of_not_lt fun hl => h ⟨i, hl, hi⟩⟩

/-- The pieces the text of an unknown child stands for. -/
noncomputable def keptPieces (s : Str) : List Xml :=
  open Classical in
  if h : ∃ x : Xml, (s = x.render ++ ['\n'] ∧ x.Plain ∧ (x.name?.any fun m => !isKnown m) = true ∧
      x.All fun m a => m ≠ chars! "description" ∧ NotOldSchema m a) ∧ ∀ k, KeptUnknown k s → x.depth ≤ k
  then [h.choose.full, .text ['\n']] else []

mutual

theorem full_depth : (x : Xml) → x.full.depth = x.depth
  | .text s => rfl
  | .empty n a => rfl
  | .elem n a ks => by rw [Xml.full, Xml.depth, Xml.depth, full_depthOf]

theorem full_depthOf : (xs : List Xml) → depthOf (fullAll xs) = depthOf xs
  | [] => rfl
  | x :: xs => by rw [fullAll, depthOf, depthOf, full_depth, full_depthOf]

end

mutual

theorem full_all {P : Str → List (Str × Str) → Prop} : (x : Xml) → x.All P → x.full.All P
  | .text s, _ => trivial
  | .empty n a, h => ⟨h, trivial⟩
  | .elem n a ks, h => ⟨h.1, full_allOf ks h.2⟩

theorem full_allOf {P : Str → List (Str × Str) → Prop} : (xs : List Xml) → AllOf P xs → AllOf P (fullAll xs)
  | [], _ => trivial
  | x :: xs, h => ⟨full_all x h.1, full_allOf xs h.2⟩

end

theorem full_name (x : Xml) : x.full.name? = x.name? := by cases x <;> rfl

mutual

theorem all_imp {P Q : Str → List (Str × Str) → Prop} (hpq : ∀ m a, P m a → Q m a) : (x : Xml) → x.All P → x.All Q
  | .text s, _ => trivial
  | .empty n a, h => hpq _ _ h
  | .elem n a ks, h => ⟨hpq _ _ h.1, allOf_imp hpq ks h.2⟩

theorem allOf_imp {P Q : Str → List (Str × Str) → Prop} (hpq : ∀ m a, P m a → Q m a) : (xs : List Xml) → AllOf P xs → AllOf Q xs
  | [], _ => trivial
  | x :: xs, h => ⟨all_imp hpq x h.1, allOf_imp hpq xs h.2⟩

end


/-- What the text of an unknown child stands for. -/
theorem kept_spec {k : Nat} {s : Str} (h : KeptUnknown k s) : ∃ y : Xml, keptPieces s = [y, .text ['\n']] ∧
    s = y.render ++ ['\n'] ∧ ReadsAs s (keptPieces s) ∧ (∃ m a ks, y = .elem m a ks ∧ isKnown m = false) ∧ y.depth ≤ k ∧
    y.All (fun m a => m ≠ chars! "description" ∧ NotOldSchema m a) := by
  have hex : ∃ x : Xml, (s = x.render ++ ['\n'] ∧ x.Plain ∧ (x.name?.any fun m => !isKnown m) = true ∧
      x.All fun m a => m ≠ chars! "description" ∧ NotOldSchema m a) ∧ ∀ k, KeptUnknown k s → x.depth ≤ k := by
    obtain ⟨j, ⟨x, h1, h2, h3, h4, h5⟩, hj⟩ := exists_least (P := fun k => KeptUnknown k s) k h
    exact ⟨x, ⟨h1, h2, h3, h5⟩, fun i hi => Nat.le_trans h4 (hj i hi)⟩
  have hk : keptPieces s = [hex.choose.full, .text ['\n']] := by
    unfold keptPieces
    rw [dif_pos hex]
  obtain ⟨⟨h1, h2, h3, h5⟩, h4⟩ := hex.choose_spec
  generalize hx : hex.choose = x at *
  have hname : ∃ m a ks, x.full = .elem m a ks ∧ isKnown m = false := by
    cases x with
    | text u => simp [Xml.name?] at h3
    | empty m a => exact ⟨m, a, [], rfl, by simpa [Xml.name?] using h3⟩
    | elem m a ks => exact ⟨m, a, fullAll ks, rfl, by simpa [Xml.name?] using h3⟩
  refine ⟨x.full, hk, by rw [full_render]; exact h1, ?_, hname, by rw [full_depth]; exact h4 k h, full_all x h5⟩
  obtain ⟨j, hj⟩ := reads_render x h2 0
  obtain ⟨j', hj'⟩ := reads_plain (s := ['\n']) j (by decide)
  have hr := reads_append hj hj'
  rw [hk, h1]
  refine ⟨?_, reads_no_return hr, ?_⟩
  · obtain ⟨m, a, ks, he, _⟩ := hname
    rw [← full_render, he, Xml.render]
    rfl
  · rw [readXml_of_reads hr]
    simp [eventsOf, Xml.events]

/-! ### Building -/

/-- The line break of a serializer. -/
def nlOf (pretty : Bool) : Str := if pretty then ['\n'] else []

/-- The indentation of a serializer. -/
def indOf (pretty : Bool) : Str := if pretty then chars! "  " else []

/-- What is written for `x` as `q` is an element that is read as `x` in a parent of type `p`. -/
def ReadsBack (n : NumLib) (pretty : Bool) (k : Nat) (p : Option Ty) (q : Doc) (x : Elem) : Prop :=
  q.Ok keptPieces ∧ 1 ≤ k ∧ ∀ d first, d + k ≤ 100 → ∃ w name attrs ks X,
    q.xml keptPieces (nlOf pretty) (indOf pretty) d first = [.text w, X, .text (nlOf pretty)] ∧
    (∀ c ∈ w, xmlSpace c = true) ∧
    (X = .elem name attrs ks ∨ (X = .empty name attrs ∧ ks = [])) ∧
    (Xml.elem name attrs ks).All NotOldSchema ∧ (Xml.elem name attrs ks).Tame ∧
    ∃ e0, makeElement n p (Xsd.elementId name) attrs = some e0 ∧
      buildKnown n [] (d + 1) e0 () (renderAll ks) (depthOf ks) (fun e s => buildKids n [] (d + 1) e [] s ks) =
        .ok (some (x, ()))

/-- What is written for a child is handed to its parent as that child. -/
def Hands (n : NumLib) (pretty : Bool) (k : Nat) (t : Ty) (q : Doc) (x : Elem) : Prop :=
  q.Ok keptPieces ∧ ∀ d first, d + k ≤ 100 →
    AllOf NotOldSchema (q.xml keptPieces (nlOf pretty) (indOf pretty) d first) ∧
    TameAll (q.xml keptPieces (nlOf pretty) (indOf pretty) d first) ∧
    ∀ cur text r, cur.ty = t → addElement n [] cur x = .ok r → ∃ text',
      buildKids n [] d cur text () (q.xml keptPieces (nlOf pretty) (indOf pretty) d first) = .ok (some (r, text', ()))

theorem indOf_space (pretty : Bool) : ∀ c ∈ indOf pretty, xmlSpace c = true := by cases pretty <;> decide

theorem hands_of_readsBack {n : NumLib} {pretty : Bool} {k : Nat} {t : Ty} {q : Doc} {x : Elem}
    (h : ReadsBack n pretty k (some t) q x) : Hands n pretty k t q x := by
  obtain ⟨hok, hk, h⟩ := h
  refine ⟨hok, fun d first hd => ?_⟩
  obtain ⟨w, name, attrs, ks, X, hx, hws, hX, hold, htame, e0, hmake, hb⟩ := h d first hd
  rw [hx]
  have hXold : X.All NotOldSchema := by
    rcases hX with rfl | ⟨rfl, rfl⟩
    · exact hold
    · exact hold.1
  have hXtame : X.Tame := by
    rcases hX with rfl | ⟨rfl, rfl⟩
    · exact htame
    · trivial
  refine ⟨⟨trivial, hXold, trivial, trivial⟩, ⟨trivial, hXtame, trivial, trivial⟩, ?_⟩
  intro cur text r hty hadd
  have hkid : buildKid n [] d cur (text ++ w) () X = .ok (some (r, text ++ w, ())) := by
    have he : buildKid n [] d cur (text ++ w) () (.elem name attrs ks) = .ok (some (r, text ++ w, ())) := by
      rw [buildKid, buildChild, if_neg (by omega), hty, hmake]
      simp only [hb, Outcome.ok_bind, handOver, callAll, giveChild, if_true, hadd]
    rcases hX with rfl | ⟨rfl, rfl⟩
    · exact he
    · rw [buildKid_empty]; exact he
  refine ⟨text ++ w ++ nlOf pretty, ?_⟩
  simp only [buildKids, buildKid, Outcome.ok_bind]
  rw [hkid]
  rfl

/-- Lists of the same length, related element by element. -/
inductive Rows (R : Doc → Elem → Prop) : List Doc → List Elem → Prop
  | nil : Rows R [] []
  | cons {q : Doc} {x : Elem} {qs : List Doc} {xs : List Elem} : R q x → Rows R qs xs → Rows R (q :: qs) (x :: xs)

theorem Rows.append {R : Doc → Elem → Prop} {qs qs' : List Doc} {xs xs' : List Elem} (h : Rows R qs xs)
    (h' : Rows R qs' xs') : Rows R (qs ++ qs') (xs ++ xs') := by
  induction h with
  | nil => exact h'
  | cons hr _ ih => exact .cons hr ih

theorem Rows.flatMap {R : Doc → Elem → Prop} {α : Type} {f : α → List Doc} {g : α → List Elem} {l : List α}
    (h : ∀ a ∈ l, Rows R (f a) (g a)) : Rows R (l.flatMap f) (l.flatMap g) := by
  induction l with
  | nil => exact .nil
  | cons a l ih =>
    exact (h a (by simp)).append (ih fun b hb => h b (List.mem_cons_of_mem _ hb))

theorem okAll_append (f : Str → List Xml) : ∀ (a b : List Doc), OkAll f (a ++ b) ↔ OkAll f a ∧ OkAll f b
  | [], b => by simp [OkAll]
  | x :: a, b => by simp [OkAll, okAll_append f a b, and_assoc]

theorem docsXml_append (f : Str → List Xml) (nl ind : Str) (d : Nat) : ∀ (a b : List Doc) (first : Bool),
    docsXml f nl ind d first (a ++ b) = docsXml f nl ind d first a ++ docsXml f nl ind d (first && a.isEmpty) b
  | [], b, first => by simp [docsXml]
  | x :: a, b, first => by
    simp only [List.cons_append, docsXml, List.append_assoc, List.isEmpty_cons, Bool.and_false]
    rw [docsXml_append f nl ind d a b false]
    simp

theorem allOf_append {P : Str → List (Str × Str) → Prop} : ∀ (a b : List Xml), AllOf P (a ++ b) ↔ AllOf P a ∧ AllOf P b
  | [], b => by simp [AllOf]
  | x :: a, b => by simp [AllOf, allOf_append a b, and_assoc]

theorem tameAll_append : ∀ (a b : List Xml), TameAll (a ++ b) ↔ TameAll a ∧ TameAll b
  | [], b => by simp [TameAll]
  | x :: a, b => by simp [TameAll, tameAll_append a b, and_assoc]

theorem addAll_ty {n : NumLib} : ∀ {xs : List Elem} {cur r : Elem}, addAll n cur xs = .ok r → r.ty = cur.ty
  | [], cur, r, h => by cases h; rfl
  | x :: xs, cur, r, h => by
    rw [addAll] at h
    cases he : addElement n [] cur x with
    | ok e =>
      rw [he] at h
      rw [addAll_ty (xs := xs) h, addElement_ty he]
    | throws => rw [he] at h; cases h
    | ub => rw [he] at h; cases h

/-- What is written for children is handed to their parent, one after the other. -/
theorem rows_build {n : NumLib} {pretty : Bool} {k : Nat} {t : Ty} {qs : List Doc} {xs : List Elem}
    (h : Rows (Hands n pretty k t) qs xs) : OkAll keptPieces qs ∧ ∀ d first, d + k ≤ 100 →
    AllOf NotOldSchema (docsXml keptPieces (nlOf pretty) (indOf pretty) d first qs) ∧
    TameAll (docsXml keptPieces (nlOf pretty) (indOf pretty) d first qs) ∧
    ∀ cur text r, cur.ty = t → addAll n cur xs = .ok r → ∃ text',
      buildKids n [] d cur text () (docsXml keptPieces (nlOf pretty) (indOf pretty) d first qs) =
        .ok (some (r, text', ())) := by
  induction h with
  | nil =>
    refine ⟨trivial, fun d first _ => ⟨trivial, trivial, ?_⟩⟩
    intro cur text r _ h
    cases h
    exact ⟨text, rfl⟩
  | @cons q x qs xs hr _ ih =>
    refine ⟨⟨hr.1, ih.1⟩, fun d first hd => ?_⟩
    obtain ⟨h1, h2, h3⟩ := hr.2 d first hd
    obtain ⟨i1, i2, i3⟩ := ih.2 d false hd
    rw [docsXml]
    refine ⟨(allOf_append _ _).2 ⟨h1, i1⟩, (tameAll_append _ _).2 ⟨h2, i2⟩, ?_⟩
    intro cur text r hty h
    rw [addAll] at h
    cases he : addElement n [] cur x with
    | ok e =>
      rw [he] at h
      obtain ⟨text1, hb1⟩ := h3 cur text e hty he
      obtain ⟨text2, hb2⟩ := i3 e text1 r (by rw [addElement_ty he, hty]) h
      exact ⟨text2, buildKids_append hb1 hb2⟩
    | throws => rw [he] at h; cases h
    | ub => rw [he] at h; cases h

theorem notDescription_tame (m : Str) (a : List (Str × Str)) (ks : List Xml) (hm : isKnown m = false)
    (h : (Xml.elem m a ks).All fun m a => m ≠ chars! "description" ∧ NotOldSchema m a) : (Xml.elem m a ks).Tame := by
  rw [Xml.Tame, if_neg h.1.1, hm]
  exact allOf_imp (fun _ _ h => h.1) ks h.2

/-- The text written for unknown children is kept for them. -/
theorem raws_build {n : NumLib} {pretty : Bool} {k : Nat} {t : Ty} : ∀ {unk : List Str},
    (∀ s ∈ unk, KeptUnknown k s) → OkAll keptPieces (unk.map Doc.raw) ∧ ∀ d first, d + k ≤ 100 →
    AllOf NotOldSchema (docsXml keptPieces (nlOf pretty) (indOf pretty) d first (unk.map Doc.raw)) ∧
    TameAll (docsXml keptPieces (nlOf pretty) (indOf pretty) d first (unk.map Doc.raw)) ∧
    ∀ a slots mis unk0 text, ∃ text',
      buildKids n [] d (.node t a slots mis unk0) text ()
        (docsXml keptPieces (nlOf pretty) (indOf pretty) d first (unk.map Doc.raw)) =
        .ok (some (.node t a slots mis (unk0 ++ unk), text', ()))
  | [], _ => ⟨trivial, fun d first _ => ⟨trivial, trivial, fun a slots mis unk0 text => ⟨text, by simp [docsXml, buildKids]⟩⟩⟩
  | s :: unk, h => by
    obtain ⟨y, hy, hs, hr, ⟨m, ya, yk, hye, hyk⟩, hd', hall⟩ := kept_spec (h s (by simp))
    obtain ⟨ih1, ih2⟩ := raws_build (pretty := pretty) (n := n) (t := t) (unk := unk)
      fun u hu => h u (List.mem_cons_of_mem _ hu)
    refine ⟨⟨hr, ih1⟩, fun d first hd => ?_⟩
    obtain ⟨i1, i2, i3⟩ := ih2 d false hd
    have hxml : docsXml keptPieces (nlOf pretty) (indOf pretty) d first ((s :: unk).map Doc.raw) =
        [.text (if first then [] else pad (indOf pretty) d), y, .text ['\n']] ++
        docsXml keptPieces (nlOf pretty) (indOf pretty) d false (unk.map Doc.raw) := by
      rw [List.map_cons, docsXml, Doc.xml, hy]
    rw [hxml]
    have hold : y.All NotOldSchema := all_imp (fun _ _ h => h.2) y hall
    have htame : y.Tame := by
      subst hye
      exact notDescription_tame m ya yk hyk hall
    refine ⟨(allOf_append _ _).2 ⟨⟨trivial, hold, trivial, trivial⟩, i1⟩,
      (tameAll_append _ _).2 ⟨⟨trivial, htame, trivial, trivial⟩, i2⟩, ?_⟩
    intro a slots mis unk0 text
    obtain ⟨text', ht⟩ := i3 a slots mis (unk0 ++ [s]) (text ++ (if first then [] else pad (indOf pretty) d) ++ ['\n'])
    have hpos : 1 ≤ y.depth := by subst hye; simp [Xml.depth]
    refine ⟨text', ?_⟩
    have hkid : ∀ text, buildKid n [] d (.node t a slots mis unk0) text () y =
        .ok (some (.node t a slots mis (unk0 ++ [s]), text, ())) := by
      intro text
      subst hye
      rw [buildKid, buildChild, if_neg (by simp only [Xml.depth] at hd'; omega)]
      have hnone : makeElement n (some (Elem.node t a slots mis unk0).ty) (Xsd.elementId m) ya = none := by
        have := makeElement_isSome n (some (Elem.node t a slots mis unk0).ty) m ya
        rw [hyk] at this
        exact Option.not_isSome_iff_eq_none.1 (by rw [this]; decide)
      rw [hnone]
      simp only
      rw [if_neg (by simp only [Xml.depth] at hd'; omega), ← hs]
      rfl
    rw [List.append_assoc unk0] at ht
    refine buildKids_append ?_ ht
    simp only [buildKids, buildKid, Outcome.ok_bind]
    rw [hkid]
    rfl


/-! ### Adding the children of an element again -/

theorem addElement_taken {n : NumLib} {t : Ty} {a : Attrs} {slots : Mem → List Elem} {mis : List Elem} {unk : List Str}
    {x : Elem} {act : Act} {v : List Elem} (ht : taker t x = some act)
    (hv : act.value n [] (slots act.mem) x = .ok v) :
    addElement n [] (.node t a slots mis unk) x = .ok (.node t a (setSlot slots act.mem v) mis unk) := by
  unfold taker at ht
  unfold addElement
  cases hc : classOf t with
  | none => rw [hc] at ht; cases ht
  | some c =>
    rw [hc] at ht
    simp only at ht
    simp only [hc, ht, apply_eq, hv, Outcome.ok_bind]

theorem addElement_homeless {n : NumLib} {t : Ty} {a : Attrs} {slots : Mem → List Elem} {mis : List Elem} {unk : List Str}
    {x : Elem} (ht : taker t x = none) :
    addElement n [] (.node t a slots mis unk) x = .ok (.node t a slots (mis ++ [x]) unk) := by
  unfold taker at ht
  unfold addElement
  cases hc : classOf t with
  | none => simp only [hc]
  | some c =>
    rw [hc] at ht
    simp only at ht
    simp only [hc, ht]

/-- Adding children, member by member. -/
theorem addAll_of_foldMem {n : NumLib} {t : Ty} {a : Attrs} {unk : List Str} {slots' : Mem → List Elem} :
    ∀ {cs : List Elem} {slots : Mem → List Elem} {mis : List Elem},
    (∀ m, foldMem n t (slots m) (goesTo t m cs) = .ok (slots' m)) →
    addAll n (.node t a slots mis unk) cs = .ok (.node t a slots' (mis ++ homeless t cs) unk)
  | [], slots, mis, h => by
    have : slots = slots' := by
      funext m
      have := h m
      simpa [goesTo, foldMem] using this
    rw [this]
    simp [addAll, homeless]
  | c :: cs, slots, mis, h => by
    rw [addAll]
    rcases Option.eq_none_or_eq_some (taker t c) with ht | ⟨act, ht⟩
    · rw [addElement_homeless ht]
      simp only [Outcome.ok_bind]
      rw [addAll_of_foldMem (slots' := slots') (cs := cs)]
      · simp [homeless, ht]
      · intro m
        have := h m
        simpa [goesTo, ht] using this
    · have hm := h act.mem
      have hg : goesTo t act.mem (c :: cs) = c :: goesTo t act.mem cs := by simp [goesTo, ht]
      rw [hg, foldMem, ht] at hm
      simp only at hm
      cases hv : act.value n [] (slots act.mem) c with
      | ok v =>
        rw [hv] at hm
        simp only [Outcome.ok_bind] at hm
        rw [addElement_taken ht hv]
        simp only [Outcome.ok_bind]
        rw [addAll_of_foldMem (slots' := slots') (cs := cs)]
        · simp [homeless, ht]
        · intro m
          unfold setSlot
          by_cases hmm : m = act.mem
          · subst hmm
            rw [if_pos rfl]
            exact hm
          · rw [if_neg hmm]
            have hg' : goesTo t m (c :: cs) = goesTo t m cs := by
              unfold goesTo
              rw [List.filter_cons_of_neg]
              simp only [ht, Option.map_some, Option.some.injEq, decide_eq_true_eq]
              exact fun hx => hmm hx.symm
            rw [← hg']
            exact h m
      | throws => rw [hv] at hm; cases hm
      | ub => rw [hv] at hm; cases hm

/-- The children of an element, in the order they are written. -/
def kidsOf (c : Class) (slots : Mem → List Elem) (mis : List Elem) : List Elem :=
  c.writes.flatMap (fun w => slots w.mem) ++ mis

section
variable {n : NumLib} {t : Ty} {c : Class} {slots : Mem → List Elem} {mis : List Elem}

theorem goesTo_slots (hslots : ∀ m, ∀ x ∈ slots m, ∃ act, taker t x = some act ∧ act.mem = m) (m m' : Mem) :
    goesTo t m (slots m') = if m' = m then slots m' else [] := by
  unfold goesTo
  split
  · rename_i hm
    subst hm
    rw [List.filter_eq_self]
    intro x hx
    obtain ⟨act, h1, h2⟩ := hslots _ x hx
    simp [h1, h2]
  · rename_i hm
    rw [List.filter_eq_nil_iff]
    intro x hx
    obtain ⟨act, h1, h2⟩ := hslots _ x hx
    simp [h1, h2, hm]

theorem flatMap_if_mem {m : Mem} : ∀ {ws : List Write}, (ws.map Write.mem).Nodup → (∃ w ∈ ws, w.mem = m) →
    ws.flatMap (fun w => if w.mem = m then slots w.mem else []) = slots m
  | [], _, ⟨_, h, _⟩ => by cases h
  | w :: ws, hn, h => by
    simp only [List.map_cons, List.nodup_cons] at hn
    rw [List.flatMap_cons]
    by_cases hw : w.mem = m
    · rw [if_pos hw, hw]
      have : ws.flatMap (fun w => if w.mem = m then slots w.mem else []) = [] := by
        rw [List.flatMap_eq_nil_iff]
        intro w' hw'
        rw [if_neg]
        intro he
        exact hn.1 (List.mem_map.2 ⟨w', hw', by rw [he, hw]⟩)
      rw [this, List.append_nil]
    · rw [if_neg hw, List.nil_append]
      obtain ⟨w', hw', hm⟩ := h
      rcases List.mem_cons.1 hw' with hx | hx
      · subst hx; exact absurd hm hw
      · exact flatMap_if_mem hn.2 ⟨w', hx, hm⟩

theorem flatMap_if_none {m : Mem} : ∀ {ws : List Write}, (∀ w ∈ ws, w.mem ≠ m) →
    ws.flatMap (fun w => if w.mem = m then slots w.mem else []) = [] := by
  intro ws h
  rw [List.flatMap_eq_nil_iff]
  intro w hw
  rw [if_neg (h w hw)]

theorem goesTo_append (t : Ty) (m : Mem) (a b : List Elem) : goesTo t m (a ++ b) = goesTo t m a ++ goesTo t m b := by
  unfold goesTo
  rw [List.filter_append]

theorem goesTo_flatMap (t : Ty) (m : Mem) (f : Write → List Elem) : ∀ (ws : List Write),
    goesTo t m (ws.flatMap f) = ws.flatMap fun w => goesTo t m (f w)
  | [] => rfl
  | w :: ws => by rw [List.flatMap_cons, List.flatMap_cons, goesTo_append, goesTo_flatMap t m f ws]

/-- The write that writes a child, and how. -/
theorem write_of {x : Elem} {act : Act} (hc : classOf t = some c) (ht : taker t x = some act)
    (htext : textual t = false) (hun : t = Ty.«XalLocality» → act.mem ≠ M.«localityname») :
    ∃ w ∈ c.writes, w.mem = act.mem ∧
      ((∃ k, (act = .field act.mem k ∨ (act = .fields act.mem k ∧ k ≠ .enum)) ∧ tagOk x.ty act.mem k w = true) ∨
       (elemOk act.mem w = true ∧ (act = .one act.mem ∨ act = .many act.mem))) := by
  obtain ⟨c', test, hc', hmem, hreach, hrule, hmatch⟩ := taker_rule ht
  rw [hc] at hc'
  cases hc'
  have hw := List.all_eq_true.1 (List.all_eq_true.1 classes_written _ hmem) _ hreach
  have hself := List.all_eq_true.1 (List.all_eq_true.1 classes_self _ hmem) _ hrule
  have hnot : unwritten t (test, act) = false := by
    cases hx : unwritten t (test, act) with
    | false => rfl
    | true =>
      simp only [unwritten, Bool.and_eq_true, decide_eq_true_eq] at hx
      simp only [Prod.mk.injEq] at hx
      exact absurd (by rw [hx.2.2]; rfl) (hun hx.1)
  simp only [hnot, Bool.false_or] at hw
  simp only [htext, Bool.false_or] at hself
  have mem_tag : ∀ {ty m k w}, tagOk ty m k w = true → w.mem = m := by
    intro ty m k w h
    cases w <;> simp_all [tagOk, Write.mem]
  have mem_elem : ∀ {m w}, elemOk m w = true → w.mem = m := by
    intro m w h
    cases w <;> simp_all [elemOk, Write.mem]
  cases act with
  | field m k =>
    cases test with
    | ty t' =>
      simp only [writtenRule, List.any_eq_true] at hw
      obtain ⟨w, hw1, hw2⟩ := hw
      have hx : x.ty = t' := of_decide_eq_true hmatch
      exact ⟨w, hw1, mem_tag hw2, .inl ⟨k, .inl rfl, by rw [hx]; exact hw2⟩⟩
    | isA t' => simp [writtenRule] at hw
    | any => simp [writtenRule] at hw
  | fields m k =>
    cases test with
    | ty t' =>
      simp only [writtenRule, List.any_eq_true, Bool.and_eq_true, decide_eq_true_eq] at hw
      obtain ⟨hk, w, hw1, hw2⟩ := hw
      have hx : x.ty = t' := of_decide_eq_true hmatch
      exact ⟨w, hw1, mem_tag hw2, .inl ⟨k, .inr ⟨rfl, hk⟩, by rw [hx]; exact hw2⟩⟩
    | isA t' => simp [writtenRule] at hw
    | any => simp [writtenRule] at hw
  | one m =>
    have : c.writes.any (elemOk m) = true := by cases test <;> exact hw
    obtain ⟨w, hw1, hw2⟩ := List.any_eq_true.1 this
    exact ⟨w, hw1, mem_elem hw2, .inr ⟨hw2, .inl rfl⟩⟩
  | many m =>
    have : c.writes.any (elemOk m) = true := by cases test <;> exact hw
    obtain ⟨w, hw1, hw2⟩ := List.any_eq_true.1 this
    exact ⟨w, hw1, mem_elem hw2, .inr ⟨hw2, .inr rfl⟩⟩
  | selfText m => cases hself
  | selfPoints m => cases hself

/-- The children of a canonical element. -/
structure Placed (n : NumLib) (t : Ty) (slots : Mem → List Elem) (mis : List Elem) : Prop where
  placed : ∀ m, ∀ x ∈ slots m, ∃ act, taker t x = some act ∧ act.mem = m ∧ Settled n act x ∧
      (act.isArray = false → slots m = [x])
  locality : t = Ty.«XalLocality» → slots M.«localityname» = []
  homeless : ∀ x ∈ mis, taker t x = none

theorem foldMem_settled {m : Mem} (h : Placed n t slots mis) (htext : textual t = false) :
    foldMem n t [] (slots m) = .ok (slots m) := by
  cases hs : slots m with
  | nil => rfl
  | cons x xs =>
    obtain ⟨act, ht, hm, hset, hone⟩ := h.placed m x (by rw [hs]; simp)
    have hall : ∀ y ∈ x :: xs, taker t y = some act ∧ Settled n act y := by
      intro y hy
      obtain ⟨act', ht', hm', hset', _⟩ := h.placed m y (by rw [hs]; exact hy)
      have := taker_same ht ht' (by rw [hm, hm'])
      subst this
      exact ⟨ht', hset'⟩
    have many : ∀ (ys old : List Elem), (∀ y ∈ ys, taker t y = some act ∧ Settled n act y) → act.isArray = true →
        foldMem n t old ys = .ok (old ++ ys) := by
      intro ys
      induction ys with
      | nil => intro old _ _; simp [foldMem]
      | cons y ys ih =>
        intro old hy ha
        obtain ⟨h1, h2⟩ := hy y (by simp)
        rw [foldMem, h1]
        have hv : act.value n [] old y = .ok (old ++ [y]) := by
          cases act with
          | fields m k =>
            cases y with
            | field ty s =>
              simp only [Settled] at h2
              simp [Act.value, h2]
            | node => cases h2
          | many m => rfl
          | field m k => cases ha
          | one m => cases ha
          | selfText m => cases ha
          | selfPoints m => cases ha
        simp only [hv, Outcome.ok_bind]
        rw [ih _ (fun z hz => hy z (List.mem_cons_of_mem _ hz)) ha]
        simp
    cases ha : act.isArray with
    | true =>
      have := many (x :: xs) [] hall ha
      simpa using this
    | false =>
      have hx := hone ha
      rw [hs] at hx
      simp only [List.cons.injEq, true_and] at hx
      subst hx
      rw [foldMem, ht]
      have hv : act.value n [] [] x = .ok [x] := by
        cases act with
        | field m k =>
          cases x with
          | field ty s =>
            simp only [Settled] at hset
            simp [Act.value, single, hset]
          | node => cases hset
        | one m => rfl
        | fields m k => cases ha
        | many m => cases ha
        | selfText m => cases hset
        | selfPoints m => cases hset
      simp only [hv, Outcome.ok_bind, foldMem]

/-- A new element that is given the children of a canonical element, in the order they are written, is that
element. -/
theorem addAll_kids {a : Attrs} (hc : classOf t = some c) (htext : textual t = false) (h : Placed n t slots mis) :
    addAll n (.node t a (fun _ => []) [] []) (kidsOf c slots mis) = .ok (.node t a slots mis []) := by
  have hnd : (c.writes.map Write.mem).Nodup := by
    have := List.all_eq_true.1 classes_nodup _ (classOf_pair hc)
    simpa using this
  have hpl : ∀ m, ∀ x ∈ slots m, ∃ act, taker t x = some act ∧ act.mem = m := by
    intro m x hx
    obtain ⟨act, h1, h2, _⟩ := h.placed m x hx
    exact ⟨act, h1, h2⟩
  have hmis : ∀ m, goesTo t m mis = [] := by
    intro m
    unfold goesTo
    rw [List.filter_eq_nil_iff]
    intro x hx
    simp [h.homeless x hx]
  have hhome : homeless t (kidsOf c slots mis) = mis := by
    unfold kidsOf Dom.homeless
    rw [List.filter_append]
    have h1 : (mis.filter fun e => (taker t e).isNone) = mis := by
      rw [List.filter_eq_self]
      intro x hx
      simp [h.homeless x hx]
    have h2 : ((c.writes.flatMap fun w => slots w.mem).filter fun e => (taker t e).isNone) = [] := by
      rw [List.filter_eq_nil_iff]
      intro x hx
      obtain ⟨w, _, hx⟩ := List.mem_flatMap.1 hx
      obtain ⟨act, h1, _⟩ := hpl _ x hx
      simp [h1]
    rw [h1, h2]
    rfl
  have := addAll_of_foldMem (n := n) (t := t) (a := a) (unk := []) (slots' := slots) (cs := kidsOf c slots mis)
    (slots := fun _ => []) (mis := []) ?_
  · rw [this, hhome]
    rfl
  · intro m
    have hg : goesTo t m (kidsOf c slots mis) = slots m := by
      unfold kidsOf
      rw [goesTo_append, hmis, List.append_nil, goesTo_flatMap]
      simp only [goesTo_slots hpl]
      by_cases hw : ∃ w ∈ c.writes, w.mem = m
      · exact flatMap_if_mem hnd hw
      · rw [flatMap_if_none (fun w hw1 hw2 => hw ⟨w, hw1, hw2⟩)]
        cases hs : slots m with
        | nil => rfl
        | cons x xs =>
          exfalso
          obtain ⟨act, h1, h2, _⟩ := h.placed m x (by rw [hs]; simp)
          have hun : t = Ty.«XalLocality» → act.mem ≠ M.«localityname» := by
            intro hu1 hu2
            have hl := h.locality hu1
            rw [← hu2, h2, hs] at hl
            cases hl
          obtain ⟨w, hw1, hw2, _⟩ := write_of hc h1 htext hun
          exact hw ⟨w, hw1, by rw [hw2, h2]⟩
    rw [hg]
    exact foldMem_settled h htext

end

/-! ### What is written for the children -/

theorem rows_docsEach {R : Doc → Elem → Prop} : ∀ {xs : List Elem}, (∀ x ∈ xs, R (docOf x) x) → Rows R (docsEach xs) xs
  | [], _ => .nil
  | x :: xs, h => by
    rw [docsEach]
    exact .cons (h x (by simp)) (rows_docsEach fun y hy => h y (List.mem_cons_of_mem _ hy))

theorem texts_fields {t' : Ty} : ∀ {xs : List Elem}, (∀ x ∈ xs, ∃ s, x = .field t' s) →
    xs = (texts xs).map (Elem.field t')
  | [], _ => rfl
  | x :: xs, h => by
    obtain ⟨s, rfl⟩ := h x (by simp)
    have := texts_fields fun y hy => h y (List.mem_cons_of_mem _ hy)
    unfold texts at this ⊢
    simp only [List.filterMap_cons, List.map_cons, List.cons.injEq, true_and]
    exact this

theorem rows_map {R : Doc → Elem → Prop} {α : Type} {f : α → Doc} {g : α → Elem} : ∀ {l : List α},
    (∀ a ∈ l, R (f a) (g a)) → Rows R (l.map f) (l.map g)
  | [], _ => .nil
  | a :: l, h => .cons (h a (by simp)) (rows_map fun b hb => h b (List.mem_cons_of_mem _ hb))

theorem hands_color {n : NumLib} {pretty : Bool} {k : Nat} {t t' : Ty} {s : Str} {x : Elem}
    (h : Hands n pretty k t (.field t' s) x) : Hands n pretty k t (.color t' s) x := h

section
variable {n : NumLib} {pretty : Bool} {k : Nat} {t : Ty} {c : Class} {slots : Mem → List Elem} {mis : List Elem}

theorem rows_write (hc : classOf t = some c) (htext : textual t = false) (h : Placed n t slots mis)
    (hh : ∀ m, ∀ x ∈ slots m, Hands n pretty k t (docOf x) x) {w : Write} (hw : w ∈ c.writes) :
    Rows (Hands n pretty k t)
      (match w.valueCalls slots with
        | some cs => cs.map Call.doc
        | none => docsEach (slots w.mem)) (slots w.mem) := by
  have hnd : (c.writes.map Write.mem).Nodup := by
    have := List.all_eq_true.1 classes_nodup _ (classOf_pair hc)
    simpa using this
  have hpw := List.all_eq_true.1 classes_plain_writes _ (classOf_pair hc)
  rw [htext, Bool.false_or] at hpw
  have hpw := List.all_eq_true.1 hpw _ hw
  have hwr : ∀ x ∈ slots w.mem, ∃ act, taker t x = some act ∧ act.mem = w.mem ∧ Settled n act x ∧
      ((∃ kd, (act = .field act.mem kd ∨ (act = .fields act.mem kd ∧ kd ≠ .enum)) ∧ tagOk x.ty act.mem kd w = true) ∨
       (elemOk act.mem w = true ∧ (act = .one act.mem ∨ act = .many act.mem))) := by
    intro x hx
    obtain ⟨act, h1, h2, h3, _⟩ := h.placed _ x hx
    have hun : t = Ty.«XalLocality» → act.mem ≠ M.«localityname» := by
      intro hu1 hu2
      have hl := h.locality hu1
      rw [← hu2, h2] at hl
      rw [hl] at hx
      cases hx
    obtain ⟨w', hw1, hw2, hw3⟩ := write_of hc h1 htext hun
    have : w' = w := nodup_map_inj hnd hw1 hw (by rw [hw2, h2])
    subst this
    exact ⟨act, h1, h2, h3, hw3⟩
  have value : ∀ {t' : Ty} {kd0 : Option Kind}, (∀ ty m kd, tagOk ty m kd w = true → ty = t') →
      (∀ m, elemOk m w = false) → ∀ x ∈ slots w.mem, ∃ s, x = .field t' s := by
    intro t' _ h1 h2 x hx
    obtain ⟨act, _, _, hset, hk | ⟨hk, _⟩⟩ := hwr x hx
    · obtain ⟨kd, hact, htag⟩ := hk
      have hty := h1 _ _ _ htag
      cases x with
      | field ty s => exact ⟨s, by rw [← hty]; rfl⟩
      | node ty a sl mi un =>
        rcases hact with hact | ⟨hact, _⟩ <;> rw [hact] at hset <;> cases hset
    · rw [h2] at hk; cases hk
  cases w with
  | field m t' =>
    have hv := value (t' := t') (kd0 := none) (fun ty m kd h => by simp [tagOk] at h; exact h.2.symm) (fun m => rfl)
    show Rows _ (((texts (slots m)).map (Call.field t')).map Call.doc) (slots m)
    have he := texts_fields hv
    change slots m = _ at he
    rw [List.map_map]
    conv => arg 3; rw [he]
    refine rows_map fun s hs => ?_
    exact hh m (.field t' s) (by rw [he]; exact List.mem_map_of_mem hs)
  | enum m t' =>
    have hv := value (t' := t') (kd0 := none) (fun ty m kd h => by simp [tagOk] at h; exact h.1.1.2.symm) (fun m => rfl)
    show Rows _ ((((texts (slots m)).filter (· ≠ [])).map (Call.field t')).map Call.doc) (slots m)
    have he := texts_fields hv
    change slots m = _ at he
    have hne : (texts (slots m)).filter (· ≠ []) = texts (slots m) := by
      rw [List.filter_eq_self]
      intro s hs
      simp only [ne_eq, decide_not, Bool.not_eq_true', decide_eq_false_iff_not]
      intro h0
      subst h0
      obtain ⟨act, _, _, hset, hk | ⟨hk, _⟩⟩ := hwr (.field t' []) (by
        show _ ∈ slots m
        rw [he]; exact List.mem_map_of_mem hs)
      · obtain ⟨kd, hact, htag⟩ := hk
        simp only [tagOk, Bool.and_eq_true, decide_eq_true_eq, Option.isNone_iff_eq_none] at htag
        obtain ⟨⟨_, hkd⟩, hnone⟩ := htag
        rcases hact with hact | ⟨hact, hx⟩
        · rw [hact] at hset
          simp only [Settled, hkd, readValue] at hset
          have hn' : Xsd.enumId t' [] = none := hnone
          rw [hn'] at hset
          simp at hset
        · exact hx hkd
      · cases hk
    rw [hne, List.map_map]
    conv => arg 3; rw [he]
    refine rows_map fun s hs => ?_
    exact hh m (.field t' s) (by rw [he]; exact List.mem_map_of_mem hs)
  | color m t' =>
    have hv := value (t' := t') (kd0 := none) (fun ty m kd h => by simp [tagOk] at h; exact h.2.symm) (fun m => rfl)
    show Rows _ (((texts (slots m)).map (Call.color t')).map Call.doc) (slots m)
    have he := texts_fields hv
    change slots m = _ at he
    rw [List.map_map]
    conv => arg 3; rw [he]
    refine rows_map fun s hs => ?_
    exact hands_color (hh m (.field t' s) (by rw [he]; exact List.mem_map_of_mem hs))
  | vec3 m t' =>
    have hv := value (t' := t') (kd0 := none) (fun ty m kd h => by simp [tagOk] at h; exact h.2.symm) (fun m => rfl)
    show Rows _ (((texts (slots m)).map (Call.field t')).map Call.doc) (slots m)
    have he := texts_fields hv
    change slots m = _ at he
    rw [List.map_map]
    conv => arg 3; rw [he]
    refine rows_map fun s hs => ?_
    exact hh m (.field t' s) (by rw [he]; exact List.mem_map_of_mem hs)
  | content m b => cases hpw
  | points m => cases hpw
  | elem m => exact rows_docsEach (hh m)
  | group m g => exact rows_docsEach (hh m)
  | array m => exact rows_docsEach (hh m)
  | groupArray m g => exact rows_docsEach (hh m)

end

/-! ### The cases -/

theorem known_tame {name : Str} {attrs : List (Str × Str)} {ks : List Xml} (h : isKnown name = true) (hk : TameAll ks) :
    (Xml.elem name attrs ks).Tame := by
  rw [Xml.Tame, h]
  split
  · trivial
  · exact hk

theorem buildKnown_ok {n : NumLib} {d : Nat} {e r x : Elem} {inner text : Str} {height : Nat}
    {kids : Elem → Unit → Outcome (Option (Elem × Str × Unit))}
    (hd : e.ty = Ty.«description» → d + height ≤ 100 ∧ finishElement n e inner = .ok x)
    (hk : e.ty ≠ Ty.«description» → kids e () = .ok (some (r, text, ())) ∧ finishElement n r text = .ok x) :
    buildKnown n [] d e () inner height kids = .ok (some (x, ())) := by
  unfold buildKnown
  simp only [callAll]
  by_cases he : e.ty = Ty.«description»
  · rw [if_pos he, if_neg (by have := (hd he).1; omega), (hd he).2]
    rfl
  · rw [if_neg he, (hk he).1]
    simp only [Outcome.ok_bind, (hk he).2]

theorem readsBack_field {n : NumLib} {pretty : Bool} {k : Nat} {p : Option Ty} {t : Ty} {s : Str}
    (ht : Xsd.elementType t = .simple) (hq : Quotable s) : ReadsBack n pretty (k + 1) p (docOf (.field t s)) (.field t s) := by
  have hf := simple_facts ht
  rw [docOf]
  refine ⟨⟨hf.1, hq⟩, by omega, fun d first hd => ?_⟩
  have hfin : finishElement n (.field t []) s = .ok (.field t s) := by
    unfold finishElement
    show (if selfParsing t then _ else _) = _
    rw [hf.2.2]
    rfl
  have hkn : isKnown (Xsd.elementName t) = true := by
    unfold isKnown
    rw [hf.2.1, ht]
  have hns : NotOldSchema (Xsd.elementName t) [] := by
    intro _ h _
    cases h
  rw [Doc.xml]
  by_cases h0 : s = []
  · subst h0
    refine ⟨_, Xsd.elementName t, [], [], _, rfl, pad_space (indOf_space pretty) d, .inr ⟨by simp, rfl⟩, ⟨hns, trivial⟩, ?_, _, make_simple ht [], ?_⟩
    · exact known_tame hkn trivial
    · exact buildKnown_ok (fun _ => ⟨by simp only [depthOf]; omega, hfin⟩) (fun _ => ⟨rfl, hfin⟩)
  · refine ⟨_, Xsd.elementName t, [], [.text s], _, rfl, pad_space (indOf_space pretty) d, .inl (by simp [h0]), ⟨hns, trivial, trivial⟩, ?_, _, make_simple ht [], ?_⟩
    · exact known_tame hkn ⟨trivial, trivial⟩
    · exact buildKnown_ok (fun _ => ⟨by simp only [depthOf, Xml.depth]; omega, by simpa [renderAll, Xml.render] using hfin⟩)
        (fun _ => ⟨by simp [buildKids, buildKid], hfin⟩)

/-- An element with content: the content decides. -/
theorem readsBack_elem {n : NumLib} {pretty : Bool} {k : Nat} {p : Option Ty} {t : Ty} {c : Class} {attrs : Attributes}
    {qs : List Doc} {x : Elem} (hc : classOf t = some c) (hp : HomeType p t) (hpl : PlainAttrs attrs)
    (hold : NotOldSchema (Xsd.elementName t) attrs) (hok : OkAll keptPieces qs)
    (h : ∀ d, d + (k + 1) ≤ 100 →
      AllOf NotOldSchema (docsXml keptPieces (nlOf pretty) (indOf pretty) (d + 1) true qs) ∧
      TameAll (docsXml keptPieces (nlOf pretty) (indOf pretty) (d + 1) true qs) ∧
      ∀ a, a = (if attrs = [] then .empty else parseAttributes n (classAt t) (attrMap attrs)) →
      ∃ r text, buildKids n [] (d + 1) (.node t a (fun _ => []) [] []) (nlOf pretty) ()
        (docsXml keptPieces (nlOf pretty) (indOf pretty) (d + 1) true qs) = .ok (some (r, text, ())) ∧
        finishElement n r (if qs.isEmpty then [] else text ++ pad (indOf pretty) d) = .ok x) :
    ReadsBack n pretty (k + 1) p (.elem t attrs qs) x := by
  have hf := class_facts hc
  refine ⟨⟨hf.1, hpl, hok⟩, by omega, fun d first hd => ?_⟩
  obtain ⟨h1, h2, h3⟩ := h d hd
  obtain ⟨r, text, hb, hfin⟩ := h3 _ rfl
  have hsp : ∀ ch ∈ pad (indOf pretty) d ++ lead (indOf pretty) (d + 1) qs, xmlSpace ch = true := by
    intro ch hch
    rcases List.mem_append.1 hch with hch | hch
    · exact pad_space (indOf_space pretty) d ch hch
    · exact lead_space (indOf_space pretty) (d + 1) qs ch hch
  rw [Doc.xml]
  cases qs with
  | nil =>
    refine ⟨_, Xsd.elementName t, attrs, [], _, rfl, hsp, .inr ⟨by simp, rfl⟩, ⟨hold, trivial⟩, ?_, _, make_class hc hp attrs, ?_⟩
    · exact known_tame (class_known hc) trivial
    · simp only [docsXml, buildKids, Outcome.ok.injEq, Option.some.injEq, Prod.mk.injEq] at hb
      obtain ⟨rfl, _⟩ := hb
      exact buildKnown_ok (fun hx => absurd hx hf.2.2.2) (fun _ => ⟨rfl, hfin⟩)
  | cons q qs =>
    refine ⟨_, Xsd.elementName t, attrs, .text (nlOf pretty) :: docsXml keptPieces (nlOf pretty) (indOf pretty) (d + 1) true (q :: qs) ++
      [.text (pad (indOf pretty) d)], _, rfl, hsp, .inl (by simp), ⟨hold, ?_⟩, ?_, _, make_class hc hp attrs, ?_⟩
    · rw [List.cons_append]
      exact ⟨trivial, (allOf_append _ _).2 ⟨h1, trivial, trivial⟩⟩
    · rw [List.cons_append]
      exact known_tame (class_known hc) ⟨trivial, (tameAll_append _ _).2 ⟨h2, trivial, trivial⟩⟩
    · have hk : ∀ s : Unit, buildKids n [] (d + 1) (.node t (if attrs = [] then .empty else parseAttributes n (classAt t) (attrMap attrs)) (fun _ => []) [] []) [] s
          (.text (nlOf pretty) :: docsXml keptPieces (nlOf pretty) (indOf pretty) (d + 1) true (q :: qs) ++
          [.text (pad (indOf pretty) d)]) = .ok (some (r, text ++ pad (indOf pretty) d, ())) := by
        intro s
        rw [List.cons_append, buildKids]
        simp only [buildKid, Outcome.ok_bind, List.nil_append]
        refine buildKids_append hb ?_
        simp [buildKids, buildKid]
      exact buildKnown_ok (fun hx => absurd hx hf.2.2.2) (fun _ => ⟨hk (), hfin⟩)

theorem textual_selfParsing (t : Ty) : selfParsing t = textual t := by
  unfold selfParsing textual
  cases (decide (t = Ty.«coordinates»)) <;> cases (decide (t = Ty.«Snippet»)) <;>
    cases (decide (t = Ty.«linkSnippet»)) <;> cases (decide (t = Ty.«SimpleData»)) <;> rfl

theorem readsBack_node {n : NumLib} {pretty : Bool} {k : Nat} {p : Option Ty} {t : Ty} {a : Attrs}
    {slots : Mem → List Elem} {mis : List Elem} {unk : List Str}
    (hcls : (classOf t).isSome = true) (htext : textual t = false) (hp : HomeType p t)
    (ha : a.Canonical n (classAt t)) (hs : t = Ty.«Schema» → a.unknown.get (chars! "parent") = none)
    (h : Placed n t slots mis) (hh : ∀ m, ∀ x ∈ slots m, ReadsBack n pretty k (some t) (docOf x) x)
    (hm : ∀ x ∈ mis, ReadsBack n pretty k (some t) (docOf x) x) (hu : ∀ s ∈ unk, KeptUnknown k s) :
    ReadsBack n pretty (k + 1) p (docOf (.node t a slots mis unk)) (.node t a slots mis unk) := by
  obtain ⟨c, hc⟩ := Option.isSome_iff_exists.1 hcls
  have hco : t ≠ Ty.«coordinates» := by
    rintro rfl
    cases htext
  rw [docOf, if_neg hco, classAt_eq hc]
  rw [classAt_eq hc] at ha
  have hrows : Rows (Hands n pretty k t) ((c.writes.flatMap fun w =>
      match w.valueCalls slots with
      | some cs => cs.map Call.doc
      | none => docsEach (slots w.mem)) ++ docsEach mis) (kidsOf c slots mis) :=
    Rows.append (Rows.flatMap fun w hw => rows_write hc htext h (fun m x hx => hands_of_readsBack (hh m x hx)) hw)
      (rows_docsEach fun x hx => hands_of_readsBack (hm x hx))
  obtain ⟨r1, r2⟩ := rows_build hrows
  obtain ⟨u1, u2⟩ := raws_build (n := n) (pretty := pretty) (t := t) hu
  refine readsBack_elem hc hp (attrs_plain hc ha) (attrs_not_old hc ha hs (class_name_schema hc))
    ((okAll_append _ _ _).2 ⟨r1, u1⟩) (fun d hd => ?_)
  rw [docsXml_append]
  obtain ⟨x1, x2, x3⟩ := r2 (d + 1) true (by omega)
  obtain ⟨y1, y2, y3⟩ := u2 (d + 1) (true && ((c.writes.flatMap fun w =>
      match w.valueCalls slots with
      | some cs => cs.map Call.doc
      | none => docsEach (slots w.mem)) ++ docsEach mis).isEmpty) (by omega)
  refine ⟨(allOf_append _ _).2 ⟨x1, y1⟩, (tameAll_append _ _).2 ⟨x2, y2⟩, ?_⟩
  intro a' ha'
  rw [classAt_eq hc, attrs_read hc ha] at ha'
  subst ha'
  obtain ⟨text1, hb1⟩ := x3 (.node t a' (fun _ => []) [] []) (nlOf pretty) (.node t a' slots mis []) rfl
    (addAll_kids hc htext h)
  obtain ⟨text2, hb2⟩ := y3 a' slots mis [] text1
  refine ⟨_, text2, buildKids_append hb1 hb2, ?_⟩
  unfold finishElement
  show (if selfParsing t then _ else _) = _
  rw [textual_selfParsing, htext]
  rfl

theorem not_in_textual {t : Ty} (h : t = Ty.«Snippet» ∨ t = Ty.«linkSnippet» ∨ t = Ty.«SimpleData») :
    t ≠ Ty.«IconStyleIcon» ∧ t ≠ Ty.«Icon» ∧ t ≠ Ty.«Schema» ∧ t ≠ Ty.«coordinates» := by
  rcases h with rfl | rfl | rfl <;> decide

/-- The classes with text. -/
theorem text_class {t : Ty} (h : t = Ty.«Snippet» ∨ t = Ty.«linkSnippet» ∨ t = Ty.«SimpleData») :
    ∃ c b, classOf t = some c ∧ c.writes = [.content M.«text» b] ∧ textual t = true ∧
      ∀ a sl mi un, taker t (.node t a sl mi un) = some (.selfText M.«text») := by
  rcases h with rfl | rfl | rfl
  · refine ⟨Snippet.cls, true, classOf_snippet, rfl, rfl, fun a sl mi un => ?_⟩
    unfold taker
    rw [classOf_snippet]
    rfl
  · refine ⟨LinkSnippet.cls, true, classOf_linkSnippet, rfl, rfl, fun a sl mi un => ?_⟩
    unfold taker
    rw [classOf_linkSnippet]
    rfl
  · refine ⟨SimpleData.cls, false, classOf_simpleData, rfl, rfl, fun a sl mi un => ?_⟩
    unfold taker
    rw [classOf_simpleData]
    rfl

theorem addElement_self {n : NumLib} {t : Ty} {a : Attrs} {slots : Mem → List Elem} {mis : List Elem} {unk : List Str}
    {x : Elem} {act : Act} {v : List Elem} {cd : Str} (ht : taker t x = some act)
    (hv : act.value n cd (slots act.mem) x = .ok v) :
    addElement n cd (.node t a slots mis unk) x = .ok (.node t a (setSlot slots act.mem v) mis unk) := by
  unfold taker at ht
  unfold addElement
  cases hc : classOf t with
  | none => rw [hc] at ht; cases ht
  | some c =>
    rw [hc] at ht
    simp only at ht
    simp only [hc, ht, apply_eq, hv, Outcome.ok_bind]

theorem readsBack_text {n : NumLib} {k : Nat} {p : Option Ty} {t : Ty} {a : Attrs} {s : Str}
    (ht : t = Ty.«Snippet» ∨ t = Ty.«linkSnippet» ∨ t = Ty.«SimpleData») (ha : a.Canonical n (classAt t))
    (hq : Quotable s) :
    ReadsBack n false (k + 1) p (docOf (.node t a (textSlots s) [] [])) (.node t a (textSlots s) [] []) := by
  obtain ⟨c, b, hc, hw, htx, htake⟩ := text_class ht
  obtain ⟨hi1, hi2, hsch, hco⟩ := not_in_textual ht
  rw [classAt_eq hc] at ha
  have htexts : texts (textSlots s M.«text») = [s] := by
    unfold textSlots setSlot
    rw [if_pos rfl]
    rfl
  have hdocs : docOf (.node t a (textSlots s) [] []) = .elem t (serializeAttributes c a) [.text s] := by
    rw [docOf, if_neg hco, classAt_eq hc, hw]
    simp only [List.flatMap_cons, List.flatMap_nil, Write.valueCalls, htexts, docsEach, List.map_nil, List.append_nil]
    cases b <;> rfl
  rw [hdocs]
  refine readsBack_elem hc ⟨fun h => absurd h hi1, fun h => absurd h hi2⟩ (attrs_plain hc ha)
    (attrs_not_old hc ha (fun h => absurd h hsch) (class_name_schema hc)) ⟨hq, trivial⟩ (fun d hd => ?_)
  refine ⟨⟨trivial, trivial⟩, ⟨trivial, trivial⟩, ?_⟩
  intro a' ha'
  rw [classAt_eq hc, attrs_read hc ha] at ha'
  subst ha'
  refine ⟨.node t a' (fun _ => []) [] [], s, rfl, ?_⟩
  have hpad : pad (indOf false) d = [] := pad_nil d
  show finishElement n _ (s ++ pad (indOf false) d) = _
  rw [hpad, List.append_nil]
  unfold finishElement
  show (if selfParsing t then _ else _) = _
  rw [textual_selfParsing, htx]
  exact addElement_self (htake _ _ _ _) rfl

theorem point_plain {n : NumLib} {v : Coords.Vec3} (h : Coords.IsPoint n v) :
    ∀ c ∈ pointText v, legalChar c = true ∧ c ≠ '<' ∧ c ≠ '&' ∧ c ≠ '>' := by
  have hnum : ∀ s, n.num s = s → ∀ c ∈ s, legalChar c = true ∧ c ≠ '<' ∧ c ≠ '&' ∧ c ≠ '>' := by
    intro s hs c hc
    have := (n.num_text s).2.1 c (by rw [hs]; exact hc)
    rcases this with hd | rfl | rfl | rfl | rfl
    · simp only [isDigit, Bool.and_eq_true, decide_eq_true_eq] at hd
      refine ⟨?_, ?_, ?_, ?_⟩
      · simp only [legalChar, Bool.or_eq_true, Bool.and_eq_true, decide_eq_true_eq]
        right
        refine ⟨⟨by omega, ?_⟩, ?_⟩
        · simp only [ne_eq]; omega
        · simp only [ne_eq]; omega
      all_goals rintro rfl; revert hd; decide
    all_goals decide
  intro c hc
  unfold pointText at hc
  simp only [List.append_assoc, List.cons_append, List.mem_append, List.mem_cons] at hc
  rcases hc with hc | rfl | hc | rfl | hc
  · exact hnum _ h.1 c hc
  · decide
  · exact hnum _ h.2.1 c hc
  · decide
  · exact hnum _ h.2.2 c hc


theorem pad_spaces (d : Nat) : pad (chars! "  ") d = List.replicate (2 * d) ' ' := by
  unfold pad
  induction d with
  | zero => rfl
  | succ d ih =>
    rw [List.replicate_succ, List.flatten_cons, ih, show 2 * (d + 1) = 2 * d + 1 + 1 by omega, List.replicate_succ,
      List.replicate_succ]
    rfl

theorem pointText_same {v w : Coords.Vec3} (h : v.same w = true) : pointText w = pointText v := by
  simp only [Coords.Vec3.same, Bool.and_eq_true, decide_eq_true_eq] at h
  unfold pointText
  rw [h.1.1, h.1.2, h.2]

theorem content_length (nl ind out : Str) (pts : List Coords.Vec3) :
    pts.length ≤ (Coords.content nl ind out pts).length := by
  unfold Coords.content
  split
  · rename_i h; rw [h]; simp
  · have : ∀ l : List Coords.Vec3, l.length ≤ (l.flatMap (Coords.saveVec3 nl ind)).length := by
      intro l
      induction l with
      | nil => simp
      | cons v l ih =>
        have h1 : 1 ≤ (Coords.saveVec3 nl ind v).length := by
          simp only [Coords.saveVec3, List.length_append, List.length_cons]
          omega
        rw [List.flatMap_cons, List.length_append, List.length_cons]
        omega
    have h2 := this pts
    simp only [List.length_append]
    omega

theorem readPoints_written {n : NumLib} {pretty : Bool} {pts : List Coords.Vec3} (d : Nat)
    (h : ∀ v ∈ pts, Coords.IsPoint n v) (h1 : pretty = true ∨ pts.length ≤ 1) :
    readPoints n (Coords.content (nlOf pretty) (pad (indOf pretty) (d + 1)) (pad (indOf pretty) d) pts) =
      .ok (pts.map fun v => .field Ty.Unknown (pointText v)) := by
  unfold readPoints
  cases pretty with
  | true =>
    have hp : ∀ d, pad (indOf true) d = List.replicate (2 * d) ' ' := pad_spaces
    rw [hp, hp]
    show (match Coords.parse n _ (Coords.content ['\n'] _ _ pts) [] with | some r => _ | none => _) = _
    obtain ⟨back, hb, hlen, hsame⟩ := Coords.C24_pretty_partial n pts h d _ (content_length ['\n'] (List.replicate (2 * (d + 1)) ' ')
      (List.replicate (2 * d) ' ') pts)
    have hb' : Coords.parse n (Coords.content (nlOf true) (List.replicate (2 * (d + 1)) ' ') (List.replicate (2 * d) ' ') pts).length
      (Coords.content ['\n'] (List.replicate (2 * (d + 1)) ' ') (List.replicate (2 * d) ' ') pts) [] = some (.ok back) := hb
    rw [hb']
    simp only [Outcome.ok_bind, Outcome.ok.injEq]
    refine List.ext_getElem (by simp [hlen]) ?_
    intro i h1 h2
    simp only [List.length_map] at h1 h2
    simp only [List.getElem_map, Elem.field.injEq, true_and]
    exact pointText_same (hsame i h2 h1).1
  | false =>
    rcases h1 with h1 | h1
    · cases h1
    · have hp : ∀ d, pad (indOf false) d = [] := pad_nil
      rw [hp, hp]
      match pts, h, h1 with
      | [], _, _ => rfl
      | [v], h, _ =>
        have hv := Coords.parseVec3_written n v (h v (by simp)) (Coords.content [] [] [] [v]) [] (Or.inl rfl) (by
          obtain ⟨c, r, hr, hc⟩ := Coords.numText_start ((h v (by simp)).1 ▸ n.num_text _ : IsNumText v.lon)
          have : Coords.content [] [] [] [v] = v.lon ++ ',' :: (v.lat ++ ',' :: (v.alt ++ '\n' :: [])) := by
            simp [Coords.content, Coords.saveVec3]
          rw [this, hr, List.cons_append, Coords.skipJunk_stop hc])
        have hl := content_length [] [] [] [v]
        show (match Coords.parse n (Coords.content [] [] [] [v]).length (Coords.content [] [] [] [v]) [] with | some r => _ | none => _) = _
        rcases hcc : Coords.content [] [] [] [v] with _ | ⟨c, s⟩
        · rw [hcc] at hl; simp at hl
        · rw [hcc] at hv
          rw [List.length_cons]
          simp only [Coords.parse, hv]
          cases s with
          | nil => rfl
          | cons => rfl

theorem content_text (pretty : Bool) (d : Nat) : ∀ (pts : List Coords.Vec3) (first : Bool) (n : NumLib) (dd : Nat) (cur : Elem) (text : Str),
    buildKids n [] dd cur text () (docsXml keptPieces (nlOf pretty) (indOf pretty) d first (pts.map fun v => .point (pointText v))) =
      .ok (some (cur, text ++ pts.flatMap (Coords.saveVec3 (nlOf pretty) (pad (indOf pretty) d)), ()))
  | [], first, n, dd, cur, text => by simp [docsXml, buildKids]
  | v :: pts, first, n, dd, cur, text => by
    rw [List.map_cons, docsXml, Doc.xml]
    simp only [List.cons_append, List.nil_append, buildKids, buildKid, Outcome.ok_bind]
    rw [content_text pretty d pts false n dd cur]
    simp [Coords.saveVec3, pointText]

theorem points_old (pretty : Bool) (d : Nat) : ∀ (pts : List Coords.Vec3) (first : Bool),
    AllOf NotOldSchema (docsXml keptPieces (nlOf pretty) (indOf pretty) d first (pts.map fun v => .point (pointText v))) ∧
    TameAll (docsXml keptPieces (nlOf pretty) (indOf pretty) d first (pts.map fun v => .point (pointText v)))
  | [], _ => ⟨trivial, trivial⟩
  | v :: pts, first => by
    rw [List.map_cons, docsXml, Doc.xml]
    exact ⟨⟨trivial, (points_old pretty d pts false).1⟩, ⟨trivial, (points_old pretty d pts false).2⟩⟩

theorem points_ok {n : NumLib} : ∀ {pts : List Coords.Vec3}, (∀ v ∈ pts, Coords.IsPoint n v) →
    OkAll keptPieces (pts.map fun v => .point (pointText v))
  | [], _ => trivial
  | v :: pts, h => ⟨point_plain (h v (by simp)), points_ok fun w hw => h w (List.mem_cons_of_mem _ hw)⟩

theorem readsBack_points {n : NumLib} {pretty : Bool} {k : Nat} {p : Option Ty} {pts : List Coords.Vec3}
    (h : ∀ v ∈ pts, Coords.IsPoint n v) (h1 : pretty = true ∨ pts.length ≤ 1) :
    ReadsBack n pretty (k + 1) p (docOf (.node Ty.«coordinates» .empty (pointSlots pts) [] []))
      (.node Ty.«coordinates» .empty (pointSlots pts) [] []) := by
  have hslot : texts (pointSlots pts M.«coordinates_array») = pts.map pointText := by
    unfold pointSlots setSlot texts
    rw [if_pos rfl, List.filterMap_map]
    induction pts with
    | nil => rfl
    | cons v pts ih =>
      simp only [List.filterMap_cons, Function.comp, List.map_cons, List.cons.injEq, true_and]
      exact ih (fun w hw => h w (List.mem_cons_of_mem _ hw)) (h1.imp id (fun h => by simp at h ⊢; simp [h]))
  have hdocs : docOf (.node Ty.«coordinates» .empty (pointSlots pts) [] []) =
      .elem Ty.«coordinates» [] (pts.map fun v => .point (pointText v)) := by
    rw [docOf, if_pos rfl, classAt_eq classOf_coordinates, show Coordinates.cls.writes = Coordinates.writes from rfl]
    simp only [Coordinates.writes, List.flatMap_cons, List.flatMap_nil, Write.valueCalls, hslot, List.append_nil,
      List.map_map]
    rfl
  rw [hdocs]
  refine readsBack_elem classOf_coordinates ⟨fun h => absurd h (by decide), fun h => absurd h (by decide)⟩
    ⟨List.nodup_nil, fun e he => by cases he⟩ (fun _ h _ => by cases h) (points_ok h) (fun d hd => ?_)
  refine ⟨(points_old pretty (d + 1) pts true).1, (points_old pretty (d + 1) pts true).2, ?_⟩
  intro a' ha'
  rw [if_pos rfl] at ha'
  subst ha'
  refine ⟨_, _, content_text pretty (d + 1) pts true n (d + 1) _ _, ?_⟩
  have htext : (if (pts.map fun v => Doc.point (pointText v)).isEmpty = true then [] else
      nlOf pretty ++ pts.flatMap (Coords.saveVec3 (nlOf pretty) (pad (indOf pretty) (d + 1))) ++ pad (indOf pretty) d) =
      Coords.content (nlOf pretty) (pad (indOf pretty) (d + 1)) (pad (indOf pretty) d) pts := by
    unfold Coords.content
    cases pts <;> simp
  rw [htext]
  have hr := readPoints_written d h h1
  unfold finishElement
  have hty : selfParsing (Elem.node Ty.«coordinates» Attrs.empty (fun _ => []) [] []).ty = true := rfl
  rw [if_pos hty]
  refine addElement_self (act := .selfPoints M.«coordinates_array») ?_ ?_
  · unfold taker
    rw [classOf_coordinates]
    rfl
  · simp only [Act.value, hr, Outcome.ok_bind, List.nil_append]

/-- Every canonical element is read back. -/
theorem canonical_readsBack {n : NumLib} {pretty : Bool} {k : Nat} {p : Option Ty} {x : Elem}
    (h : Canonical n pretty k p x) : ReadsBack n pretty k p (docOf x) x := by
  induction h with
  | field ht hq => exact readsBack_field ht hq
  | node hc ht hp ha hs hpl hl hm _ _ hu ih1 ih2 => exact readsBack_node hc ht hp ha hs ⟨hpl, hl, hm⟩ ih1 ih2 hu
  | text ht hpr ha hq => subst hpr; exact readsBack_text ht ha hq
  | points h h1 => exact readsBack_points h h1

/-- A root written as an empty-element tag. -/
theorem parse_empty {n : NumLib} {name : Str} {attrs : List (Str × Str)} {e : Elem}
    (h : parseEvents n [] () (Xml.elem name attrs []).events = .ok (some e, ())) :
    parseEvents n [] () (Xml.empty name attrs).events = .ok (some e, ()) := by
  simp only [Xml.events, eventsOf, List.cons_append, List.nil_append, parseEvents, Handler.run, Handler.step] at h ⊢
  cases h1 : (Handler.init ()).startElement n [] name attrs with
  | ok h' =>
    rw [h1] at h
    simp only [Outcome.ok_bind] at h ⊢
    cases h2 : h'.stopped with
    | true =>
      rw [h2] at h
      simp [h2] at h
    | false =>
      rw [h2] at h
      simp only [Bool.false_eq_true, if_false] at h
      exact h
  | throws => rw [h1] at h; cases h
  | ub => rw [h1] at h; cases h

/-- The whole way: written, read as XML, parsed. -/
theorem canonical_round {n : NumLib} {pretty : Bool} {e : Elem} (h : Canonical n pretty 100 none e) :
    ∃ out x w, serialize (nlOf pretty) (indOf pretty) e = .ok out ∧ (∀ c ∈ w, xmlSpace c = true) ∧
      readXml out = some (charEvents w ++ Xml.events x ++ charEvents (nlOf pretty)) ∧
      parseEvents n [] () x.events = .ok (some e, ()) := by
  obtain ⟨hok, _, hb⟩ := canonical_readsBack h
  obtain ⟨w, name, attrs, ks, X, hx, hws, hX, hold, htame, e0, hmake, hbk⟩ := hb 0 false (by omega)
  have hnl : ∀ c ∈ nlOf pretty, xmlSpace c = true := by cases pretty <;> decide
  have hind := indOf_space pretty
  obtain ⟨j, hj⟩ := reads_doc hnl hind (docOf e) hok 0 false 0
  refine ⟨_, X, w, serialize_eq _ _ e, hws, ?_, ?_⟩
  · rw [readXml_of_reads hj, hx]
    simp [eventsOf, Xml.events]
  · have hroot : buildRoot n [] () name attrs ks = .ok (some (e, ())) := by
      unfold buildRoot
      rw [hmake]
      exact hbk
    have hp := parse_of_buildRoot hold htame hroot
    rcases hX with rfl | ⟨rfl, rfl⟩
    · exact hp
    · exact parse_empty hp

end Kml.Dom
