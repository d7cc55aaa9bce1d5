import Verif.Model.Making
import Verif.Props.RoundTrip
import Verif.Lemmas.HeldValues
import Verif.Lemmas.Faithful
/-! Elements that are made by setting members are as the parser leaves them. -/
namespace Kml.Dom
open Kml

/-- A text of a number as the library writes it. -/
def Written (n : NumLib) (s : Str) : Prop := n.num s = s

variable {n : NumLib} {pretty : Bool} {k : Nat} {p : Option Ty} {t : Ty} {e x : Elem} {m : Mem}

/-- What a new element of a type needs to be one that can be written and read. -/
def plainType (t : Ty) : Bool :=
  (classOf t).isSome && !textual t && decide (t ≠ Ty.«IconStyleIcon») && decide (t ≠ Ty.«Icon») && decide (t ≠ Ty.«Schema») &&
    decide (t ≠ Ty.«XalLocality»)

theorem plainType_iff : plainType t = true ↔ (classOf t).isSome = true ∧ textual t = false ∧ t ≠ Ty.«IconStyleIcon» ∧ t ≠ Ty.«Icon» ∧
    t ≠ Ty.«Schema» ∧ t ≠ Ty.«XalLocality» := by
  unfold plainType
  rw [Bool.and_eq_true, Bool.and_eq_true, Bool.and_eq_true, Bool.and_eq_true, Bool.and_eq_true, decide_eq_true_iff, decide_eq_true_iff,
    decide_eq_true_iff, decide_eq_true_iff, Bool.not_eq_true', and_assoc, and_assoc, and_assoc, and_assoc]

theorem new_canonical (h : plainType t = true) : Canonical n pretty (k + 1) p (newNode t) := by
  obtain ⟨h1, h2, h3, h4, h5, h6⟩ := plainType_iff.1 h
  exact .node h1 h2 ⟨fun h => absurd h h3, fun h => absurd h h4⟩ (attrs_empty_canonical _ _) (fun h => absurd h h5)
    (by intro m x hx; cases hx) (fun h => absurd h h6) (by intro x hx; cases hx) (by intro m x hx; cases hx) (by intro x hx; cases hx)
    (by intro x hx; cases hx)

theorem setOne_ty (e : Elem) (m : Mem) (x : Elem) : (e.setOne m x).ty = e.ty := by cases e <;> rfl

theorem setSimple_ty (e : Elem) (m : Mem) (t : Ty) (v : Str) : (e.setSimple m t v).ty = e.ty := by cases e <;> rfl

theorem addItem_ty (e : Elem) (m : Mem) (x : Elem) : (e.addItem m x).ty = e.ty := by cases e <;> rfl

theorem setKnown_ty (e : Elem) (k v : Str) : (e.setKnown k v).ty = e.ty := by cases e <;> rfl

/-- The members of an element that holds one, changed. -/
theorem put_canonical {a : Attrs} {slots : Mem → List Elem} {mis : List Elem} {unk : List Str} {l : List Elem}
    (h : Canonical n pretty (k + 1) p (.node t a slots mis unk)) (ht : plainType t = true)
    (hl : ∀ x ∈ l, (∃ act, taker t x = some act ∧ act.mem = m ∧ Settled n act x ∧ (act.isArray = false → l = [x])) ∧
      Canonical n pretty k (some t) x) : Canonical n pretty (k + 1) p (.node t a (setSlot slots m l) mis unk) := by
  obtain ⟨h1, h2, h3, h4, h5, h6⟩ := plainType_iff.1 ht
  cases h with
  | text htext => rcases htext with rfl | rfl | rfl <;> cases h2
  | points => cases h2
  | node _ _ hh ha hsch hp _ hmis hk hkm hu =>
    refine .node h1 h2 hh ha hsch ?_ (fun h => absurd h h6) hmis ?_ hkm hu
    · intro m' x hx
      unfold setSlot at hx ⊢
      by_cases hm : m' = m
      · rw [if_pos hm] at hx ⊢
        obtain ⟨⟨act, b1, b2, b3, b4⟩, _⟩ := hl x hx
        exact ⟨act, b1, b2.trans hm.symm, b3, b4⟩
      · rw [if_neg hm] at hx ⊢
        exact hp m' x hx
    · intro m' x hx
      unfold setSlot at hx
      by_cases hm : m' = m
      · rw [if_pos hm] at hx
        exact (hl x hx).2
      · rw [if_neg hm] at hx
        exact hk m' x hx

theorem setOne_canonical (h : Canonical n pretty (k + 1) p e) (ht : plainType e.ty = true) (hx : taker e.ty x = some (.one m))
    (hc : Canonical n pretty k (some e.ty) x) : Canonical n pretty (k + 1) p (e.setOne m x) := by
  cases e with
  | field t s => exact h
  | node t a slots mis unk =>
    refine put_canonical h ht ?_
    intro y hy
    rw [List.mem_singleton.1 hy]
    exact ⟨⟨_, hx, rfl, trivial, fun _ => rfl⟩, hc⟩

theorem setSimple_canonical {t' : Ty} {v : Str} {kind : Kind} (h : Canonical n pretty (k + 2) p e) (ht : plainType e.ty = true)
    (hx : taker e.ty (.field t' []) = some (.field m kind)) (hs : Xsd.elementType t' = .simple)
    (hr : readValue n kind t' none v = .ok (some v)) (hq : Quotable v) : Canonical n pretty (k + 2) p (e.setSimple m t' v) := by
  cases e with
  | field t s => exact h
  | node t a slots mis unk =>
    refine put_canonical h ht ?_
    intro y hy
    rw [List.mem_singleton.1 hy]
    exact ⟨⟨_, (taker_field ..).trans hx, rfl, hr, fun _ => rfl⟩, .field hs hq⟩

theorem addItem_canonical (h : Canonical n pretty (k + 1) p e) (ht : plainType e.ty = true) (hx : taker e.ty x = some (.many m))
    (hc : Canonical n pretty k (some e.ty) x) : Canonical n pretty (k + 1) p (e.addItem m x) := by
  cases e with
  | field t s => exact h
  | node t a slots mis unk =>
    have h2 := (plainType_iff.1 ht).2.1
    refine put_canonical h ht ?_
    intro y hy
    rcases List.mem_append.1 hy with hy | hy
    · cases h with
      | text htext =>
        have h2 : textual t = false := h2
        rcases htext with rfl | rfl | rfl <;> cases h2
      | points => cases h2
      | node _ _ _ _ _ hp _ _ hk _ _ =>
        obtain ⟨act, b1, b2, b3, b4⟩ := hp m y hy
        have : act = .many m := taker_same b1 hx b2
        subst this
        exact ⟨⟨_, b1, rfl, b3, fun h => by cases h⟩, hk m y hy⟩
    · rw [List.mem_singleton.1 hy]
      exact ⟨⟨_, hx, rfl, trivial, fun h => by cases h⟩, hc⟩

theorem entry_set {β : Type} {m : StdMap β} {k : Str} {v : β} {e : Str × β} (h : e ∈ m.set k v) : e = (k, v) ∨ e ∈ m := by
  induction m with
  | nil => exact .inl (List.mem_singleton.1 h)
  | cons x m ih =>
    unfold StdMap.set at h
    split at h
    · rcases List.mem_cons.1 h with h | h
      · exact .inl h
      · exact .inr (List.mem_cons_of_mem _ h)
    · split at h
      · rcases List.mem_cons.1 h with h | h
        · exact .inl h
        · exact .inr h
      · rcases List.mem_cons.1 h with h | h
        · exact .inr (by rw [h]; exact List.mem_cons_self ..)
        · rcases ih h with h | h
          · exact .inl h
          · exact .inr (List.mem_cons_of_mem _ h)

theorem setKnown_canonical {key v : Str} (h : Canonical n pretty (k + 1) p e) (ht : plainType e.ty = true)
    (hk : (key, AttrKind.str) ∈ (classAt e.ty).reads) (hv : PlainAttr v) : Canonical n pretty (k + 1) p (e.setKnown key v) := by
  cases e with
  | field t s => exact h
  | node t a slots mis unk =>
    have h2 := (plainType_iff.1 ht).2.1
    cases h with
    | text htext =>
      have h2 : textual t = false := h2
      rcases htext with rfl | rfl | rfl <;> cases h2
    | points => cases h2
    | node c1 c2 c3 c4 c5 c6 c7 c8 c9 c10 c11 =>
      refine .node c1 c2 c3 ?_ c5 c6 c7 c8 c9 c10 c11
      refine ⟨StdMap.sorted_set c4.known_sorted _ _, c4.unknown_sorted, c4.xmlns_sorted, ?_, c4.unknown, c4.xmlns⟩
      intro e he
      rcases entry_set he with he | he
      · rw [he]
        exact ⟨hv, .str, hk, rfl⟩
      · exact c4.known e he

theorem written_read {s d : Str} {t' : Ty} (h : Written n s) : readValue n (.dbl d) t' none s = .ok (some s) := by
  have ht : IsNumText s := h ▸ n.num_text s
  unfold readValue readDouble
  simp only [num_not_blank ht]
  rw [if_neg (by decide), h]

theorem quotable_chars {s : Str} (h1 : ∀ c ∈ s, legalChar c = true) (h2 : '<' ∉ s) (h3 : '>' ∉ s) : Quotable s :=
  ⟨h1, fun _ hi => h3 (hi.subset (by decide)), fun hi => absurd (hi.subset (by decide)) h2⟩

theorem written_quotable {s : Str} (h : Written n s) : Quotable s := by
  have ht : IsNumText s := h ▸ n.num_text s
  have hd : ∀ c : Char, isDigit c = true → legalChar c = true ∧ c ≠ '<' ∧ c ≠ '>' := by
    intro c hc
    unfold isDigit at hc
    simp only [Bool.and_eq_true, decide_eq_true_eq] at hc
    refine ⟨?_, fun e => ?_, fun e => ?_⟩
    · unfold legalChar
      simp only [Bool.or_eq_true, Bool.and_eq_true, decide_eq_true_eq]
      right
      omega
    · rw [e] at hc; revert hc; decide
    · rw [e] at hc; revert hc; decide
  refine quotable_chars ?_ ?_ ?_
  · intro c hc
    rcases ht.2.1 c hc with h | rfl | rfl | rfl | rfl
    · exact (hd c h).1
    all_goals decide
  · intro hc
    rcases ht.2.1 _ hc with h | h | h | h | h
    · exact (hd _ h).2.1 rfl
    all_goals exact absurd h (by decide)
  · intro hc
    rcases ht.2.1 _ hc with h | h | h | h | h
    · exact (hd _ h).2.2 rfl
    all_goals exact absurd h (by decide)

/-- A member of a class that takes simple elements of a type. -/
def simpleField (t t' : Ty) (m : Mem) (kind : Kind) : Bool :=
  plainType t && decide (taker t (.field t' []) = some (.field m kind)) && decide (Xsd.elementType t' = .simple)

/-- A member of a class that takes elements of a type, one or many. -/
def complexField (t t' : Ty) (act : Act) : Bool := plainType t && decide (taker t (newNode t') = some act)

theorem make_text {t' : Ty} {v : Str} {kind : Kind} (t : Ty) (h : Canonical n pretty (k + 2) p e) (he : e.ty = t)
    (hf : simpleField t t' m kind = true) (hr : readValue n kind t' none v = .ok (some v)) (hq : Quotable v) :
    Canonical n pretty (k + 2) p (e.setSimple m t' v) := by
  unfold simpleField at hf
  simp only [Bool.and_eq_true, decide_eq_true_eq] at hf
  subst he
  exact setSimple_canonical h hf.1.1 hf.1.2 hf.2 hr hq

theorem make_number {t' : Ty} {v d : Str} (t : Ty) (h : Canonical n pretty (k + 2) p e) (he : e.ty = t)
    (hf : simpleField t t' m (.dbl d) = true) (hv : Written n v) : Canonical n pretty (k + 2) p (e.setSimple m t' v) :=
  make_text t h he hf (written_read hv) (written_quotable hv)

theorem taker_of {t : Ty} {a : Attrs} {slots : Mem → List Elem} {mis : List Elem} {unk : List Str} {t' : Ty} :
    taker t (.node t' a slots mis unk) = taker t (newNode t') := rfl

theorem make_child (t t' : Ty) (h : Canonical n pretty (k + 1) p e) (he : e.ty = t) (hn : x.complex = true) (hx : x.ty = t')
    (hf : complexField t t' (.one m) = true) (hc : Canonical n pretty k (some t) x) : Canonical n pretty (k + 1) p (e.setOne m x) := by
  unfold complexField at hf
  simp only [Bool.and_eq_true, decide_eq_true_eq] at hf
  subst he
  cases x with
  | field => cases hn
  | node t'' a s mi u =>
    have hx : t'' = t' := hx
    subst hx
    exact setOne_canonical h hf.1 hf.2 hc

theorem make_item (t t' : Ty) (h : Canonical n pretty (k + 1) p e) (he : e.ty = t) (hn : x.complex = true) (hx : x.ty = t')
    (hf : complexField t t' (.many m) = true) (hc : Canonical n pretty k (some t) x) : Canonical n pretty (k + 1) p (e.addItem m x) := by
  unfold complexField at hf
  simp only [Bool.and_eq_true, decide_eq_true_eq] at hf
  subst he
  cases x with
  | field => cases hn
  | node t'' a s mi u =>
    have hx : t'' = t' := hx
    subst hx
    exact addItem_canonical h hf.1 hf.2 hc

end Kml.Dom
