import Verif.Model.Clone
import Verif.Spec.Clone
import Verif.Lemmas.Canonical
import Verif.Lemmas.Held

/-! Copying an element. -/

set_option linter.unusedVariables false

namespace Kml.Dom

open Kml
open Kml.Attributes (Attributes)

theorem locality_writes : ((classAt Ty.«XalLocality»).writes.all fun w => decide (w.mem ≠ M.«localityname»)) = true := by
  decide +kernel

theorem no_attrs : serializeAttributes (classAt Ty.«coordinates») .empty = [] := by decide +kernel

theorem snippet_writes : (classAt Ty.«Snippet»).writes = [.content M.«text» true] := by decide +kernel
theorem linkSnippet_writes : (classAt Ty.«linkSnippet»).writes = [.content M.«text» true] := by decide +kernel
theorem simpleData_writes : (classAt Ty.«SimpleData»).writes = [.content M.«text» false] := by decide +kernel
theorem coordinates_writes : (classAt Ty.«coordinates»).writes = [.points M.«coordinates_array»] := by decide +kernel

attribute [local irreducible] kml22Elements Xsd.tagToId classes inc dec uintSize

theorem copyAll_eq_map : ∀ (l : List Elem), copyAll l = l.map copyOf
  | [] => rfl
  | x :: l => by rw [copyAll, copyAll_eq_map l]; rfl

theorem copyOf_ty (e : Elem) : (copyOf e).ty = e.ty := by
  cases e with
  | field t s => rfl
  | node t a sl mi un => rw [copyOf]; split <;> rfl

theorem taker_copy (t : Ty) (x : Elem) : taker t (copyOf x) = taker t x := by
  cases x with
  | field t' s => rfl
  | node t' a sl mi un =>
    rw [copyOf]
    split <;> exact taker_node ..

theorem settled_copy {n : NumLib} {act : Act} {x : Elem} (h : Settled n act x) : Settled n act (copyOf x) := by
  cases x with
  | field t' s => exact h
  | node t' a sl mi un =>
    rw [copyOf]
    split <;> cases act <;> exact h

/-! ### The replicator -/

theorem Rep.run_append (n : NumLib) : ∀ (xs ys : List Call) (r : Rep),
    r.run n (xs ++ ys) = (r.run n xs).bind fun r => r.run n ys
  | [], ys, r => rfl
  | x :: xs, ys, r => by
    simp only [List.cons_append, Rep.run]
    cases r.call n x with
    | ok r' => exact Rep.run_append n xs ys r'
    | throws => rfl
    | ub => rfl

/-- The end of an element: it stays on the stack, or goes to its parent. -/
def Rep.close (n : NumLib) (stk : List Elem) (x : Elem) : Outcome Rep :=
  match stk with
  | [] => .ok ⟨[x], []⟩
  | p :: rest => (addElement n [] p x).bind fun p' => .ok ⟨p' :: rest, []⟩

theorem Rep.end_plain (n : NumLib) (x : Elem) (stk : List Elem) :
    Rep.run n ⟨x :: stk, []⟩ [.endElem] = Rep.close n stk x := by
  cases stk with
  | nil => rfl
  | cons p rest =>
    simp only [Rep.run, Rep.call, Rep.endElem, if_true, Outcome.ok_bind, Rep.close]
    cases addElement n [] p x <;> rfl

theorem Rep.run_unknown (n : NumLib) (t : Ty) (a : Attrs) (slots : Mem → List Elem) (mis : List Elem) (cd : Str)
    (rest : List Elem) : ∀ (us unk : List Str),
    Rep.run n ⟨.node t a slots mis unk :: rest, cd⟩ (unknownCalls us) = .ok ⟨.node t a slots mis (unk ++ us) :: rest, cd⟩
  | [], unk => by simp [unknownCalls, Rep.run]
  | u :: us, unk => by
    have ih := Rep.run_unknown n t a slots mis cd rest us (unk ++ [u])
    simp only [unknownCalls, List.flatMap_cons, List.cons_append, List.nil_append, Rep.run, Rep.call,
      Outcome.ok_bind, addUnknownElement] at ih ⊢
    rw [List.append_assoc] at ih
    exact ih

/-- What is written for a child gives its copy to the parent. -/
def Copies (n : NumLib) (x : Elem) : Prop :=
  ∀ p rest, Rep.run n ⟨p :: rest, []⟩ (calls x) = Rep.close n (p :: rest) (copyOf x)

/-- What is written for one child. -/
def PieceOf (cs : List Call) (x : Elem) : Prop := cs = calls x ∨ ∃ t s, x = .field t s ∧ cs = [.color t s]

/-- Lists of the same length, related element by element. -/
inductive Each {α β : Type} (R : α → β → Prop) : List α → List β → Prop
  | nil : Each R [] []
  | cons {a : α} {b : β} {as : List α} {bs : List β} : R a b → Each R as bs → Each R (a :: as) (b :: bs)

theorem Each.append {α β : Type} {R : α → β → Prop} {as as' : List α} {bs bs' : List β} (h : Each R as bs)
    (h' : Each R as' bs') : Each R (as ++ as') (bs ++ bs') := by
  induction h with
  | nil => exact h'
  | cons hr _ ih => exact .cons hr ih

theorem Each.flatMap {α β γ : Type} {R : α → β → Prop} {f : γ → List α} {g : γ → List β} {l : List γ}
    (h : ∀ c ∈ l, Each R (f c) (g c)) : Each R (l.flatMap f) (l.flatMap g) := by
  induction l with
  | nil => exact .nil
  | cons a l ih => exact (h a (by simp)).append (ih fun b hb => h b (List.mem_cons_of_mem _ hb))

theorem Each.map {α β γ : Type} {R : α → β → Prop} {f : γ → α} {g : γ → β} : ∀ {l : List γ},
    (∀ c ∈ l, R (f c) (g c)) → Each R (l.map f) (l.map g)
  | [], _ => .nil
  | a :: l, h => .cons (h a (by simp)) (Each.map fun b hb => h b (List.mem_cons_of_mem _ hb))

theorem pieces_callsEach : ∀ (xs : List Elem), Each PieceOf (callsEach xs) xs
  | [] => .nil
  | x :: xs => .cons (.inl rfl) (pieces_callsEach xs)

/-- What is written for children gives their copies to the parent, one after the other. -/
theorem Rep.run_pieces {n : NumLib} {ps : List (List Call)} {xs : List Elem} (h : Each PieceOf ps xs)
    (hx : ∀ x ∈ xs, Copies n x) : ∀ {cur r : Elem} (rest : List Elem), addAll n cur (xs.map copyOf) = .ok r →
    Rep.run n ⟨cur :: rest, []⟩ ps.flatten = .ok ⟨r :: rest, []⟩ := by
  induction h with
  | nil =>
    intro cur r rest h
    cases h
    rfl
  | @cons p x ps xs hp _ ih =>
    intro cur r rest h
    rw [List.map_cons, addAll] at h
    have hc : Rep.run n ⟨cur :: rest, []⟩ p = Rep.close n (cur :: rest) (copyOf x) := by
      rcases hp with rfl | ⟨t, s, rfl, rfl⟩
      · exact hx x (by simp) cur rest
      · exact hx (.field t s) (by simp) cur rest
    rw [List.flatten_cons, Rep.run_append, hc, Rep.close]
    cases ha : addElement n [] cur (copyOf x) with
    | ok e =>
      rw [ha] at h
      exact ih (fun y hy => hx y (List.mem_cons_of_mem _ hy)) rest h
    | throws => rw [ha] at h; cases h
    | ub => rw [ha] at h; cases h

section
variable {n : NumLib} {t : Ty} {c : Class} {slots : Mem → List Elem} {mis : List Elem}

theorem pieces_write (hc : classOf t = some c) (htext : textual t = false) (h : Placed n t slots mis)
    {w : Write} (hw : w ∈ c.writes) : Each PieceOf (w.pieces slots) (slots w.mem) := by
  have hnd : (c.writes.map Write.mem).Nodup := by
    have := List.all_eq_true.1 classes_nodup _ (classOf_pair hc)
    simpa using this
  have hpw := List.all_eq_true.1 classes_plain_writes _ (classOf_pair hc)
  rw [htext, Bool.false_or] at hpw
  have hpw := List.all_eq_true.1 hpw _ hw
  have hwr : ∀ x ∈ slots w.mem, ∃ act, taker t x = some act ∧ act.mem = w.mem ∧ Settled n act x ∧
      ((∃ kd, (act = .field act.mem kd ∨ (act = .fields act.mem kd ∧ kd ≠ .enum)) ∧ tagOk x.ty act.mem kd w = true) ∨
       (elemOk act.mem w = true ∧ (act = .one act.mem ∨ act = .many act.mem))) := by
    intro x hx
    obtain ⟨act, h1, h2, h3, _⟩ := h.placed _ x hx
    have hun : t = Ty.«XalLocality» → act.mem ≠ M.«localityname» := by
      intro hu1 hu2
      have hl := h.locality hu1
      rw [← hu2, h2] at hl
      rw [hl] at hx
      cases hx
    obtain ⟨w', hw1, hw2, hw3⟩ := write_of hc h1 htext hun
    have : w' = w := nodup_map_inj hnd hw1 hw (by rw [hw2, h2])
    subst this
    exact ⟨act, h1, h2, h3, hw3⟩
  have value : ∀ {t' : Ty}, (∀ ty m kd, tagOk ty m kd w = true → ty = t') →
      (∀ m, elemOk m w = false) → ∀ x ∈ slots w.mem, ∃ s, x = .field t' s := by
    intro t' h1 h2 x hx
    obtain ⟨act, _, _, hset, hk | ⟨hk, _⟩⟩ := hwr x hx
    · obtain ⟨kd, hact, htag⟩ := hk
      have hty := h1 _ _ _ htag
      cases x with
      | field ty s => exact ⟨s, by rw [← hty]; rfl⟩
      | node ty a sl mi un =>
        rcases hact with hact | ⟨hact, _⟩ <;> rw [hact] at hset <;> cases hset
    · rw [h2] at hk; cases hk
  have plain : ∀ {m : Mem} {t' : Ty} {f : Str → Call}, slots m = (texts (slots m)).map (Elem.field t') →
      (f = Call.field t' ∨ f = Call.color t') →
      Each PieceOf (((texts (slots m)).map f).map fun c => [c]) (slots m) := by
    intro m t' f he hf
    rw [List.map_map]
    conv => arg 3; rw [he]
    refine Each.map fun s hs => ?_
    rcases hf with rfl | rfl
    · exact .inl rfl
    · exact .inr ⟨t', s, rfl, rfl⟩
  cases w with
  | field m t' =>
    exact plain (texts_fields (value (t' := t') (fun ty m kd h => by simp [tagOk] at h; exact h.2.symm) (fun m => rfl)))
      (.inl rfl)
  | enum m t' =>
    have he := texts_fields (value (t' := t') (fun ty m kd h => by simp [tagOk] at h; exact h.1.1.2.symm) (fun m => rfl))
    change slots m = _ at he
    show Each PieceOf ((((texts (slots m)).filter (· ≠ [])).map (Call.field t')).map fun c => [c]) (slots m)
    have hne : (texts (slots m)).filter (· ≠ []) = texts (slots m) := by
      rw [List.filter_eq_self]
      intro s hs
      simp only [ne_eq, decide_not, Bool.not_eq_true', decide_eq_false_iff_not]
      intro h0
      subst h0
      obtain ⟨act, _, _, hset, hk | ⟨hk, _⟩⟩ := hwr (.field t' []) (by
        show _ ∈ slots m
        rw [he]; exact List.mem_map_of_mem hs)
      · obtain ⟨kd, hact, htag⟩ := hk
        simp only [tagOk, Bool.and_eq_true, decide_eq_true_eq, Option.isNone_iff_eq_none] at htag
        obtain ⟨⟨_, hkd⟩, hnone⟩ := htag
        rcases hact with hact | ⟨hact, hx⟩
        · rw [hact] at hset
          simp only [Settled, hkd, readValue] at hset
          have hn' : Xsd.enumId t' [] = none := hnone
          rw [hn'] at hset
          simp at hset
        · exact hx hkd
      · cases hk
    rw [hne]
    exact plain he (.inl rfl)
  | color m t' =>
    exact plain (texts_fields (value (t' := t') (fun ty m kd h => by simp [tagOk] at h; exact h.2.symm) (fun m => rfl)))
      (.inr rfl)
  | vec3 m t' =>
    exact plain (texts_fields (value (t' := t') (fun ty m kd h => by simp [tagOk] at h; exact h.2.symm) (fun m => rfl)))
      (.inl rfl)
  | content m b => cases hpw
  | points m => cases hpw
  | elem m => exact pieces_callsEach _
  | group m g => exact pieces_callsEach _
  | array m => exact pieces_callsEach _
  | groupArray m g => exact pieces_callsEach _

/-- What an element writes for its children, child by child. -/
theorem pieces_kids (hc : classOf t = some c) (htext : textual t = false) (h : Placed n t slots mis) {a : Attrs} {unk : List Str} :
    Each PieceOf (Elem.node t a slots mis unk).pieces (kidsOf c slots mis) := by
  rw [Elem.pieces, kidsOf, classAt_eq hc]
  exact (Each.flatMap fun w hw => pieces_write hc htext h hw).append (pieces_callsEach mis)

end

/-! ### The members that are written -/

/-- The members without the one that is never written. -/
def shown (t : Ty) (slots : Mem → List Elem) : Mem → List Elem :=
  fun m => if t = Ty.«XalLocality» ∧ m = M.«localityname» then [] else slots m

theorem shown_write {t : Ty} {slots : Mem → List Elem} {w : Write} (hw : w ∈ (classAt t).writes) :
    shown t slots w.mem = slots w.mem := by
  unfold shown
  rw [if_neg]
  rintro ⟨rfl, hm⟩
  have := List.all_eq_true.1 locality_writes _ hw
  exact of_decide_eq_true this hm

theorem flatMap_congr_mem {α β : Type} {f g : α → List β} : ∀ {l : List α}, (∀ a ∈ l, f a = g a) → l.flatMap f = l.flatMap g
  | [], _ => rfl
  | a :: l, h => by
    rw [List.flatMap_cons, List.flatMap_cons, h a (by simp), flatMap_congr_mem fun b hb => h b (List.mem_cons_of_mem _ hb)]

theorem pieces_shown (t : Ty) (a : Attrs) (slots : Mem → List Elem) (mis : List Elem) (unk : List Str) :
    (Elem.node t a slots mis unk).pieces = (Elem.node t a (shown t slots) mis unk).pieces := by
  simp only [Elem.pieces]
  rw [flatMap_congr_mem fun w hw => pieces_congr (shown_write hw).symm]

theorem texts_copy : ∀ (l : List Elem), texts (copyAll l) = texts l
  | [] => rfl
  | .field t s :: l => by
    have := texts_copy l
    simp only [texts, copyAll, copyOf, List.filterMap_cons] at this ⊢
    rw [this]
  | .node t a sl mi un :: l => by
    have := texts_copy l
    rw [copyAll, copyOf]
    split <;> simpa only [texts, List.filterMap_cons] using this

/-- A copy is written as the original. -/
theorem calls_copy {e : Elem} (h : Everywhere Clonable e) : calls (copyOf e) = calls e := by
  induction h with
  | field _ => rfl
  | @node t a slots mis unk hp _ _ ih ihm =>
    have each : ∀ (l : List Elem), (∀ x ∈ l, calls (copyOf x) = calls x) → callsEach (copyAll l) = callsEach l := by
      intro l
      induction l with
      | nil => intro _; rfl
      | cons x l ihl =>
        intro hl
        rw [copyAll, callsEach, callsEach, hl x (by simp), ihl fun y hy => hl y (List.mem_cons_of_mem _ hy)]
    by_cases ht : t = Ty.«coordinates»
    · subst ht
      rw [copyOf, if_pos rfl, calls, if_pos rfl, calls, if_pos rfl, coordinates_writes]
      simp only [List.flatMap_cons, List.flatMap_nil, Write.valueCalls, if_true, texts_copy]
    · rw [copyOf, if_neg ht, calls_node _ _ _ _ _ ht, calls_node _ _ _ _ _ ht]
      congr 3
      simp only [Elem.pieces]
      rw [each mis ihm]
      refine congrArg (fun l => (l ++ callsEach mis).flatten) (flatMap_congr_mem fun w hw => ?_)
      have hloc : ¬ (t = Ty.«XalLocality» ∧ w.mem = M.«localityname») := by
        rintro ⟨rfl, hm⟩
        exact of_decide_eq_true (List.all_eq_true.1 locality_writes _ hw) hm
      by_cases htx : textual t = true ∧ texts (slots w.mem) = [[]]
      · have hwr : w = .content M.«text» true := by
          have htt := htx.1
          simp only [textual, Bool.or_eq_true, decide_eq_true_eq] at htt
          rcases htt with ((rfl | rfl) | rfl) | rfl
          · rw [snippet_writes] at hw; simpa using hw
          · rw [linkSnippet_writes] at hw; simpa using hw
          · exact absurd rfl ht
          · rw [simpleData_writes] at hw
            simp only [List.mem_cons, List.not_mem_nil, or_false] at hw
            subst hw
            rcases hp.2 rfl with h0 | h0
            · have := htx.2
              rw [show slots (Write.content M.«text» false).mem = slots M.«text» from rfl, h0] at this
              cases this
            · exact absurd htx.2 h0.1
        subst hwr
        change ¬ (t = Ty.«XalLocality» ∧ M.«text» = M.«localityname») at hloc
        change textual t = true ∧ texts (slots M.«text») = [[]] at htx
        have h1 : (if t = Ty.«XalLocality» ∧ M.«text» = M.«localityname» then []
            else if textual t = true ∧ texts (slots M.«text») = [[]] then [] else copyAll (slots M.«text»)) = [] := by
          rw [if_neg hloc, if_pos htx]
        simp only [Write.pieces, Write.valueCalls]
        rw [h1, htx.2]
        rfl
      · have h2 := each (slots w.mem) (ih w.mem)
        have key : ∀ sl : Mem → List Elem, sl w.mem = copyAll (slots w.mem) → w.pieces sl = w.pieces slots := by
          intro sl h1
          unfold Write.pieces
          cases w <;> simp only [Write.mem] at h1 h2 <;>
            simp only [Write.valueCalls, Write.mem, h1, h2, texts_copy]
        refine key _ ?_
        rw [if_neg hloc, if_neg htx]

/-! ### Canonical elements -/

theorem Canonical.held {n : NumLib} {pretty : Bool} {k : Nat} {p : Option Ty} {e : Elem} (h : Canonical n pretty k p e) :
    Held n e := by
  induction h with
  | field h _ => exact .field h
  | node h1 h2 _ h4 _ h6 _ h8 _ _ _ ih ihm =>
    refine .node h1 h2 h4.held ?_ h8 ih ihm
    intro m x hx
    obtain ⟨act, g1, g2, g3, g4⟩ := h6 m x hx
    exact ⟨act, g1, g2, .inr g3, g4⟩
  | text ht _ ha _ => exact .text ht ha.held (.inr ⟨_, rfl⟩) (by intro x hx; cases hx) (by intro x hx; cases hx)
  | @points k p pts _ _ =>
    have : pointSlots pts = pointTextSlots (pts.map pointText) := by
      unfold pointSlots pointTextSlots
      rw [List.map_map]
      rfl
    rw [this]
    exact .points (empty_held _ _)

/-! ### Copying -/

/-- What is written for an element gives its copy. -/
def CopiesAt (n : NumLib) (x : Elem) : Prop :=
  ∀ stk, (stk = [] → ∃ t a sl mi un, x = .node t a sl mi un) →
    Rep.run n ⟨stk, []⟩ (calls x) = Rep.close n stk (copyOf x)

theorem CopiesAt.copies {n : NumLib} {x : Elem} (h : CopiesAt n x) : Copies n x :=
  fun p rest => h (p :: rest) (fun h => by cases h)

theorem insideCdata_self {s : Str} (h : ¬ chars! "<![CDATA[" <+: s) : insideCdata s = s := by
  unfold insideCdata
  rw [if_neg]
  rwa [List.isPrefixOf_iff_prefix]

theorem run_vec3 (n : NumLib) (stk : List Elem) : ∀ (pts old : List Str),
    Rep.run n ⟨.node Ty.«coordinates» .empty (pointTextSlots old) [] [] :: stk, []⟩ (pts.map Call.vec3) =
      .ok ⟨.node Ty.«coordinates» .empty (pointTextSlots (old ++ pts)) [] [] :: stk, []⟩
  | [], old => by simp [Rep.run]
  | p :: pts, old => by
    have ih := run_vec3 n stk pts (old ++ [p])
    rw [List.append_assoc] at ih
    rw [List.map_cons, Rep.run, Rep.call]
    simp only [if_true, Outcome.ok_bind]
    have : setSlot (pointTextSlots old) M.«coordinates_array»
        (pointTextSlots old M.«coordinates_array» ++ [Elem.field Ty.Unknown p]) = pointTextSlots (old ++ [p]) := by
      funext m
      unfold pointTextSlots setSlot
      by_cases hm : m = M.«coordinates_array» <;> simp [hm]
    rw [this]
    exact ih

theorem copyAll_fields (t : Ty) : ∀ (l : List Str), copyAll (l.map (Elem.field t)) = l.map (Elem.field t)
  | [] => rfl
  | s :: l => by rw [List.map_cons, copyAll, copyOf, copyAll_fields t l]

theorem texts_map (t : Ty) : ∀ (l : List Str), texts (l.map (Elem.field t)) = l
  | [] => rfl
  | s :: l => by
    have := texts_map t l
    simp only [texts, List.map_cons, List.filterMap_cons] at this ⊢
    rw [this]

/-- Simple children of a `SimpleData` do not disturb the text collected for it. -/
theorem Rep.run_fields {n : NumLib} {t : Ty} {a : Attrs} {slots : Mem → List Elem} {unk : List Str} (cd : Str) (rest : List Elem) :
    ∀ (xs mis : List Elem), (∀ x ∈ xs, taker t x = none) → (∀ x ∈ xs, ∃ t' s, x = .field t' s) →
    Rep.run n ⟨.node t a slots mis unk :: rest, cd⟩ (callsEach xs).flatten =
      .ok ⟨.node t a slots (mis ++ xs) unk :: rest, cd⟩
  | [], mis, _, _ => by simp [callsEach, Rep.run]
  | x :: xs, mis, h1, h2 => by
    obtain ⟨t', s, rfl⟩ := h2 x (by simp)
    have ih := Rep.run_fields (n := n) (t := t) (a := a) (slots := slots) (unk := unk) cd rest xs
      (mis ++ [.field t' s]) (fun y hy => h1 y (List.mem_cons_of_mem _ hy)) (fun y hy => h2 y (List.mem_cons_of_mem _ hy))
    rw [List.append_assoc] at ih
    rw [callsEach, List.flatten_cons, calls, List.cons_append, List.nil_append, Rep.run, Rep.call, Rep.field]
    simp only [addElement_homeless (h1 _ (List.mem_cons_self ..)), Outcome.ok_bind]
    exact ih

theorem copyAll_of_fields : ∀ {l : List Elem}, (∀ x ∈ l, ∃ t' s, x = .field t' s) → copyAll l = l
  | [], _ => rfl
  | x :: l, h => by
    obtain ⟨t', s, rfl⟩ := h x (by simp)
    rw [copyAll, copyOf, copyAll_of_fields fun y hy => h y (List.mem_cons_of_mem _ hy)]

theorem taker_snippet {t : Ty} (ht : t = Ty.«Snippet» ∨ t = Ty.«linkSnippet») (x : Elem) : taker t x ≠ none := by
  unfold taker
  rcases ht with rfl | rfl
  · rw [classOf_snippet]; exact fun h => by cases h
  · rw [classOf_linkSnippet]; exact fun h => by cases h

theorem rule_self {t : Ty} (ht : t = Ty.«Snippet» ∨ t = Ty.«linkSnippet» ∨ t = Ty.«SimpleData») (a : Attrs)
    (slots : Mem → List Elem) (mis : List Elem) (unk : List Str) :
    ∃ c, classOf t = some c ∧ findRule c.rules (.node t a slots mis unk) = some (.selfText M.«text») := by
  rcases ht with rfl | rfl | rfl
  · exact ⟨_, classOf_snippet, rfl⟩
  · exact ⟨_, classOf_linkSnippet, rfl⟩
  · exact ⟨_, classOf_simpleData, rfl⟩

theorem end_text {n : NumLib} {t : Ty} (ht : t = Ty.«Snippet» ∨ t = Ty.«linkSnippet» ∨ t = Ty.«SimpleData») (a : Attrs)
    (mis : List Elem) (unk : List Str) (s : Str) (hs : s ≠ []) (stk : List Elem) :
    Rep.run n ⟨.node t a (fun _ => []) mis unk :: stk, s⟩ [.endElem] = Rep.close n stk (.node t a (textSlots s) mis unk) := by
  obtain ⟨c, hc, hr⟩ := rule_self ht a (fun _ => []) mis unk
  have hp : Rep.parseItself n s (.node t a (fun _ => []) mis unk) = .ok (.node t a (textSlots s) mis unk) := by
    unfold Rep.parseItself
    simp only [hc, hr]
    unfold addElement
    simp only [hc, hr, apply_eq, Act.value, Outcome.ok_bind, Act.mem]
    rfl
  cases stk with
  | nil => simp only [Rep.run, Rep.call, Rep.endElem, if_neg hs, hp, Outcome.ok_bind, Rep.close]
  | cons p rest =>
    simp only [Rep.run, Rep.call, Rep.endElem, if_neg hs, hp, Outcome.ok_bind, Rep.close]
    cases addElement n [] p _ <;> rfl

/-- The start of an element with its own attributes. -/
theorem Rep.run_begin {n : NumLib} {t : Ty} {c : Class} {a : Attrs} (hc : classOf t = some c) (ha : a.Held n c) (stk : List Elem)
    (cs : List Call) : Rep.run n ⟨stk, []⟩ (.beginElem t (serializeAttributes c a) :: cs) =
      Rep.run n ⟨.node t a (fun _ => []) [] [] :: stk, []⟩ cs := by
  rw [Rep.run, Rep.call]
  simp only [hc, Outcome.ok_bind]
  rw [attrs_round hc ha]

theorem addAll_homeless {n : NumLib} {t : Ty} {a : Attrs} {slots : Mem → List Elem} {unk : List Str} :
    ∀ (xs mis : List Elem), (∀ x ∈ xs, taker t x = none) →
    addAll n (.node t a slots mis unk) xs = .ok (.node t a slots (mis ++ xs) unk)
  | [], mis, _ => by simp [addAll]
  | x :: xs, mis, h => by
    have ih := addAll_homeless (n := n) (t := t) (a := a) (slots := slots) (unk := unk) xs (mis ++ [x])
      (fun y hy => h y (List.mem_cons_of_mem _ hy))
    rw [List.append_assoc] at ih
    rw [addAll, addElement_homeless (h x (by simp))]
    exact ih

/-- What an element with text writes for its text and its children. -/
theorem text_pieces {n : NumLib} {t : Ty} {a : Attrs} {slots : Mem → List Elem} {mis : List Elem} {unk : List Str} {s0 : Str}
    (ht : t = Ty.«Snippet» ∨ t = Ty.«linkSnippet» ∨ t = Ty.«SimpleData»)
    (hs : (slots = fun _ => []) ∧ s0 = [] ∨ slots = textSlots s0)
    (hmis : ∀ x ∈ mis, taker t x = none) (ihm : ∀ x ∈ mis, Copies n x) (hcl : Clonable (.node t a slots mis unk)) (stk : List Elem) :
    Rep.run n ⟨.node t a (fun _ => []) [] [] :: stk, []⟩ (Elem.node t a slots mis unk).pieces.flatten =
      .ok ⟨.node t a (fun _ => []) (copyAll mis) [] :: stk, s0⟩ := by
  have hsn : t = Ty.«Snippet» ∨ t = Ty.«linkSnippet» → (classAt t).writes = [.content M.«text» true] →
      Rep.run n ⟨.node t a (fun _ => []) [] [] :: stk, []⟩ (Elem.node t a slots mis unk).pieces.flatten =
      .ok ⟨.node t a (fun _ => []) (copyAll mis) [] :: stk, s0⟩ := by
    intro h hw
    have hm : mis = [] := by
      cases mis with
      | nil => rfl
      | cons x xs => exact absurd (hmis x (by simp)) (taker_snippet h x)
    subst hm
    rw [Elem.pieces, hw]
    rcases hs with ⟨rfl, rfl⟩ | rfl
    · rfl
    · rfl
  rcases ht with rfl | rfl | rfl
  · exact hsn (.inl rfl) snippet_writes
  · exact hsn (.inr rfl) linkSnippet_writes
  · rw [Elem.pieces, simpleData_writes]
    rcases hs with ⟨rfl, rfl⟩ | rfl
    · have : (List.flatMap (fun w => Write.pieces (fun _ => []) w) [Write.content M.«text» false]) = [] := rfl
      rw [this, List.nil_append]
      refine Rep.run_pieces (pieces_callsEach mis) ihm stk ?_
      rw [copyAll_eq_map, addAll_homeless _ _ (fun y hy => ?_)]
      · rfl
      · obtain ⟨x, hx, rfl⟩ := List.mem_map.1 hy
        rw [taker_copy]
        exact hmis x hx
    · have hf : ∀ x ∈ mis, ∃ t' s, x = .field t' s := by
        rcases hcl.2 rfl with h | h
        · cases h
        · exact h.2
      have : (List.flatMap (fun w => Write.pieces (textSlots s0) w) [Write.content M.«text» false]) = [[.content s0 true]] := rfl
      rw [this, List.flatten_append]
      show Rep.run n _ (Call.content s0 true :: (callsEach mis).flatten) = _
      rw [Rep.run, Rep.call]
      simp only [if_true, Outcome.ok_bind, List.nil_append]
      rw [Rep.run_fields s0 stk mis [] hmis hf, copyAll_of_fields hf]
      rfl

theorem held_copies {n : NumLib} {e : Elem} (h : Held n e) : Everywhere Clonable e → CopiesAt n e := by
  induction h with
  | @field t s _ =>
    intro _ stk hs
    cases stk with
    | nil => obtain ⟨_, _, _, _, _, h⟩ := hs rfl; cases h
    | cons p rest =>
      simp only [calls, Rep.run, Rep.call, Rep.field, Rep.close, copyOf]
      cases addElement n [] p (.field t s) <;> rfl
  | @points a pts unk _ =>
    intro _ stk _
    rw [calls, if_pos rfl, coordinates_writes, copyOf, if_pos rfl]
    have hv : texts (pointTextSlots pts M.«coordinates_array») = pts := by
      rw [show pointTextSlots pts M.«coordinates_array» = pts.map (Elem.field Ty.Unknown) from rfl, texts_map]
    simp only [List.flatMap_cons, List.flatMap_nil, Write.valueCalls, hv, List.append_nil, List.cons_append]
    have hb := Rep.run_begin (n := n) classOf_coordinates (empty_held n Coordinates.cls) stk (pts.map Call.vec3 ++ [.endElem])
    rw [← classAt_eq classOf_coordinates, no_attrs] at hb
    rw [hb, Rep.run_append, points_empty, run_vec3, List.nil_append]
    show Rep.run n _ [.endElem] = _
    rw [Rep.end_plain]
    congr 2
    funext m
    unfold pointTextSlots setSlot
    by_cases hm : m = M.«coordinates_array»
    · simp only [hm, if_true, copyAll_fields]
    · simp only [hm, if_false]
  | @text t a slots mis unk ht ha hs hmis _ ihm =>
    intro hcl stk _
    obtain ⟨c, hc, _⟩ := rule_self ht a slots mis unk
    have hnc : t ≠ Ty.«coordinates» := by rcases ht with rfl | rfl | rfl <;> decide
    cases hcl with
    | node hp hsl hmi =>
    rw [calls_node _ _ _ _ _ hnc, classAt_eq hc, List.cons_append, List.cons_append, Rep.run_begin hc (classAt_eq hc ▸ ha)]
    obtain ⟨s0, hs0⟩ : ∃ s0, (slots = fun _ => []) ∧ s0 = [] ∨ slots = textSlots s0 := by
      rcases hs with hs | ⟨s, hs⟩
      · exact ⟨[], .inl ⟨hs, rfl⟩⟩
      · exact ⟨s, .inr hs⟩
    rw [Rep.run_append, Rep.run_append, text_pieces ht hs0 hmis (fun x hx => (ihm x hx (hmi x hx)).copies) hp stk]
    simp only [Outcome.bind]
    rw [Rep.run_unknown]
    simp only [List.nil_append]
    have htx : textual t = true := by rcases ht with rfl | rfl | rfl <;> rfl
    have hloc : t ≠ Ty.«XalLocality» := by rcases ht with rfl | rfl | rfl <;> decide
    have hcopy : copyOf (.node t a slots mis unk) =
        .node t a (if s0 = [] then fun _ => [] else textSlots s0) (copyAll mis) unk := by
      rw [copyOf, if_neg hnc]
      congr 1
      funext m
      rw [if_neg (fun h => hloc h.1)]
      rcases hs0 with ⟨rfl, rfl⟩ | rfl
      · simp only [if_true, copyAll]
        split <;> rfl
      · by_cases hm : m = M.«text»
        · subst hm
          by_cases h0 : s0 = []
          · subst h0
            rw [if_pos ⟨htx, rfl⟩]
            rfl
          · rw [if_neg h0, if_neg]
            · rfl
            · rintro ⟨_, h⟩
              have : [s0] = [[]] := h
              simp only [List.cons.injEq, and_true] at this
              exact h0 this
        · have h1 : textSlots s0 m = [] := if_neg hm
          rw [h1, if_neg (by rintro ⟨_, h⟩; cases h)]
          split
          · rfl
          · rw [h1]; rfl
    rw [hcopy]
    by_cases h0 : s0 = []
    · subst h0
      rw [Rep.end_plain, if_pos rfl]
    · rw [end_text ht _ _ _ _ h0, if_neg h0]
  | @node t a slots mis unk hclass htext ha hslots hmis _ _ ihs ihm =>
    intro hcl stk _
    obtain ⟨c, hc⟩ := Option.isSome_iff_exists.1 hclass
    have hnc : t ≠ Ty.«coordinates» := by rintro rfl; cases htext
    cases hcl with
    | node hp hsl hmi =>
    have hplaced : Placed n t (shown t slots) mis := by
      refine ⟨?_, ?_, hmis⟩
      · intro m x hx
        unfold shown at hx
        by_cases hl : t = Ty.«XalLocality» ∧ m = M.«localityname»
        · rw [if_pos hl] at hx; cases hx
        · rw [if_neg hl] at hx
          obtain ⟨act, h1, h2, h3, h4⟩ := hslots m x hx
          refine ⟨act, h1, h2, ?_, fun hn => by unfold shown; rw [if_neg hl]; exact h4 hn⟩
          rcases h3 with ⟨hcd, t', s, rfl⟩ | h3
          · have := hp.1 m _ hx act t' s h1 hcd rfl
            cases act with
            | field m k =>
              cases k <;> first | (cases hcd; done) | simp only [Settled, readValue, insideCdata_self this]
            | fields m k =>
              cases k <;> first | (cases hcd; done) | simp only [Settled, readValue, insideCdata_self this]
            | one m => cases hcd
            | many m => cases hcd
            | selfText m => cases hcd
            | selfPoints m => cases hcd
          · exact h3
      · intro hl
        unfold shown
        rw [if_pos ⟨hl, rfl⟩]
    have hcopy : Placed n t (fun m => (shown t slots m).map copyOf) (mis.map copyOf) := by
      refine ⟨?_, fun hl => by rw [hplaced.locality hl]; rfl, ?_⟩
      · intro m y hy
        obtain ⟨x, hx, rfl⟩ := List.mem_map.1 hy
        obtain ⟨act, h1, h2, h3, h4⟩ := hplaced.placed m x hx
        exact ⟨act, by rw [taker_copy]; exact h1, h2, settled_copy h3, fun hn => by rw [h4 hn]; rfl⟩
      · intro y hy
        obtain ⟨x, hx, rfl⟩ := List.mem_map.1 hy
        rw [taker_copy]
        exact hmis x hx
    have hkids : kidsOf c (fun m => (shown t slots m).map copyOf) (mis.map copyOf) =
        (kidsOf c (shown t slots) mis).map copyOf := by
      unfold kidsOf
      rw [List.map_append, List.map_flatMap]
    have hall : ∀ x ∈ kidsOf c (shown t slots) mis, Copies n x := by
      intro x hx
      unfold kidsOf at hx
      rcases List.mem_append.1 hx with hx | hx
      · obtain ⟨w, _, hx⟩ := List.mem_flatMap.1 hx
        unfold shown at hx
        split at hx
        · cases hx
        · exact (ihs _ x hx (hsl _ x hx)).copies
      · exact (ihm x hx (hmi x hx)).copies
    have hadd := addAll_kids (a := a) hc htext hcopy
    rw [hkids] at hadd
    rw [calls_node _ _ _ _ _ hnc, pieces_shown, classAt_eq hc, List.cons_append, List.cons_append,
      Rep.run_begin hc (classAt_eq hc ▸ ha), Rep.run_append, Rep.run_append,
      Rep.run_pieces (pieces_kids hc htext hplaced) hall stk hadd]
    simp only [Outcome.bind]
    rw [Rep.run_unknown]
    simp only [List.nil_append]
    rw [Rep.end_plain, copyOf, if_neg hnc]
    congr 2
    · funext m
      unfold shown
      rw [htext]
      simp only [Bool.false_eq_true, false_and, if_false, copyAll_eq_map]
      split <;> rfl
    · exact (copyAll_eq_map _).symm

theorem copyAll_same : ∀ {l : List Elem}, (∀ x ∈ l, copyOf x = x) → copyAll l = l
  | [], _ => rfl
  | x :: l, h => by
    rw [copyAll, h x (by simp), copyAll_same fun y hy => h y (List.mem_cons_of_mem _ hy)]

/-- An element that holds only what it writes is its own copy. -/
theorem copyOf_lossless {n : NumLib} {e : Elem} (h : Held n e) : Everywhere Lossless e → copyOf e = e := by
  induction h with
  | field _ => intro _; rfl
  | @points a pts unk _ =>
    intro hl
    cases hl with
    | node hp _ _ =>
    obtain ⟨rfl, rfl⟩ := hp.1 rfl
    rw [copyOf, if_pos rfl]
    congr 1
    funext m
    unfold pointTextSlots setSlot
    by_cases hm : m = M.«coordinates_array»
    · simp only [hm, if_true, copyAll_fields]
    · simp only [hm, if_false]
  | @text t a slots mis unk ht ha hs hmis _ ihm =>
    intro hl
    cases hl with
    | node hp hsl hmi =>
    have htx : textual t = true := by rcases ht with rfl | rfl | rfl <;> rfl
    have hloc : t ≠ Ty.«XalLocality» := by rcases ht with rfl | rfl | rfl <;> decide
    have hnc : t ≠ Ty.«coordinates» := by rcases ht with rfl | rfl | rfl <;> decide
    rw [copyOf, if_neg hnc, copyAll_same fun x hx => ihm x hx (hmi x hx)]
    congr 1
    funext m
    rw [if_neg (fun h => hloc h.1)]
    rcases hs with rfl | ⟨s, rfl⟩
    · split <;> rfl
    · by_cases hm : m = M.«text»
      · subst hm
        rw [if_neg (fun h => hp.2.2 htx h.2)]
        rfl
      · have h1 : textSlots s m = [] := if_neg hm
        rw [h1]
        split <;> rfl
  | @node t a slots mis unk hclass htext ha hslots hmis _ _ ihs ihm =>
    intro hl
    cases hl with
    | node hp hsl hmi =>
    have hnc : t ≠ Ty.«coordinates» := by rintro rfl; cases htext
    rw [copyOf, if_neg hnc, copyAll_same fun x hx => ihm x hx (hmi x hx)]
    congr 1
    funext m
    split
    · rename_i h
      rw [h.2, hp.2.1 h.1]
    · rw [htext]
      simp only [Bool.false_eq_true, false_and, if_false]
      exact copyAll_same fun x hx => ihs m x hx (hsl m x hx)

end Kml.Dom
