import Verif.Lemmas.MergeAttrs
import Verif.Lemmas.Walk

/-! What `MergeFields` does to the target. -/

namespace Kml.Dom

open Kml
open Kml.Attributes (Attributes)

theorem textual_sets (t : Ty) : textual t = true ↔
    t = Ty.«Snippet» ∨ t = Ty.«linkSnippet» ∨ t = Ty.«coordinates» ∨ t = Ty.«SimpleData» := by
  simp [textual, or_assoc]

attribute [local irreducible] kml22Elements Xsd.tagToId classes inc dec uintSize

theorem mergeRun_append (n : NumLib) : ∀ (xs ys : List Call) (e : Elem),
    mergeRun n e (xs ++ ys) = (mergeRun n e xs >>= fun e => mergeRun n e ys)
  | [], ys, e => rfl
  | x :: xs, ys, e => by
    rw [List.cons_append, mergeRun, mergeRun]
    cases mergeCall n e x with
    | ok e' => simp only [Outcome.ok_bind]; exact mergeRun_append n xs ys e'
    | throws => rfl
    | ub => rfl

/-- Calls that a `FieldMerger` takes no notice of. -/
theorem mergeRun_idle (n : NumLib) : ∀ (cs : List Call) (e : Elem),
    (∀ c ∈ cs, c = .endElem ∨ c = .indent ∨ ∃ s q, c = .content s q) → mergeRun n e cs = .ok e
  | [], e, _ => rfl
  | c :: cs, e, h => by
    rw [mergeRun]
    have : mergeCall n e c = .ok e := by
      rcases h c (by simp) with rfl | rfl | ⟨s, q, rfl⟩ <;> rfl
    rw [this]
    exact mergeRun_idle n cs e fun d hd => h d (List.mem_cons_of_mem _ hd)

theorem mergeRun_unknown (n : NumLib) (unk : List Str) (e : Elem) :
    mergeRun n e (unknownCalls unk ++ [.endElem]) = .ok e := by
  refine mergeRun_idle n _ e fun c hc => ?_
  rcases List.mem_append.1 hc with hc | hc
  · obtain ⟨s, _, hs⟩ := List.mem_flatMap.1 hc
    simp only [List.mem_cons, List.not_mem_nil, or_false] at hs
    rcases hs with rfl | rfl
    · exact .inr (.inl rfl)
    · exact .inr (.inr ⟨s, false, rfl⟩)
  · left
    simpa using hc

/-- A call that hands over a simple element. -/
def Hands1 (c : Call) (x : Elem) : Prop := ∃ t s, x = .field t s ∧ (c = .field t s ∨ c = .color t s)

theorem mergeRun_hands {n : NumLib} {cs : List Call} {xs : List Elem} (h : Each Hands1 cs xs) :
    ∀ (e : Elem), mergeRun n e cs = addAll n e xs := by
  induction h with
  | nil => intro e; rfl
  | cons hx _ ih =>
    intro e
    obtain ⟨t, s, rfl, hc⟩ := hx
    rw [mergeRun, addAll]
    have : ∀ c, (c = Call.field t s ∨ c = .color t s) → mergeCall n e c = addElement n [] e (.field t s) := by
      intro c hc
      rcases hc with rfl | rfl <;> rfl
    rw [this _ hc]
    cases addElement n [] e (.field t s) with
    | ok e' => simp only [Outcome.ok_bind]; exact ih e'
    | throws => rfl
    | ub => rfl

theorem calls_node_long (t : Ty) (a : Attrs) (sl : Mem → List Elem) (mi : List Elem) (un : List Str) (c : Call) :
    [c] ≠ calls (.node t a sl mi un) := by
  intro h
  rw [calls] at h
  split at h
  · have := congrArg List.length h
    simp at this
  · have := congrArg List.length h
    simp only [List.length_append, List.length_cons, List.length_nil] at this
    omega

theorem hands_of_pieces : ∀ {cs : List Call} {xs : List Elem}, Each PieceOf (cs.map fun c => [c]) xs → Each Hands1 cs xs
  | [], xs, h => by cases h; exact .nil
  | c :: cs, _, h => by
    cases h with
    | @cons _ x _ xs hp hr =>
    refine .cons ?_ (hands_of_pieces hr)
    rcases hp with hp | ⟨t, s, rfl, hp⟩
    · cases x with
      | field t s =>
        rw [calls] at hp
        exact ⟨t, s, rfl, .inl (List.head_eq_of_cons_eq hp)⟩
      | node t a sl mi un => exact absurd hp (calls_node_long t a sl mi un c)
    · exact ⟨t, s, rfl, .inr (List.head_eq_of_cons_eq hp)⟩

theorem valueCalls_saves (w : Write) (slots : Mem → List Elem) : (w.valueCalls slots).isSome = !w.saves := by
  cases w <;> rfl

theorem member_eq (w : Write) : w.member = w.mem := by cases w <;> rfl

/-- The simple children of an element, as they are written, and its misplaced ones. -/
def simpleKids (c : Class) (slots : Mem → List Elem) (mis : List Elem) : List Elem :=
  c.writes.flatMap (fun w => if w.saves then [] else slots w.mem) ++ mis

/-- The member is written as a value. -/
def isValue (c : Class) (m : Mem) : Bool := c.writes.any fun w => w.mem = m && !w.saves

theorem fields_of_tidy {mis : List Elem} (h : ∀ x ∈ mis, x.complex = false) :
    Each Hands1 (shallowEach mis).flatten mis := by
  induction mis with
  | nil => exact .nil
  | cons x mis ih =>
    have hx := h x (by simp)
    cases x with
    | node => cases hx
    | field t s => exact .cons ⟨t, s, rfl, .inl rfl⟩ (ih fun y hy => h y (List.mem_cons_of_mem _ hy))

section
variable {n : NumLib} {t : Ty} {c : Class} {slots : Mem → List Elem} {mis : List Elem}

/-- The simple values an element writes, and its misplaced simple children. -/
theorem hands_values (hc : classOf t = some c) (htext : textual t = false) (h : Placed n t slots mis) :
    Each Hands1 (c.writes.flatMap fun w => (w.valueCalls slots).getD [])
      (c.writes.flatMap fun w => if w.saves then [] else slots w.mem) := by
  refine Each.flatMap fun w hw => ?_
  have hp := pieces_write hc htext h hw
  unfold Write.pieces at hp
  have hv := valueCalls_saves w slots
  rcases Option.eq_none_or_eq_some (w.valueCalls slots) with h0 | ⟨cs, h0⟩
  · rw [h0] at hv ⊢
    have : w.saves = true := by cases hs : w.saves <;> simp_all
    rw [if_pos this]
    exact .nil
  · rw [h0] at hv hp ⊢
    have : w.saves = false := by cases hs : w.saves <;> simp_all
    rw [if_neg (by rw [this]; decide)]
    exact hands_of_pieces hp

theorem holdsMany_act (hc : classOf t = some c) {x : Elem} {act : Act} (ht : taker t x = some act) :
    holdsMany t act.mem = act.isArray := by
  obtain ⟨c', test, hc', hmem, _, hr, _⟩ := taker_rule ht
  rw [hc] at hc'
  cases hc'
  have h1 := List.all_eq_true.1 (List.all_eq_true.1 classes_one_act _ hmem) _ hr
  unfold holdsMany
  rw [classAt_eq hc]
  cases ha : act.isArray with
  | true =>
    rw [List.any_eq_true]
    exact ⟨_, hr, by simp [ha]⟩
  | false =>
    rw [List.any_eq_false]
    rintro r hr'
    have h2 := List.all_eq_true.1 h1 _ hr'
    simp only [Bool.or_eq_true, bne_iff_ne, beq_iff_eq] at h2
    rcases h2 with hx | hx
    · simp only [Bool.and_eq_true, decide_eq_true_eq, not_and]
      intro h; exact absurd h.symm hx
    · simp only [Bool.and_eq_true, decide_eq_true_eq, not_and]
      intro _
      rw [← hx, ha]
      decide

theorem plain_of_taker {x : Elem} {act : Act} {m : Mem} {k : Kind} (ht : taker t x = some act)
    (ha : act = .field m k ∨ act = .fields m k) : k.plain = true := by
  obtain ⟨c, test, _, hmem, _, hr, _⟩ := taker_rule ht
  have hd := List.all_eq_true.1 classes_defaults _ hmem
  simp only [Bool.and_eq_true, List.all_eq_true] at hd
  have := hd.1 _ hr
  rcases ha with rfl | rfl <;> exact this

/-- A value that is held is read the same, whatever was there before. -/
theorem readValue_over {k : Kind} {t' : Ty} {s : Str} (hk : k.plain = true) (h : readValue n k t' none s = .ok (some s))
    (old : Option Str) : readValue n k t' old s = .ok (some s) := by
  cases k with
  | str | bool | enum | color | cdata | states | vec3 => exact h
  | dbl d =>
    simp only [readValue, Outcome.ok.injEq, Option.some.injEq, Option.getD_none] at h ⊢
    have h1 : n.num s = s := by
      have := readDouble_num n (d := d) (s := s) (n.num_small d (of_decide_eq_true hk))
      rwa [h] at this
    exact readDouble_again n h1
  | int d =>
    simp only [readValue, Outcome.ok.injEq, Option.some.injEq, Option.getD_none] at h ⊢
    have h1 : n.int s = s := by
      have := readInt_int n (d := d) (s := s) (n.int_small d (of_decide_eq_true hk))
      rwa [h] at this
    exact readInt_again n h1

/-- The simple values of a member, after those of the source were added. -/
def overValues (t : Ty) (m : Mem) (new old : List Elem) : List Elem :=
  if holdsMany t m then old ++ new else if new = [] then old else new

theorem overValues_nil (t : Ty) (m : Mem) (old : List Elem) : overValues t m [] old = old := by
  unfold overValues
  split
  · simp
  · rfl

theorem foldMem_over (hc : classOf t = some c) {m : Mem} (h : Placed n t slots mis) (old : List Elem) :
    foldMem n t old (slots m) = .ok (overValues t m (slots m) old) := by
  unfold overValues
  cases hs : slots m with
  | nil => split <;> simp [foldMem]
  | cons x xs =>
    obtain ⟨act, ht, hm, hset, hone⟩ := h.placed m x (by rw [hs]; simp)
    have hmany := holdsMany_act hc ht
    rw [hm] at hmany
    rw [hmany]
    have hall : ∀ y ∈ x :: xs, taker t y = some act ∧ Settled n act y := by
      intro y hy
      obtain ⟨act', ht', hm', hset', _⟩ := h.placed m y (by rw [hs]; exact hy)
      have := taker_same ht ht' (by rw [hm, hm'])
      subst this
      exact ⟨ht', hset'⟩
    have many : ∀ (ys old : List Elem), (∀ y ∈ ys, taker t y = some act ∧ Settled n act y) → act.isArray = true →
        foldMem n t old ys = .ok (old ++ ys) := by
      intro ys
      induction ys with
      | nil => intro old _ _; simp [foldMem]
      | cons y ys ih =>
        intro old hy ha
        obtain ⟨h1, h2⟩ := hy y (by simp)
        rw [foldMem, h1]
        have hv : act.value n [] old y = .ok (old ++ [y]) := by
          cases act with
          | fields m k =>
            cases y with
            | field ty s =>
              simp only [Settled] at h2
              simp [Act.value, h2]
            | node => cases h2
          | many m => rfl
          | field m k => cases ha
          | one m => cases ha
          | selfText m => cases ha
          | selfPoints m => cases ha
        simp only [hv, Outcome.ok_bind]
        rw [ih _ (fun z hz => hy z (List.mem_cons_of_mem _ hz)) ha]
        simp
    cases ha : act.isArray with
    | true => simpa using many (x :: xs) old hall ha
    | false =>
      have hx := hone ha
      rw [hs] at hx
      simp only [List.cons.injEq, true_and] at hx
      subst hx
      simp only [Bool.false_eq_true, if_false]
      rw [foldMem, ht]
      have hv : act.value n [] old x = .ok [x] := by
        cases act with
        | field m k =>
          cases x with
          | field ty s =>
            simp only [Settled] at hset
            simp only [Act.value, readValue_over (plain_of_taker ht (.inl rfl)) hset, Outcome.ok_bind]
            rfl
          | node => cases hset
        | one m => rfl
        | fields m k => cases ha
        | many m => cases ha
        | selfText m => cases hset
        | selfPoints m => cases hset
      simp only [hv, Outcome.ok_bind, foldMem]
      rfl

theorem goesTo_simple (hc : classOf t = some c) (h : Placed n t slots mis) (m : Mem) :
    goesTo t m (simpleKids c slots mis) = if isValue c m then slots m else [] := by
  have hnd := nodup_writes (classOf_pair hc)
  have hpl : ∀ m, ∀ x ∈ slots m, ∃ act, taker t x = some act ∧ act.mem = m := by
    intro m x hx
    obtain ⟨act, h1, h2, _⟩ := h.placed m x hx
    exact ⟨act, h1, h2⟩
  have hmis : goesTo t m mis = [] := by
    unfold goesTo
    rw [List.filter_eq_nil_iff]
    intro x hx
    simp [h.homeless x hx]
  unfold simpleKids
  rw [goesTo_append, hmis, List.append_nil, goesTo_flatMap]
  have hf : (fun w : Write => goesTo t m (if w.saves then [] else slots w.mem)) =
      fun w => if w.mem = m ∧ w.saves = false then slots w.mem else [] := by
    funext w
    cases hs : w.saves with
    | true => simp [goesTo]
    | false =>
      simp only [Bool.false_eq_true, if_false, goesTo_slots hpl, and_true]
  rw [hf]
  unfold isValue
  clear hf hmis
  generalize c.writes = ws at *
  induction ws with
  | nil => rfl
  | cons w ws ih =>
    simp only [List.map_cons, List.nodup_cons] at hnd
    rw [List.flatMap_cons, ih hnd.2, List.any_cons]
    by_cases hw : w.mem = m
    · have hno : (ws.any fun w => decide (w.mem = m) && !w.saves) = false := by
        rw [List.any_eq_false]
        intro w' hw'
        simp only [Bool.and_eq_true, decide_eq_true_eq, not_and]
        intro he
        exact absurd (List.mem_map.2 ⟨w', hw', by rw [he, hw]⟩) hnd.1
      rw [hno]
      cases w.saves <;> simp [hw]
    · simp [hw]

theorem homeless_simple (h : Placed n t slots mis) : homeless t (simpleKids c slots mis) = mis := by
  unfold simpleKids Dom.homeless
  rw [List.filter_append]
  have h1 : (mis.filter fun e => (taker t e).isNone) = mis := by
    rw [List.filter_eq_self]
    intro x hx
    simp [h.homeless x hx]
  have h2 : ((c.writes.flatMap fun w => if w.saves then [] else slots w.mem).filter fun e => (taker t e).isNone) = [] := by
    rw [List.filter_eq_nil_iff]
    intro x hx
    obtain ⟨w, _, hx⟩ := List.mem_flatMap.1 hx
    split at hx
    · cases hx
    · obtain ⟨act, h1, _⟩ := h.placed _ x hx
      simp [h1]
  rw [h1, h2]
  rfl

/-- The members of the target after the simple ones of the source were set. -/
def fieldSlots (t : Ty) (slots slots' : Mem → List Elem) : Mem → List Elem :=
  fun m => if isValue (classAt t) m then overValues t m (slots m) (slots' m) else slots' m

/-- `MergeFields` of an element without text. -/
theorem mergeFields_node (hc : classOf t = some c) (htext : textual t = false) (h : Placed n t slots mis)
    (hmis : ∀ x ∈ mis, x.complex = false) {a a' : Attrs} (ha : a.Held n (classAt t)) (ha' : a'.Held n (classAt t))
    (unk unk' : List Str) (slots' : Mem → List Elem) (mis' : List Elem) :
    mergeFields n (.node t a slots mis unk) (.node t a' slots' mis' unk') =
      .ok (.node t (mergedAttrs a a') (fieldSlots t slots slots') (mis' ++ mis) unk') := by
  have hnc : t ≠ Ty.«coordinates» := by rintro rfl; cases htext
  unfold mergeFields
  rw [shallowCalls, if_neg hnc]
  simp only [List.cons_append]
  rw [mergeRun]
  simp only [mergeCall, Outcome.ok_bind, mergeBegin, if_neg hnc]
  rw [reparse_merged (by rw [hc, classAt_eq hc]) ha ha', List.append_assoc, mergeRun_append]
  have hh : Each Hands1 (((classAt t).writes.flatMap fun w => (w.valueCalls slots).getD []) ++ (shallowEach mis).flatten)
      (simpleKids c slots mis) := by
    rw [classAt_eq hc]
    exact (hands_values hc htext h).append (fields_of_tidy hmis)
  rw [mergeRun_hands hh]
  have := addAll_of_foldMem (n := n) (t := t) (a := mergedAttrs a a') (unk := unk')
    (slots' := fieldSlots t slots slots') (cs := simpleKids c slots mis) (slots := slots') (mis := mis') ?_
  · rw [this, homeless_simple h]
    simp only [Outcome.ok_bind]
    exact mergeRun_unknown n unk _
  · intro m
    rw [goesTo_simple hc h, fieldSlots, classAt_eq hc]
    split
    · exact foldMem_over hc h _
    · rfl

end

theorem mergeRun_points (n : NumLib) (a : Attrs) (mis : List Elem) (unk : List Str) : ∀ (pts old : List Str),
    mergeRun n (.node Ty.«coordinates» a (pointTextSlots old) mis unk) (pts.map Call.vec3) =
      .ok (.node Ty.«coordinates» a (pointTextSlots (old ++ pts)) mis unk)
  | [], old => by rw [List.append_nil]; rfl
  | p :: pts, old => by
    rw [List.map_cons, mergeRun]
    have : mergeCall n (.node Ty.«coordinates» a (pointTextSlots old) mis unk) (.vec3 p) =
        .ok (.node Ty.«coordinates» a (pointTextSlots (old ++ [p])) mis unk) := by
      simp only [mergeCall, mergePoint, if_true]
      congr 2
      funext m
      unfold pointTextSlots setSlot
      by_cases hm : m = M.«coordinates_array»
      · simp [hm]
      · simp [hm]
    rw [this, Outcome.ok_bind, mergeRun_points n a mis unk pts (old ++ [p])]
    simp

/-- `MergeFields` of a `coordinates`. -/
theorem mergeFields_points {n : NumLib} {a a' : Attrs} (ha' : a'.Held n (classAt Ty.«coordinates»)) (pts pts' : List Str)
    (mis mis' : List Elem) (unk unk' : List Str) :
    mergeFields n (.node Ty.«coordinates» a (pointTextSlots pts) mis unk)
      (.node Ty.«coordinates» a' (pointTextSlots pts') mis' unk') =
      .ok (.node Ty.«coordinates» a' (pointTextSlots pts) mis' unk') := by
  unfold mergeFields
  have hv : texts (pointTextSlots pts M.«coordinates_array») = pts := by
    rw [show pointTextSlots pts M.«coordinates_array» = pts.map (Elem.field Ty.Unknown) from rfl, texts_map]
  rw [shallowCalls, if_pos rfl, coordinates_writes]
  simp only [List.flatMap_cons, List.flatMap_nil, Write.valueCalls, hv, List.append_nil, List.cons_append,
    Option.getD_some]
  rw [mergeRun]
  have h1 : mergeCall n (.node Ty.«coordinates» a' (pointTextSlots pts') mis' unk') (.beginElem Ty.«coordinates» []) =
      .ok (.node Ty.«coordinates» a' (pointTextSlots []) mis' unk') := by
    simp only [mergeCall, mergeBegin, if_true]
    have h2 := reparse_merged (n := n) (t := Ty.«coordinates») (c := classAt Ty.«coordinates») (a := .empty) (b := a')
      (by rw [classOf_coordinates, classAt_eq classOf_coordinates]) (empty_held n _) ha'
    rw [no_attrs] at h2
    rw [h2]
    congr 2
    funext m
    unfold pointTextSlots setSlot
    by_cases hm : m = M.«coordinates_array» <;> simp [hm]
  rw [h1, Outcome.ok_bind, mergeRun_append, mergeRun_points, Outcome.ok_bind]
  rfl

/-- `MergeFields` of an element with text. -/
theorem mergeFields_text {n : NumLib} {t : Ty} (ht : t = Ty.«Snippet» ∨ t = Ty.«linkSnippet» ∨ t = Ty.«SimpleData»)
    {a a' : Attrs} (ha : a.Held n (classAt t)) (ha' : a'.Held n (classAt t)) (slots slots' : Mem → List Elem)
    {mis : List Elem} (mis' : List Elem) (hhome : ∀ x ∈ mis, taker t x = none) (hmis : ∀ x ∈ mis, x.complex = false)
    (unk unk' : List Str) :
    mergeFields n (.node t a slots mis unk) (.node t a' slots' mis' unk') =
      .ok (.node t (mergedAttrs a a') slots' (mis' ++ mis) unk') := by
  have hnc : t ≠ Ty.«coordinates» := by rcases ht with rfl | rfl | rfl <;> decide
  obtain ⟨c, hc, _⟩ := rule_self ht a slots mis unk
  unfold mergeFields
  rw [shallowCalls, if_neg hnc]
  simp only [List.cons_append]
  rw [mergeRun]
  simp only [mergeCall, Outcome.ok_bind, mergeBegin, if_neg hnc]
  rw [reparse_merged (by rw [hc, classAt_eq hc]) ha ha', List.append_assoc, List.append_assoc, mergeRun_append]
  have h1 : ∀ e, mergeRun n e ((classAt t).writes.flatMap fun w => (w.valueCalls slots).getD []) = .ok e := by
    intro e
    refine mergeRun_idle n _ e fun c hc => ?_
    obtain ⟨w, hw, hcw⟩ := List.mem_flatMap.1 hc
    have : ∃ b, w = .content M.«text» b := by
      rcases ht with rfl | rfl | rfl
      · rw [snippet_writes] at hw; simp only [List.mem_singleton] at hw; exact ⟨_, hw⟩
      · rw [linkSnippet_writes] at hw; simp only [List.mem_singleton] at hw; exact ⟨_, hw⟩
      · rw [simpleData_writes] at hw; simp only [List.mem_singleton] at hw; exact ⟨_, hw⟩
    obtain ⟨b, rfl⟩ := this
    simp only [Write.valueCalls, Option.getD_some] at hcw
    split at hcw
    · simp only [List.mem_singleton] at hcw
      exact .inr (.inr ⟨_, _, hcw⟩)
    · obtain ⟨s, _, hs⟩ := List.mem_map.1 hcw
      exact .inr (.inr ⟨_, _, hs.symm⟩)
  rw [h1, Outcome.ok_bind, mergeRun_append, mergeRun_hands (fields_of_tidy hmis), addAll_homeless _ _ hhome,
    Outcome.ok_bind]
  exact mergeRun_unknown n unk _

end Kml.Dom
