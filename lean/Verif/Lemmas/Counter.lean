import Verif.Model.Counter
import Verif.Spec.Counter
import Verif.Spec.Held
import Verif.Lemmas.Listen
import Verif.Lemmas.File
import Verif.Lemmas.FileObs

/-!
# Lemmas on counting
-/

namespace Kml.Dom

open Kml

attribute [local irreducible] kml22Elements Xsd.tagToId classes inc dec uintSize

/-! ## While parsing -/

theorem count_find_change (m : CountMap) (t u : Ty) (f : Nat → Nat) :
    (m.change t f).find u = if u = t then (m.find u).map f else m.find u := by
  induction m with
  | nil => simp [CountMap.change, CountMap.find]
  | cons q m ih =>
    unfold CountMap.change CountMap.find at *
    rw [List.map_cons, List.find?_cons, List.find?_cons]
    by_cases hq : q.1 = t
    · by_cases hu : q.1 = u
      · simp [hq, ← hu]
      · have : ¬ u = t := fun h => hu (hq.trans h.symm)
        simp only [hq, if_true, this, if_false] at ih ⊢
        have hne : ¬ t = u := fun h => this h.symm
        simp only [hne, decide_false]
        exact ih
    · by_cases hu : q.1 = u
      · have : ¬ u = t := fun h => hq (hu.trans h)
        simp only [if_false, hu, decide_true, this]
      · simp only [hq, hu, if_false, decide_false]
        exact ih

def countStep (m : CountMap) : Notice → Option CountMap
  | .new e => some (elementCounter.new m e).2
  | .add _ _ => some m

theorem count_listens : Listens [elementCounter] countStep where
  new s e := ⟨(fun h => by cases h), (fun s' h => by cases h; rfl)⟩
  fin s p c := rfl
  add s p c := ⟨(fun h => by cases h), (fun s' h => by cases h; rfl)⟩

theorem countStep_isSome (s : CountMap) (x : Notice) : (countStep s x).isSome = true := by cases x <;> rfl

theorem count_new (m : CountMap) (e : Elem) (t : Ty) :
    (elementCounter.new m e).2.find t = if t = e.ty then some ((m.find t).getD 0 + 1) else m.find t := by
  show CountMap.find (match m.find e.ty with
      | none => (e.ty, 1) :: m
      | some _ => m.change e.ty (· + 1)) t = _
  rcases Option.eq_none_or_eq_some (m.find e.ty) with h | ⟨k, h⟩
  · rw [h]
    by_cases ht : t = e.ty
    · subst ht
      rw [if_pos rfl, h]
      simp [CountMap.find]
    · rw [if_neg ht]
      have : ¬ e.ty = t := fun h => ht h.symm
      simp [CountMap.find, this]
  · rw [h]
    dsimp only
    rw [count_find_change]
    by_cases ht : t = e.ty
    · subst ht
      rw [if_pos rfl, if_pos rfl, h]
      rfl
    · rw [if_neg ht, if_neg ht]

theorem count_took {m m' : CountMap} {l : List Notice} (h : takeIn countStep m l = some m') (t : Ty) :
    m'.find t = if (news l).countP (fun e => e.ty = t) = 0 then m.find t
      else some ((m.find t).getD 0 + (news l).countP fun e => e.ty = t) := by
  refine takeIn_inv (fun l m' => m'.find t = if (news l).countP (fun e => e.ty = t) = 0 then m.find t
      else some ((m.find t).getD 0 + (news l).countP fun e => e.ty = t)) ?_ ?_ h
  · rfl
  · intro pre s x s' hs hx
    cases x with
    | add p c => cases hx; rw [news_add]; exact hs
    | new e =>
      cases hx
      rw [news_new, List.countP_append, count_new]
      by_cases ht : t = e.ty
      · subst ht
        rw [if_pos rfl, hs]
        simp only [List.countP_cons, List.countP_nil, decide_true, if_true]
        split <;> rename_i h0
        · rw [h0]; rfl
        · simp [Nat.add_assoc]
      · have hne : ¬ e.ty = t := fun h => ht h.symm
        rw [if_neg ht, hs]
        simp [hne]

/-! ## While writing -/

/-- The sum of a number for each call. -/
def tally (f : Call → Nat) (l : List Call) : Nat := (l.map f).sum

theorem tally_append (f : Call → Nat) (l l' : List Call) : tally f (l ++ l') = tally f l + tally f l' := by
  unfold tally; rw [List.map_append, List.sum_append]

theorem tally_cons (f : Call → Nat) (c : Call) (l : List Call) : tally f (c :: l) = f c + tally f l := by
  unfold tally; rw [List.map_cons, List.sum_cons]

theorem tally_flatten (f : Call → Nat) (l : List (List Call)) : tally f l.flatten = (l.map (tally f)).sum := by
  induction l with
  | nil => rfl
  | cons x l ih => rw [List.flatten_cons, tally_append, ih, List.map_cons, List.sum_cons]

theorem tally_flatMap {α : Type} (f : Call → Nat) (l : List α) (g : α → List Call) :
    tally f (l.flatMap g) = (l.map fun a => tally f (g a)).sum := by
  induction l with
  | nil => rfl
  | cons x l ih => rw [List.flatMap_cons, tally_append, ih, List.map_cons, List.sum_cons]

/-- The part of an element itself. -/
def own (f : Call → Nat) : Elem → Nat
  | .field t s => f (.field t s)
  | .node t a slots mis unk =>
    f (.beginElem t (if t = Ty.«coordinates» then [] else serializeAttributes (classAt t) a)) +
      ((classAt t).writes.map fun w => tally f ((w.valueCalls slots).getD [])).sum +
      (if t = Ty.«coordinates» then 0 else ((callsEach mis).map (tally f)).sum + tally f (unknownCalls unk)) + f .endElem

theorem own_node (f : Call → Nat) (t : Ty) (a : Attrs) (slots : Mem → List Elem) (mis : List Elem) (unk : List Str) :
    own f (.node t a slots mis unk) =
      f (.beginElem t (if t = Ty.«coordinates» then [] else serializeAttributes (classAt t) a)) +
        ((classAt t).writes.map fun w => tally f ((w.valueCalls slots).getD [])).sum +
        (if t = Ty.«coordinates» then 0 else ((callsEach mis).map (tally f)).sum + tally f (unknownCalls unk)) +
        f .endElem := rfl

theorem saves_value (w : Write) (slots : Mem → List Elem) : w.valueCalls slots = none ↔ w.saves = true := by
  cases w <;> simp [Write.valueCalls, Write.saves]

/-- The calls for one member. -/
def pieceCalls (slots : Mem → List Elem) (w : Write) : List Call :=
  match w.valueCalls slots with
  | some cs => cs
  | none => (callsEach (slots w.mem)).flatten

theorem calls_coordinates (a : Attrs) (slots : Mem → List Elem) (mis : List Elem) (unk : List Str) {t : Ty}
    (ht : t = Ty.«coordinates») : calls (.node t a slots mis unk) =
      .beginElem t [] :: (classAt t).writes.flatMap (pieceCalls slots) ++ [.endElem] := by
  unfold calls; rw [if_pos ht]; rfl

theorem calls_other (a : Attrs) (slots : Mem → List Elem) (mis : List Elem) (unk : List Str) {t : Ty}
    (ht : ¬ t = Ty.«coordinates») : calls (.node t a slots mis unk) =
      .beginElem t (serializeAttributes (classAt t) a) :: (classAt t).writes.flatMap (pieceCalls slots) ++
        (callsEach mis).flatten ++ unknownCalls unk ++ [.endElem] := by
  unfold calls; rw [if_neg ht]; rfl

theorem sum_add (l : List Write) (f g : Write → Nat) : (l.map fun w => f w + g w).sum = (l.map f).sum + (l.map g).sum := by
  induction l with
  | nil => rfl
  | cons x l ih => simp only [List.map_cons, List.sum_cons, ih]; omega

theorem sum_flatMap {α β : Type} (l : List α) (g : α → List β) (h : β → Nat) :
    ((l.flatMap g).map h).sum = (l.map fun a => ((g a).map h).sum).sum := by
  induction l with
  | nil => rfl
  | cons x l ih => simp only [List.flatMap_cons, List.map_append, List.sum_append, List.map_cons, List.sum_cons, ih]

theorem stray_saves (l : List Elem) (h : ∀ x ∈ l, x.complex = false) (i : Nat) : savedStray i l = [] := by
  induction l generalizing i with
  | nil => rfl
  | cons x l ih =>
    have hx := h x (List.mem_cons_self ..)
    cases x with
    | node => cases hx
    | field t s =>
      show [] ++ savedStray (i + 1) l = []
      rw [ih fun y hy => h y (List.mem_cons_of_mem _ hy)]
      rfl

mutual

theorem tally_saved (f : Call → Nat) : (e : Elem) → Everywhere Tidy e →
    tally f (calls e) = own f e + ((saved e).map fun r => own f r.2).sum
  | .field t s, _ => by
    show f (.field t s) + 0 = f (.field t s) + 0
    rfl
  | .node t a slots mis unk, h => by
    cases h with
    | node h0 hs _ =>
      have hstray : savedStray 0 mis = [] := stray_saves mis h0 0
      have hsaved : saved (.node t a slots mis unk) =
          (classAt t).writes.flatMap fun w => if w.saves then savedEach w.member 0 (slots w.member) else [] := by
        unfold saved
        rw [hstray]
        simp
      have hw : ∀ w : Write, tally f (pieceCalls slots w) =
          tally f ((w.valueCalls slots).getD []) +
            ((if w.saves then savedEach w.member 0 (slots w.member) else []).map fun r => own f r.2).sum := by
        intro w
        rcases Option.eq_none_or_eq_some (w.valueCalls slots) with hv | ⟨cs, hv⟩
        · unfold pieceCalls
          rw [hv]
          dsimp only
          rw [if_pos ((saves_value w slots).1 hv)]
          have := tally_savedEach f w.member 0 (slots w.member) (hs w.member)
          rw [tally_flatten]
          show ((callsEach (slots w.member)).map (tally f)).sum = 0 + _
          rw [this, Nat.zero_add]
        · unfold pieceCalls
          rw [hv]
          dsimp only
          have : ¬ w.saves = true := by rw [← saves_value w slots, hv]; exact fun h => nomatch h
          rw [if_neg this]
          rfl
      have hsum : ((classAt t).writes.map fun w => tally f (pieceCalls slots w)).sum =
          ((classAt t).writes.map fun w => tally f ((w.valueCalls slots).getD [])).sum +
            ((saved (.node t a slots mis unk)).map fun r => own f r.2).sum := by
        rw [hsaved, sum_flatMap, ← sum_add]
        exact congrArg List.sum (List.map_congr_left fun w _ => hw w)
      have hnil : tally f [] = 0 := rfl
      by_cases ht : t = Ty.«coordinates»
      · rw [calls_coordinates a slots mis unk ht, tally_append, tally_cons, tally_flatMap, hsum, tally_cons, hnil,
          own_node, if_pos ht, if_pos ht]
        omega
      · rw [calls_other a slots mis unk ht, tally_append, tally_append, tally_append, tally_cons, tally_flatMap, hsum,
          tally_cons, hnil, tally_flatten,
          own_node, if_neg ht, if_neg ht]
        omega

theorem tally_savedEach (f : Call → Nat) (m : Mem) : (i : Nat) → (l : List Elem) → (∀ x ∈ l, Everywhere Tidy x) →
    ((callsEach l).map (tally f)).sum = ((savedEach m i l).map fun r => own f r.2).sum
  | _, [], _ => rfl
  | i, x :: xs, h => by
    have h1 := tally_saved f x (h x (List.mem_cons_self ..))
    have h2 := tally_savedEach f m (i + 1) xs fun y hy => h y (List.mem_cons_of_mem _ hy)
    unfold callsEach savedEach
    rw [List.map_cons, List.sum_cons, h1, h2, List.map_append, List.sum_append, List.map_cons, List.sum_cons, List.map_map]
    rfl

end

theorem value_none {slots : Mem → List Elem} {f : Call → Nat} (hf : ∀ t s, f (.field t s) = 0) (hc : ∀ t s, f (.color t s) = 0)
    (hv : ∀ s, f (.vec3 s) = 0) (ho : ∀ s q, f (.content s q) = 0) (w : Write) : tally f ((w.valueCalls slots).getD []) = 0 := by
  have key : ∀ {l : List Str} {g : Str → Call}, (∀ s, f (g s) = 0) → tally f (l.map g) = 0 := by
    intro l g hg
    induction l with
    | nil => rfl
    | cons a l ih => rw [List.map_cons, tally_cons, hg, ih]
  cases w with
  | field m t => exact key (hf t)
  | enum m t => exact key (hf t)
  | color m t => exact key (hc t)
  | vec3 m t => exact key (hf t)
  | points m => exact key hv
  | content m always =>
    show tally f (match texts (slots m), always with
      | [], true => [Call.content [] true]
      | l, _ => l.map (Call.content · true)) = 0
    split
    · show f _ + 0 = 0
      rw [ho]
    · exact key fun s => ho s true
  | elem | group | array | groupArray => rfl

theorem sum_zero {α : Type} (l : List α) (f : α → Nat) (h : ∀ a ∈ l, f a = 0) : (l.map f).sum = 0 := by
  induction l with
  | nil => rfl
  | cons x l ih =>
    rw [List.map_cons, List.sum_cons, h x (List.mem_cons_self ..), ih fun a ha => h a (List.mem_cons_of_mem _ ha)]

theorem unknown_zero {f : Call → Nat} (ho : ∀ s q, f (.content s q) = 0) (hi : f .indent = 0) (unk : List Str) :
    tally f (unknownCalls unk) = 0 := by
  unfold unknownCalls
  rw [tally_flatMap]
  exact sum_zero _ _ fun s _ => by
    show f _ + (f _ + 0) = 0
    rw [hi, ho]

/-- One for each start tag. -/
def isBegin : Call → Nat
  | .beginElem _ _ => 1
  | _ => 0

/-- One for each end tag. -/
def isEnd : Call → Nat
  | .endElem => 1
  | _ => 0

/-- One for each simple element. -/
def isField : Call → Nat
  | .field _ _ => 1
  | _ => 0

theorem stats_tally (l : List Call) (s : Stats) :
    (l.foldl Stats.call s).begins = s.begins + tally isBegin l ∧ (l.foldl Stats.call s).ends = s.ends + tally isEnd l ∧
      (l.foldl Stats.call s).fields = s.fields + tally isField l := by
  induction l generalizing s with
  | nil => exact ⟨rfl, rfl, rfl⟩
  | cons c l ih =>
    rw [List.foldl_cons]
    obtain ⟨h1, h2, h3⟩ := ih (s.call c)
    rw [h1, h2, h3, tally_cons, tally_cons, tally_cons]
    cases c <;> simp only [Stats.call, isBegin, isEnd, isField] <;> omega

mutual

theorem calls_balanced : (e : Elem) → tally isBegin (calls e) = tally isEnd (calls e)
  | .field _ _ => rfl
  | .node t a slots mis unk => by
    have hw : ∀ w : Write, tally isBegin (pieceCalls slots w) = tally isEnd (pieceCalls slots w) := by
      intro w
      rcases Option.eq_none_or_eq_some (w.valueCalls slots) with hv | ⟨cs, hv⟩
      · unfold pieceCalls
        rw [hv]
        dsimp only
        rw [tally_flatten, tally_flatten, callsEach_balanced (slots w.mem)]
      · have h1 := value_none (slots := slots) (f := isBegin) (fun _ _ => rfl) (fun _ _ => rfl) (fun _ => rfl) (fun _ _ => rfl) w
        have h2 := value_none (slots := slots) (f := isEnd) (fun _ _ => rfl) (fun _ _ => rfl) (fun _ => rfl) (fun _ _ => rfl) w
        unfold pieceCalls
        rw [hv] at h1 h2 ⊢
        exact h1.trans h2.symm
    have hsum := congrArg List.sum (List.map_congr_left (l := (classAt t).writes) fun w _ => hw w)
    have hu1 := unknown_zero (f := isBegin) (fun _ _ => rfl) rfl unk
    have hu2 := unknown_zero (f := isEnd) (fun _ _ => rfl) rfl unk
    by_cases ht : t = Ty.«coordinates»
    · rw [calls_coordinates a slots mis unk ht]
      simp only [tally_cons, tally_append, tally_flatMap, hsum]
      show 1 + _ + (0 + 0) = 0 + _ + (1 + 0)
      omega
    · rw [calls_other a slots mis unk ht]
      simp only [tally_cons, tally_append, tally_flatMap, tally_flatten, hsum, hu1, hu2, callsEach_balanced mis]
      show 1 + _ + _ + 0 + (0 + 0) = 0 + _ + _ + 0 + (1 + 0)
      omega

theorem callsEach_balanced : (l : List Elem) → (callsEach l).map (tally isBegin) = (callsEach l).map (tally isEnd)
  | [] => rfl
  | e :: es => by
    unfold callsEach
    rw [List.map_cons, List.map_cons, calls_balanced e, callsEach_balanced es]

end

theorem strays {f : Call → Nat} {l : List Elem} (h : ∀ x ∈ l, x.complex = false) :
    ∃ ts : List (Ty × Str), ts.length = l.length ∧ ((callsEach l).map (tally f)).sum = (ts.map fun q => f (.field q.1 q.2)).sum := by
  induction l with
  | nil => exact ⟨[], rfl, rfl⟩
  | cons x l ih =>
    obtain ⟨ts, h1, h2⟩ := ih fun y hy => h y (List.mem_cons_of_mem _ hy)
    have hx := h x (List.mem_cons_self ..)
    cases x with
    | node => cases hx
    | field t s =>
      refine ⟨(t, s) :: ts, by rw [List.length_cons, List.length_cons, h1], ?_⟩
      unfold callsEach
      rw [List.map_cons, List.sum_cons, List.map_cons, List.sum_cons, h2]
      rfl

theorem own_begin {e : Elem} (h : Tidy e) : own isBegin e = if e.complex then 1 else 0 := by
  cases e with
  | field => rfl
  | node t a slots mis unk =>
    rw [own_node, sum_zero (classAt t).writes _ fun w _ => value_none (slots := slots) (f := isBegin) (fun _ _ => rfl) (fun _ _ => rfl) (fun _ => rfl) (fun _ _ => rfl) w,
      unknown_zero (fun _ _ => rfl) rfl]
    obtain ⟨ts, _, h2⟩ := strays (f := isBegin) h
    rw [h2, sum_zero ts (fun q => isBegin (.field q.1 q.2)) fun _ _ => rfl]
    show 1 + 0 + (if _ then 0 else 0 + 0) + 0 = 1
    split <;> rfl

theorem own_field {e : Elem} (h : Tidy e) : own isField e = simpleOf e := by
  cases e with
  | field => rfl
  | node t a slots mis unk =>
    rw [own_node]
    show _ = ((classAt t).writes.map (simpleIn slots)).sum + if t = Ty.«coordinates» then 0 else mis.length
    have hm : ∀ (l : List Str) (u : Ty), tally isField (l.map (Call.field u)) = l.length := by
      intro l u
      induction l with
      | nil => rfl
      | cons a l ih => rw [List.map_cons, tally_cons, ih, List.length_cons]; show 1 + _ = _; omega
    have hz : ∀ {l : List Str} {g : Str → Call}, (∀ s, isField (g s) = 0) → tally isField (l.map g) = 0 := by
      intro l g hg
      induction l with
      | nil => rfl
      | cons a l ih => rw [List.map_cons, tally_cons, hg, ih]
    have hw : ∀ w : Write, tally isField ((w.valueCalls slots).getD []) = simpleIn slots w := by
      intro w
      cases w with
      | field m u => exact hm _ u
      | enum m u => exact hm _ u
      | vec3 m u => exact hm _ u
      | color m u => exact hz fun _ => rfl
      | points m => exact hz fun _ => rfl
      | content m always =>
        show tally isField (match texts (slots m), always with
          | [], true => [Call.content [] true]
          | l, _ => l.map (Call.content · true)) = 0
        split
        · rfl
        · exact hz fun _ => rfl
      | elem | group | array | groupArray => rfl
    rw [congrArg List.sum (List.map_congr_left fun w _ => hw w), unknown_zero (fun _ _ => rfl) rfl]
    obtain ⟨ts, h1, h2⟩ := strays (f := isField) h
    rw [h2]
    have : (ts.map fun q => isField (.field q.1 q.2)).sum = mis.length := by
      rw [← h1]
      clear h1 h2
      induction ts with
      | nil => rfl
      | cons a l ih => rw [List.map_cons, List.sum_cons, ih, List.length_cons]; show 1 + _ = _; omega
    rw [this]
    show 0 + _ + _ + 0 = _
    split <;> omega

/-- One for each piece of text. -/
def isPiece : Call → Nat
  | .content _ _ | .vec3 _ => 1
  | _ => 0

theorem stats_pieces (l : List Call) (s : Stats) : (l.foldl Stats.call s).contents = s.contents + tally isPiece l := by
  induction l generalizing s with
  | nil => rfl
  | cons c l ih =>
    rw [List.foldl_cons, ih, tally_cons]
    cases c <;> simp only [Stats.call, isPiece] <;> omega

theorem own_piece {e : Elem} (h : Tidy e) : own isPiece e = piecesOf e := by
  cases e with
  | field => rfl
  | node t a slots mis unk =>
    rw [own_node]
    show _ = ((classAt t).writes.map (piecesIn slots)).sum + if t = Ty.«coordinates» then 0 else unk.length
    have hm : ∀ {l : List Str} {g : Str → Call}, (∀ s, isPiece (g s) = 1) → tally isPiece (l.map g) = l.length := by
      intro l g hg
      induction l with
      | nil => rfl
      | cons a l ih => rw [List.map_cons, tally_cons, ih, hg, List.length_cons]; omega
    have hz : ∀ {l : List Str} {g : Str → Call}, (∀ s, isPiece (g s) = 0) → tally isPiece (l.map g) = 0 := by
      intro l g hg
      induction l with
      | nil => rfl
      | cons a l ih => rw [List.map_cons, tally_cons, hg, ih]
    have hw : ∀ w : Write, tally isPiece ((w.valueCalls slots).getD []) = piecesIn slots w := by
      intro w
      cases w with
      | field m u => exact hz fun _ => rfl
      | enum m u => exact hz fun _ => rfl
      | vec3 m u => exact hz fun _ => rfl
      | color m u => exact hz fun _ => rfl
      | points m => exact hm fun _ => rfl
      | content m always =>
        show tally isPiece (match texts (slots m), always with
          | [], true => [Call.content [] true]
          | l, _ => l.map (Call.content · true)) = if texts (slots m) = [] ∧ always = true then 1 else (texts (slots m)).length
        split
        · next h1 => rw [h1]; rfl
        · next h1 =>
          rw [if_neg (fun h => h1 h.1 h.2)]
          exact hm fun _ => rfl
      | elem | group | array | groupArray => rfl
    have hu : tally isPiece (unknownCalls unk) = unk.length := by
      clear h
      unfold unknownCalls
      induction unk with
      | nil => rfl
      | cons u l ih =>
        rw [List.flatMap_cons, tally_append, ih, List.length_cons]
        show 0 + (1 + 0) + _ = _
        omega
    rw [congrArg List.sum (List.map_congr_left fun w _ => hw w), hu]
    obtain ⟨ts, h1, h2⟩ := strays (f := isPiece) h
    rw [h2]
    have : (ts.map fun q => isPiece (.field q.1 q.2)).sum = 0 := by
      clear h1 h2
      induction ts with
      | nil => rfl
      | cons a l ih => rw [List.map_cons, List.sum_cons, ih]; rfl
    rw [this]
    show 0 + _ + _ + 0 = _
    split <;> omega

mutual

theorem saved_tidy : (e : Elem) → Everywhere Tidy e → ∀ r ∈ saved e, Everywhere Tidy r.2
  | .field _ _, _ => fun r hr => absurd hr (List.not_mem_nil (a := r))
  | .node t a slots mis unk, h => by
    cases h with
    | node h0 hs _ =>
      intro r hr
      unfold saved at hr
      rw [stray_saves mis h0 0, ite_self, List.append_nil, List.mem_flatMap] at hr
      obtain ⟨w, _, hr⟩ := hr
      split at hr
      · exact savedEach_tidy w.member 0 (slots w.member) (hs w.member) r hr
      · cases hr

theorem savedEach_tidy (m : Mem) : (i : Nat) → (l : List Elem) → (∀ x ∈ l, Everywhere Tidy x) →
    ∀ r ∈ savedEach m i l, Everywhere Tidy r.2
  | _, [], _ => fun r hr => absurd hr (List.not_mem_nil (a := r))
  | i, x :: xs, h => by
    intro r hr
    unfold savedEach at hr
    rcases List.mem_append.1 hr with hr | hr
    · rcases List.mem_cons.1 hr with rfl | hr
      · exact h x (List.mem_cons_self ..)
      · obtain ⟨r', h1, rfl⟩ := List.mem_map.1 hr
        exact saved_tidy x (h x (List.mem_cons_self ..)) r' h1
    · exact savedEach_tidy m (i + 1) xs (fun y hy => h y (List.mem_cons_of_mem _ hy)) r hr

end

end Kml.Dom
