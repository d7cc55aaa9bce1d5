import Verif.Lemmas.MergeFields

/-! What `MergeElements` does to the target. -/

set_option linter.unusedVariables false

namespace Kml.Dom

open Kml
open Kml.Attributes (Attributes)

theorem textual_no_saves : ((classAt Ty.«Snippet»).writes ++ (classAt Ty.«linkSnippet»).writes ++
    (classAt Ty.«coordinates»).writes ++ (classAt Ty.«SimpleData»).writes).all (fun w => !w.saves) = true := by
  decide +kernel

attribute [local irreducible] kml22Elements Xsd.tagToId classes inc dec uintSize

theorem mergersEach_eq (n : NumLib) : ∀ (l : List Elem), mergersEach n l = l.map fun x => (x, mergeElements n x)
  | [] => rfl
  | x :: l => by rw [mergersEach, mergersEach_eq n l]; rfl

theorem mergersStray_nil (n : NumLib) : ∀ {l : List Elem}, (∀ x ∈ l, x.complex = false) → mergersStray n l = []
  | [], _ => rfl
  | x :: l, h => by
    rw [mergersStray, mergersStray_nil n fun y hy => h y (List.mem_cons_of_mem _ hy)]
    have := h x (by simp)
    cases x with
    | field t s => rfl
    | node => cases this

theorem savedHereStray_nil : ∀ {l : List Elem} (i : Nat), (∀ x ∈ l, x.complex = false) → savedHereStray i l = []
  | [], _, _ => rfl
  | x :: l, i, h => by
    rw [savedHereStray, savedHereStray_nil (i + 1) fun y hy => h y (List.mem_cons_of_mem _ hy)]
    have := h x (by simp)
    cases x with
    | field t s => rfl
    | node => cases this

/-- The complex children of an element in its members, in the order they are written. -/
def innerKids (c : Class) (slots : Mem → List Elem) : List Elem :=
  c.writes.flatMap fun w => if w.saves then slots w.mem else []

theorem mergers_eq (n : NumLib) {t : Ty} {slots : Mem → List Elem} {mis : List Elem}
    (hmis : ∀ x ∈ mis, x.complex = false) :
    (((classAt t).writes.flatMap fun w => if w.saves then mergersEach n (slots w.member) else []) ++
        (if t = Ty.«coordinates» then [] else mergersStray n mis)) =
      (innerKids (classAt t) slots).map fun x => (x, mergeElements n x) := by
  rw [mergersStray_nil n hmis, ite_self, List.append_nil]
  unfold innerKids
  rw [List.map_flatMap]
  refine flatMap_congr_mem fun w _ => ?_
  split
  · rw [mergersEach_eq, member_mem]
  · rfl

/-! ### Finding the child of a type -/

theorem find_mapIdx (m : Mem) (T : Ty) : ∀ (l : List Elem) (k : Nat),
    (l.findIdx? (fun y => decide (y.ty = T)) = none ∧
      (l.mapIdx fun i x => ([Step.slot m (k + i)], x)).find? (fun r => decide (r.2.ty = T)) = none) ∨
    ∃ i y, l.findIdx? (fun y => decide (y.ty = T)) = some i ∧ l[i]? = some y ∧ y.ty = T ∧
      (l.mapIdx fun i x => ([Step.slot m (k + i)], x)).find? (fun r => decide (r.2.ty = T)) = some ([.slot m (k + i)], y)
  | [], k => .inl ⟨rfl, rfl⟩
  | x :: l, k => by
    rw [List.mapIdx_cons, List.find?_cons, List.findIdx?_cons]
    by_cases hx : x.ty = T
    · right
      exact ⟨0, x, by simp [hx], rfl, hx, by simp [hx]⟩
    · have e : (fun i (y : Elem) => ([Step.slot m (k + (i + 1))], y)) = fun i y => ([Step.slot m (k + 1 + i)], y) := by
        funext i y
        rw [show k + (i + 1) = k + 1 + i by omega]
      simp only [hx, decide_false, e]
      rcases find_mapIdx m T l (k + 1) with ⟨h1, h2⟩ | ⟨i, y, h1, h2, h3, h4⟩
      · left
        exact ⟨by simp [h1], h2⟩
      · right
        refine ⟨i + 1, y, by simp [h1], by simpa using h2, h3, ?_⟩
        rw [h4, show k + 1 + i = k + (i + 1) by omega]

theorem find_flatMap {α : Type} {p : α → Bool} {f : Write → List α} {w : Write} : ∀ {ws : List Write},
    (ws.map Write.mem).Nodup → w ∈ ws → (∀ w' ∈ ws, w'.mem ≠ w.mem → ∀ r ∈ f w', p r = false) →
    (ws.flatMap f).find? p = (f w).find? p
  | [], _, hw, _ => by cases hw
  | w' :: ws, hn, hw, h => by
    simp only [List.map_cons, List.nodup_cons] at hn
    rw [List.flatMap_cons, List.find?_append]
    rcases List.mem_cons.1 hw with rfl | hw'
    · have : (ws.flatMap f).find? p = none := by
        rw [List.find?_eq_none]
        intro r hr
        obtain ⟨w', hw', hr⟩ := List.mem_flatMap.1 hr
        rw [h w' (List.mem_cons_of_mem _ hw') (fun he => hn.1 (List.mem_map.2 ⟨w', hw', he⟩)) r hr]
        decide
      rw [this, Option.or_none]
    · have : (f w').find? p = none := by
        rw [List.find?_eq_none]
        intro r hr
        rw [h w' (by simp) (fun he => hn.1 (List.mem_map.2 ⟨w, hw', he.symm⟩)) r hr]
        decide
      rw [this, Option.none_or]
      exact find_flatMap hn.2 hw' fun w'' hw'' => h w'' (List.mem_cons_of_mem _ hw'')

/-- Where the first child of a type is that the target had. -/
theorem find_kid {n : NumLib} {t : Ty} {c : Class} {a' : Attrs} {slots' : Mem → List Elem} {mis' : List Elem}
    {unk' : List Str} (hc : classOf t = some c) (hy : Held n (.node t a' slots' mis' unk'))
    (hmis : ∀ x ∈ mis', x.complex = false) {x : Elem} {act : Act} (hx : x.complex = true) (ht : taker t x = some act)
    {w : Write} (hw : w ∈ c.writes) (hs : w.saves = true) (hm : w.mem = act.mem) :
    ((slots' act.mem).findIdx? (fun y => decide (y.ty = x.ty)) = none ∧
      (getChildElements (.node t a' slots' mis' unk') false).find? (fun r => decide (r.2.ty = x.ty)) = none) ∨
    ∃ i y, (slots' act.mem).findIdx? (fun y => decide (y.ty = x.ty)) = some i ∧ (slots' act.mem)[i]? = some y ∧
      y.ty = x.ty ∧ (getChildElements (.node t a' slots' mis' unk') false).find? (fun r => decide (r.2.ty = x.ty)) =
        some ([.slot act.mem i], y) := by
  have e : getChildElements (.node t a' slots' mis' unk') false = (c.writes.flatMap fun w =>
      if w.saves then (slots' w.member).mapIdx fun i x => ([.slot w.member i], x) else []) := by
    show savedHere _ = _
    rw [savedHere, savedHereStray_nil 0 hmis, ite_self, List.append_nil, classAt_eq hc]
  have hf := find_flatMap (p := fun r : List Step × Elem => decide (r.2.ty = x.ty)) (f := fun w =>
      if w.saves then (slots' w.member).mapIdx fun i x => ([.slot w.member i], x) else [])
    (nodup_writes (classOf_pair hc)) hw (by
      intro w' hw' hne r hr
      split at hr
      · rename_i hs'
        rw [List.mem_mapIdx] at hr
        obtain ⟨i, hi, rfl⟩ := hr
        simp only [decide_eq_false_iff_not]
        intro hty
        have hmem : (slots' w'.member)[i] ∈ slots' w'.member := List.getElem_mem hi
        have hcx := (held_saves hy hmem).2 ⟨w', by rw [classAt_eq hc]; exact hw', hs', rfl⟩
        have hpl : ∃ act', taker t (slots' w'.member)[i] = some act' ∧ act'.mem = w'.member := by
          cases hy with
          | node _ _ _ hsl _ _ _ =>
            obtain ⟨act', h1, h2, _⟩ := hsl _ _ hmem
            exact ⟨act', h1, h2⟩
          | text hx _ hs'' _ _ =>
            have : w'.saves = false := by
              have hall := textual_no_saves
              rw [List.all_eq_true] at hall
              have := hall w' (by
                simp only [List.mem_append]
                rcases hx with rfl | rfl | rfl
                · left; left; left; rw [classAt_eq hc]; exact hw'
                · left; left; right; rw [classAt_eq hc]; exact hw'
                · right; rw [classAt_eq hc]; exact hw')
              simpa using this
            rw [this] at hs'; cases hs'
          | points _ =>
            have : w'.saves = false := by
              have hall := textual_no_saves
              rw [List.all_eq_true] at hall
              have := hall w' (by
                simp only [List.mem_append]
                left; right; rw [classAt_eq hc]; exact hw')
              simpa using this
            rw [this] at hs'; cases hs'
        obtain ⟨act', h1, h2⟩ := hpl
        generalize (slots' w'.member)[i] = y at *
        cases x with
        | field => cases hx
        | node tx ax sx mx ux =>
          cases y with
          | field => cases hcx
          | node ty ay sy my uy =>
            have : ty = tx := hty
            subst this
            rw [taker_node t ty ay ax sy sx my mx uy ux, ht] at h1
            cases h1
            exact hne (by rw [← member_mem, ← h2, hm])
      · cases hr)
  rw [e, hf, if_pos hs]
  have hm' : w.member = act.mem := by rw [member_mem, hm]
  rw [hm']
  have := find_mapIdx act.mem x.ty (slots' act.mem) 0
  simpa only [Nat.zero_add] using this

/-! ### One child of the source -/

/-- The member `x` goes to, after `x` was merged. -/
def stepItem (many : Bool) (had cur : List Elem) (x : Elem) : List Elem :=
  match had.findIdx? fun y => decide (y.ty = x.ty) with
  | some i => changeAt cur i (merged x)
  | none => if many then cur ++ [x] else [x]

/-- The member a child goes to. -/
def memOf (t : Ty) (x : Elem) : Mem := ((taker t x).map Act.mem).getD 0

/-- A target. -/
def OkTarget (n : NumLib) (y : Elem) : Prop := Held n y ∧ Everywhere Tidy y

/-- A child of the source that merges as it should. -/
structure OkItem (n : NumLib) (t : Ty) (c : Class) (x : Elem) : Prop where
  complex : x.complex = true
  taken : ∃ act, taker t x = some act ∧ (act = .one act.mem ∨ act = .many act.mem) ∧
    ∃ w ∈ c.writes, w.saves = true ∧ w.mem = act.mem
  copied : clone n x = .ok (some x)
  target : OkTarget n x
  merges : ∀ y, OkTarget n y → y.complex = true → y.ty = x.ty →
    mergeElements n x y = .ok (merged x y) ∧ OkTarget n (merged x y)

theorem merged_ty {x y : Elem} (hx : x.complex = true) (hy : y.complex = true) (h : y.ty = x.ty) :
    (merged x y).ty = x.ty ∧ (merged x y).complex = true := by
  cases x with
  | field => cases hx
  | node =>
    cases y with
    | field => cases hy
    | node => exact ⟨rfl, rfl⟩

/-- The items that were there are still there, perhaps changed. -/
def Keeps (n : NumLib) (had cur : List Elem) : Prop :=
  ∀ (i : Nat) y, had[i]? = some y → ∃ y', cur[i]? = some y' ∧ y'.ty = y.ty ∧ OkTarget n y' ∧ y'.complex = true

theorem changeAt_get {cur : List Elem} {i : Nat} {y : Elem} (h : cur[i]? = some y) (f : Elem → Elem) (j : Nat) :
    (changeAt cur i f)[j]? = if i = j then some (f y) else cur[j]? := by
  unfold changeAt
  rw [h]
  simp only
  rw [List.getElem?_set]
  split
  · rename_i hij
    subst hij
    rw [if_pos (by have := (List.getElem?_eq_some_iff.1 h).1; exact this)]
  · rfl

theorem keeps_step {n : NumLib} {t : Ty} {c : Class} {had cur : List Elem} {x : Elem} (hx : OkItem n t c x)
    (h : Keeps n had cur) : Keeps n had (stepItem true had cur x) := by
  intro j z hj
  obtain ⟨z', hz1, hz2, hz3, hz4⟩ := h j z hj
  unfold stepItem
  cases hf : had.findIdx? fun y => decide (y.ty = x.ty) with
  | none =>
    simp only [if_true]
    refine ⟨z', ?_, hz2, hz3, hz4⟩
    rw [List.getElem?_append_left ((List.getElem?_eq_some_iff.1 hz1).1)]
    exact hz1
  | some i =>
    simp only
    obtain ⟨hi, hp, _⟩ := List.findIdx?_eq_some_iff_getElem.1 hf
    have hp : had[i].ty = x.ty := of_decide_eq_true hp
    obtain ⟨y', hy1, hy2, hy3, hy4⟩ := h i had[i] (List.getElem?_eq_getElem hi)
    rw [changeAt_get hy1]
    split
    · rename_i hij
      subst hij
      have : y'.ty = x.ty := by rw [hy2, hp]
      have hm := hx.merges y' hy3 hy4 this
      have ht := merged_ty hx.complex hy4 this
      refine ⟨_, rfl, ?_, hm.2, ht.2⟩
      rw [ht.1, ← this]
      rw [hy1] at hz1
      cases hz1
      exact hz2
    · exact ⟨z', hz1, hz2, hz3, hz4⟩

/-- The members after one child of the source was merged. -/
def stepSlots (t : Ty) (had : Mem → List Elem) (S : Mem → List Elem) (x : Elem) : Mem → List Elem :=
  setSlot S (memOf t x) (stepItem (holdsMany t (memOf t x)) (had (memOf t x)) (S (memOf t x)) x)

section
variable {n : NumLib} {t : Ty} {c : Class} {a' : Attrs} {slots' : Mem → List Elem} {mis' : List Elem} {unk' : List Str}

theorem rounds_spec (hc : classOf t = some c) (hy : Held n (.node t a' slots' mis' unk'))
    (hmis : ∀ x ∈ mis', x.complex = false) : ∀ (xs : List Elem) (S : Mem → List Elem) (gone : List Step),
    (∀ x ∈ xs, OkItem n t c x) →
    (xs.Pairwise fun x y => memOf t x = memOf t y → holdsMany t (memOf t x) = true) →
    (∀ s ∈ gone, ∃ m, s = .slot m 0 ∧ holdsMany t m = false ∧ ∀ x ∈ xs, memOf t x ≠ m) →
    (∀ m, (holdsMany t m = true ∨ ∃ x ∈ xs, memOf t x = m) → (∃ w ∈ c.writes, w.saves = true ∧ w.mem = m) →
      Keeps n (slots' m) (S m)) →
    ∃ gone', Merging.rounds n (getChildElements (.node t a' slots' mis' unk') false)
      ⟨.node t a' S mis' unk', gone⟩ (xs.map fun x => (x, mergeElements n x)) =
      .ok ⟨.node t a' (xs.foldl (stepSlots t slots') S) mis' unk', gone'⟩
  | [], S, gone, _, _, _, _ => ⟨gone, rfl⟩
  | x :: xs, S, gone, hok, hpw, hgone, hkeep => by
    have hx := hok x (by simp)
    obtain ⟨act, ht, hact, w, hw, hs, hwm⟩ := hx.taken
    have hmem : memOf t x = act.mem := by unfold memOf; rw [ht]; rfl
    have hmany := holdsMany_act hc ht
    rw [List.pairwise_cons] at hpw
    have hK := hkeep act.mem (.inr ⟨x, by simp, hmem⟩) ⟨w, hw, hs, hwm⟩
    have hnotgone : ∀ i, Step.slot act.mem i ∉ gone := by
      intro i hi
      obtain ⟨m, h1, h2, h3⟩ := hgone _ hi
      cases h1
      exact h3 x (by simp) hmem
    -- what the remaining children need
    have rest : ∀ (cur : List Elem) (gone' : List Step),
        cur = stepItem (holdsMany t act.mem) (slots' act.mem) (S act.mem) x →
        (∀ s ∈ gone', s ∈ gone ∨ (s = .slot act.mem 0 ∧ holdsMany t act.mem = false)) →
        ∃ gone'', Merging.rounds n (getChildElements (.node t a' slots' mis' unk') false)
          ⟨.node t a' (setSlot S act.mem cur) mis' unk', gone'⟩ (xs.map fun x => (x, mergeElements n x)) =
          .ok ⟨.node t a' ((x :: xs).foldl (stepSlots t slots') S) mis' unk', gone''⟩ := by
      intro cur gone' hcur hg
      have hstep : stepSlots t slots' S x = setSlot S act.mem cur := by
        unfold stepSlots
        rw [hmem, hcur]
      rw [List.foldl_cons, hstep]
      refine rounds_spec hc hy hmis xs _ gone' (fun y hy' => hok y (List.mem_cons_of_mem _ hy')) hpw.2 ?_ ?_
      · intro s hs'
        rcases hg s hs' with h | ⟨h, h'⟩
        · obtain ⟨m, h1, h2, h3⟩ := hgone s h
          exact ⟨m, h1, h2, fun y hy' => h3 y (List.mem_cons_of_mem _ hy')⟩
        · refine ⟨act.mem, h, h', fun y hy' he => ?_⟩
          have := hpw.1 y hy' (by rw [hmem, he])
          rw [hmem, h'] at this
          cases this
      · intro m hm hsv
        unfold setSlot
        by_cases hma : m = act.mem
        · subst hma
          rw [if_pos rfl]
          have hmt : holdsMany t act.mem = true := by
            rcases hm with hm | ⟨y, hy', he⟩
            · exact hm
            · have := hpw.1 y hy' (by rw [hmem, he])
              rwa [hmem] at this
          rw [hcur, hmt]
          exact keeps_step hx hK
        · rw [if_neg hma]
          refine hkeep m ?_ hsv
          rcases hm with hm | ⟨y, hy', he⟩
          · exact .inl hm
          · exact .inr ⟨y, List.mem_cons_of_mem _ hy', he⟩
    rw [List.map_cons, Merging.rounds]
    rcases find_kid hc hy hmis hx.complex ht hw hs hwm with ⟨h1, h2⟩ | ⟨i, y, h1, h2, h3, h4⟩
    · -- a copy is added
      simp only [Merging.round, h2, Merging.add, hx.copied, Outcome.ok_bind]
      have hfind : ((classOf t).bind fun c => findRule c.rules x) = some act := by
        unfold taker at ht
        rw [hc] at ht ⊢
        exact ht
      rcases hact with ha | ha
      · have hv : act.value n [] (S act.mem) x = .ok [x] := by rw [ha]; rfl
        rw [addElement_taken ht hv]
        simp only [Outcome.ok_bind, hfind]
        have harr : holdsMany t act.mem = false := by rw [hmany, ha]; rfl
        refine rest [x] _ ?_ ?_
        · unfold stepItem
          rw [h1, harr]
          rfl
        · intro s hs'
          rw [ha] at hs'
          rcases List.mem_cons.1 hs' with h | h
          · exact .inr ⟨h, harr⟩
          · exact .inl h
      · have hv : act.value n [] (S act.mem) x = .ok (S act.mem ++ [x]) := by rw [ha]; rfl
        rw [addElement_taken ht hv]
        simp only [Outcome.ok_bind, hfind]
        have harr : holdsMany t act.mem = true := by rw [hmany, ha]; rfl
        refine rest (S act.mem ++ [x]) _ ?_ ?_
        · unfold stepItem
          rw [h1, harr]
          rfl
        · intro s hs'
          rw [ha] at hs'
          exact .inl hs'
    · -- the child is merged
      simp only [Merging.round, h4]
      rw [if_neg (hnotgone i)]
      obtain ⟨y', hy1, hy2, hy3, hy4⟩ := hK i y h2
      have hty : y'.ty = x.ty := by rw [hy2, h3]
      have hmod : modifyAt (mergeElements n x) [.slot act.mem i] (.node t a' S mis' unk') =
          .ok (.node t a' (setSlot S act.mem ((S act.mem).set i (merged x y'))) mis' unk') := by
        simp only [modifyAt, hy1, (hx.merges y' hy3 hy4 hty).1, Outcome.ok_bind]
      rw [hmod]
      simp only [Outcome.ok_bind]
      refine rest _ gone ?_ (fun s hs' => .inl hs')
      unfold stepItem
      rw [h1]
      simp only [changeAt, hy1]

end

/-! ### All children -/

theorem foldl_stepSlots (t : Ty) (had : Mem → List Elem) : ∀ (xs : List Elem) (S : Mem → List Elem) (m : Mem),
    (xs.foldl (stepSlots t had) S) m =
      (xs.filter fun x => decide (memOf t x = m)).foldl (stepItem (holdsMany t m) (had m)) (S m)
  | [], S, m => rfl
  | x :: xs, S, m => by
    rw [List.foldl_cons, foldl_stepSlots t had xs, List.filter_cons]
    unfold stepSlots setSlot
    by_cases hm : memOf t x = m
    · subst hm
      simp
    · rw [if_neg (fun h => hm h.symm), decide_eq_false hm]
      rfl

theorem mergedItems_complex : ∀ (xs had cur : List Elem), (∀ x ∈ xs, x.complex = true) →
    mergedItems xs had cur = xs.foldl (stepItem true had) cur
  | [], _, _, _ => rfl
  | x :: xs, had, cur, h => by
    rw [mergedItems, List.foldl_cons, ← mergedItems_complex xs had _ fun y hy => h y (List.mem_cons_of_mem _ hy)]
    unfold stepItem
    simp only [h x (by simp), Bool.true_and, if_true]
    rfl

theorem mergedItems_simple : ∀ (xs had cur : List Elem), (∀ x ∈ xs, x.complex = false) →
    mergedItems xs had cur = cur ++ xs
  | [], _, cur, _ => by rw [List.append_nil]; rfl
  | x :: xs, had, cur, h => by
    rw [mergedItems]
    simp only
    rw [mergedItems_simple xs had _ fun y hy => h y (List.mem_cons_of_mem _ hy)]
    have hx : x.complex = false := h x (by simp)
    have : had.findIdx? (fun y => x.complex && decide (y.ty = x.ty)) = none := by
      rw [List.findIdx?_eq_none_iff]
      intro y _
      rw [hx]
      rfl
    rw [this]
    simp

/-- A member of the source and of the target. -/
structure SameKind (n : NumLib) (t : Ty) (slots slots' : Mem → List Elem) : Prop where
  source : ∀ m, ∀ x ∈ slots m, ∃ act, taker t x = some act ∧ act.mem = m ∧
      (act.isCdata = true ∧ (∃ t' s, x = .field t' s) ∨ Settled n act x) ∧ (act.isArray = false → slots m = [x])
  target : ∀ m, ∀ x ∈ slots' m, ∃ act, taker t x = some act ∧ act.mem = m ∧
      (act.isCdata = true ∧ (∃ t' s, x = .field t' s) ∨ Settled n act x) ∧ (act.isArray = false → slots' m = [x])

/-- The members of `merged`, for an element without text. -/
def mergedSlots (t : Ty) (slots slots' : Mem → List Elem) : Mem → List Elem :=
  fun m => if holdsMany t m then mergedItems (slots m) (slots' m) (slots' m) else mergedItem (slots m) (slots' m)

theorem merged_node {t : Ty} (htext : textual t = false) (a a' : Attrs) (slots slots' : Mem → List Elem)
    (mis mis' : List Elem) (unk unk' : List Str) (t' : Ty) :
    merged (.node t a slots mis unk) (.node t' a' slots' mis' unk') =
      .node t (mergedAttrs a a') (mergedSlots t slots slots') (mis' ++ mis) unk' := by
  have hnc : t ≠ Ty.«coordinates» := by rintro rfl; cases htext
  rw [merged]
  simp only [if_neg hnc, htext]
  rfl

/-- Items that can stand in member `m` of an element of type `t`. -/
def Fits (n : NumLib) (t : Ty) (m : Mem) (x : Elem) : Prop :=
  (∃ act, taker t x = some act ∧ act.mem = m ∧
    (act.isCdata = true ∧ (∃ t' s, x = .field t' s) ∨ Settled n act x)) ∧ OkTarget n x

theorem fits_step {n : NumLib} {t : Ty} {c : Class} {m : Mem} {had cur : List Elem} {x : Elem} {many : Bool}
    (hx : OkItem n t c x) (hm : memOf t x = m) (hk : Keeps n had cur) (h : ∀ y ∈ cur, Fits n t m y) :
    ∀ y ∈ stepItem many had cur x, Fits n t m y := by
  obtain ⟨act, ht, hact, _⟩ := hx.taken
  have hmem : act.mem = m := by
    rw [← hm]
    unfold memOf
    rw [ht]
    rfl
  have hset : ∀ z : Elem, Settled n act z := by
    intro z
    rcases hact with ha | ha <;> rw [ha] <;> cases z <;> trivial
  have self : Fits n t m x := ⟨⟨act, ht, hmem, .inr (hset x)⟩, hx.target⟩
  unfold stepItem
  cases hf : had.findIdx? fun y => decide (y.ty = x.ty) with
  | none =>
    simp only
    intro y hy
    split at hy
    · rcases List.mem_append.1 hy with hy | hy
      · exact h y hy
      · rw [List.mem_singleton.1 hy]; exact self
    · rw [List.mem_singleton.1 hy]; exact self
  | some i =>
    simp only
    obtain ⟨hi, hp, _⟩ := List.findIdx?_eq_some_iff_getElem.1 hf
    have hp : had[i].ty = x.ty := of_decide_eq_true hp
    obtain ⟨y', hy1, hy2, hy3, hy4⟩ := hk i had[i] (List.getElem?_eq_getElem hi)
    have hty : y'.ty = x.ty := by rw [hy2, hp]
    intro y hy
    unfold changeAt at hy
    rw [hy1] at hy
    rcases List.mem_or_eq_of_mem_set hy with hy | rfl
    · exact h y hy
    · obtain ⟨h1, h2⟩ := merged_ty hx.complex hy4 hty
      refine ⟨⟨act, ?_, hmem, .inr (hset _)⟩, (hx.merges y' hy3 hy4 hty).2⟩
      cases x with
      | field => cases hx.complex
      | node tx ax sx mx ux =>
        generalize merged (.node tx ax sx mx ux) y' = z at *
        cases z with
        | field => cases h2
        | node tz az sz mz uz =>
          have : tz = tx := h1
          subst this
          rw [taker_node t tz az ax sz sx mz mx uz ux]
          exact ht

theorem fits_fold {n : NumLib} {t : Ty} {c : Class} {m : Mem} {had : List Elem} : ∀ (xs cur : List Elem),
    (∀ x ∈ xs, OkItem n t c x) → (∀ x ∈ xs, memOf t x = m) → Keeps n had cur → (∀ y ∈ cur, Fits n t m y) →
    ∀ y ∈ xs.foldl (stepItem true had) cur, Fits n t m y
  | [], cur, _, _, _, h => h
  | x :: xs, cur, hx, hm, hk, h =>
    fits_fold xs _ (fun y hy => hx y (List.mem_cons_of_mem _ hy)) (fun y hy => hm y (List.mem_cons_of_mem _ hy))
      (keeps_step (hx x (by simp)) hk) (fits_step (hx x (by simp)) (hm x (by simp)) hk h)

/-! ### The whole merge -/

theorem held_placed {n : NumLib} {t : Ty} {a : Attrs} {slots : Mem → List Elem} {mis : List Elem} {unk : List Str}
    (htext : textual t = false) (h : Held n (.node t a slots mis unk)) (hc : Clonable (.node t a slots mis unk))
    (hl : Lossless (.node t a slots mis unk)) : Placed n t slots mis := by
  cases h with
  | points => cases htext
  | text ht => rcases ht with rfl | rfl | rfl <;> cases htext
  | node hclass _ ha hslots hmis _ _ =>
    refine ⟨?_, hl.2.1, hmis⟩
    intro m x hx
    obtain ⟨act, h1, h2, h3, h4⟩ := hslots m x hx
    refine ⟨act, h1, h2, ?_, h4⟩
    rcases h3 with ⟨hcd, t', s, rfl⟩ | h3
    · have := hc.1 m _ hx act t' s h1 hcd rfl
      cases act with
      | field m k =>
        cases k <;> first | (cases hcd; done) | simp only [Settled, readValue, insideCdata_self this]
      | fields m k =>
        cases k <;> first | (cases hcd; done) | simp only [Settled, readValue, insideCdata_self this]
      | one m => cases hcd
      | many m => cases hcd
      | selfText m => cases hcd
      | selfPoints m => cases hcd
    · exact h3

theorem clone_self {n : NumLib} {x : Elem} (h : Held n x) (hc : Everywhere Clonable x) (hl : Everywhere Lossless x)
    (hx : x.complex = true) : clone n x = .ok (some x) := by
  have hnode : ∃ t a sl mi un, x = .node t a sl mi un := by
    cases x with
    | field => cases hx
    | node t a sl mi un => exact ⟨t, a, sl, mi, un, rfl⟩
  unfold clone
  rw [held_copies h hc [] fun _ => hnode, copyOf_lossless h hl]
  rfl

theorem everywhere_top {P : Elem → Prop} {e : Elem} (h : Everywhere P e) : P e := by
  cases h with
  | field h => exact h
  | node h _ _ => exact h

/-- The members that hold elements. -/
def isInner (c : Class) (m : Mem) : Bool := c.writes.any fun w => w.mem = m && w.saves

theorem filter_inner {n : NumLib} {t : Ty} {c : Class} {slots : Mem → List Elem} {mis : List Elem} (hc : classOf t = some c)
    (h : Placed n t slots mis) (m : Mem) :
    (innerKids c slots).filter (fun x => decide (memOf t x = m)) = if isInner c m then slots m else [] := by
  have hnd := nodup_writes (classOf_pair hc)
  have hmo : ∀ m', ∀ x ∈ slots m', memOf t x = m' := by
    intro m' x hx
    obtain ⟨act, h1, h2, _⟩ := h.placed m' x hx
    unfold memOf
    rw [h1]
    exact h2
  unfold innerKids isInner
  generalize c.writes = ws at *
  induction ws with
  | nil => rfl
  | cons w ws ih =>
    simp only [List.map_cons, List.nodup_cons] at hnd
    rw [List.flatMap_cons, List.filter_append, ih hnd.2, List.any_cons]
    have hfil : (slots w.mem).filter (fun x => decide (memOf t x = m)) = if w.mem = m then slots m else [] := by
      split
      · rename_i hw
        rw [hw, List.filter_eq_self]
        intro x hx
        rw [hmo m x hx]
        simp
      · rename_i hw
        rw [List.filter_eq_nil_iff]
        intro x hx
        rw [hmo _ x hx]
        simp [hw]
    by_cases hw : w.mem = m
    · have hno : (ws.any fun w => decide (w.mem = m) && w.saves) = false := by
        rw [List.any_eq_false]
        intro w' hw'
        simp only [Bool.and_eq_true, decide_eq_true_eq, not_and]
        intro he
        exact absurd (List.mem_map.2 ⟨w', hw', by rw [he, hw]⟩) hnd.1
      rw [hno]
      cases hs : w.saves
      · simp [hw]
      · rw [if_pos rfl, hfil, if_pos hw, if_neg (by decide), List.append_nil, decide_eq_true hw]
        rfl
    · cases hs : w.saves
      · simp [hw]
      · simp only [if_true, hfil, hw, if_false, decide_false, Bool.false_and, Bool.false_or, List.nil_append]

theorem pairwise_inner {n : NumLib} {t : Ty} {c : Class} {slots : Mem → List Elem} {mis : List Elem} (hc : classOf t = some c)
    (h : Placed n t slots mis) :
    (innerKids c slots).Pairwise fun x y => memOf t x = memOf t y → holdsMany t (memOf t x) = true := by
  have hnd := nodup_writes (classOf_pair hc)
  have hmo : ∀ m', ∀ x ∈ slots m', memOf t x = m' := by
    intro m' x hx
    obtain ⟨act, h1, h2, _⟩ := h.placed m' x hx
    unfold memOf
    rw [h1]
    exact h2
  unfold innerKids
  generalize c.writes = ws at *
  induction ws with
  | nil => exact List.Pairwise.nil
  | cons w ws ih =>
    simp only [List.map_cons, List.nodup_cons] at hnd
    rw [List.flatMap_cons, List.pairwise_append]
    refine ⟨?_, ih hnd.2, ?_⟩
    · split
      · cases hs : slots w.mem with
        | nil => exact List.Pairwise.nil
        | cons x xs =>
          obtain ⟨act, h1, h2, _, h4⟩ := h.placed w.mem x (by rw [hs]; simp)
          cases harr : act.isArray with
          | true =>
            have hmany : holdsMany t w.mem = true := by rw [← h2, holdsMany_act hc h1, harr]
            rw [List.pairwise_iff_forall_sublist]
            intro a b hab _
            have ha : a ∈ slots w.mem := by
              rw [hs]
              exact hab.subset (by simp)
            rw [hmo _ a ha]
            exact hmany
          | false =>
            have := h4 harr
            rw [hs] at this
            rw [this]
            exact List.pairwise_singleton ..
      · exact List.Pairwise.nil
    · intro x hx y hy he
      exfalso
      split at hx
      · obtain ⟨w', hw', hy⟩ := List.mem_flatMap.1 hy
        split at hy
        · rw [hmo _ x hx, hmo _ y hy] at he
          exact hnd.1 (List.mem_map.2 ⟨w', hw', he.symm⟩)
        · cases hy
      · cases hx

theorem one_or_many {n : NumLib} {act : Act} {x : Elem} (hx : x.complex = true)
    (h : act.isCdata = true ∧ (∃ t' s, x = .field t' s) ∨ Settled n act x) :
    act = .one act.mem ∨ act = .many act.mem := by
  cases x with
  | field => cases hx
  | node t a sl mi un =>
    rcases h with ⟨_, _, _, h⟩ | h
    · cases h
    · cases act with
      | field => cases h
      | fields => cases h
      | one => exact .inl rfl
      | many => exact .inr rfl
      | selfText => cases h
      | selfPoints => cases h

/-- The merge, and that its result can be merged into again. -/
def Merges (n : NumLib) (s : Elem) : Prop :=
  ∀ y, OkTarget n y → y.complex = true → y.ty = s.ty → mergeElements n s y = .ok (merged s y) ∧ OkTarget n (merged s y)

theorem not_saved (t : Ty) (ht : textual t = true) (slots : Mem → List Elem) : innerKids (classAt t) slots = [] := by
  unfold innerKids
  rw [List.flatMap_eq_nil_iff]
  intro w hw
  have hall := textual_no_saves
  rw [List.all_eq_true] at hall
  have := hall w (by
    simp only [List.mem_append]
    rcases (textual_sets t).1 ht with rfl | rfl | rfl | rfl
    · left; left; left; exact hw
    · left; left; right; exact hw
    · left; right; exact hw
    · right; exact hw)
  rw [Bool.not_eq_true'] at this
  rw [if_neg (by rw [this]; decide)]

theorem merge_main {n : NumLib} {s : Elem} (h : Held n s) : Everywhere Clonable s → Everywhere Lossless s →
    Everywhere Tidy s → s.complex = true → Merges n s := by
  induction h with
  | field => intro _ _ _ h; cases h
  | @points a pts unk ha =>
    intro _ hl _ _ y hy hyc hty
    cases y with
    | field => cases hyc
    | node t' a' slots' mis' unk' =>
      have : t' = Ty.«coordinates» := hty
      subst this
      have hfirst := everywhere_top hl
      have ha0 : a = .empty := (hfirst.1 rfl).1
      subst ha0
      cases hy.1 with
      | node _ htext => cases htext
      | text ht => exact absurd ht (by decide)
      | @points _ pts' _ ha' =>
        have hm : merged (.node Ty.«coordinates» .empty (pointTextSlots pts) [] unk)
            (.node Ty.«coordinates» a' (pointTextSlots pts') [] unk') =
            .node Ty.«coordinates» a' (pointTextSlots pts) [] unk' := by
          rw [merged]
          simp only [if_true, mergedAttrs_empty, List.append_nil]
        refine ⟨?_, ?_⟩
        · rw [mergeElements]
          have := mergers_eq n (t := Ty.«coordinates») (slots := pointTextSlots pts) (mis := [])
            (by intro x hx; cases hx)
          rw [not_saved _ (by decide)] at this
          rw [this]
          simp only [List.map_nil, Merging.rounds, Outcome.ok_bind]
          rw [mergeFields_points ha', hm]
        · rw [hm]
          refine ⟨.points ha', .node (by intro x hx; cases hx) ?_ (by intro x hx; cases hx)⟩
          intro m x hx
          unfold pointTextSlots setSlot at hx
          split at hx
          · obtain ⟨s, _, rfl⟩ := List.mem_map.1 hx
            exact .field trivial
          · cases hx
  | @text t a slots mis unk ht ha hs hmis hmk ihm =>
    intro _ _ htd _ y hy hyc hty
    have htext : textual t = true := (textual_sets t).2 (by rcases ht with h | h | h <;> simp [h])
    have hnc : t ≠ Ty.«coordinates» := by rcases ht with rfl | rfl | rfl <;> decide
    have htop := everywhere_top htd
    cases y with
    | field => cases hyc
    | node t' a' slots' mis' unk' =>
      have : t' = t := hty
      subst this
      have hm : merged (.node t' a slots mis unk) (.node t' a' slots' mis' unk') =
          .node t' (mergedAttrs a a') slots' (mis' ++ mis) unk' := by
        rw [merged]
        simp only [if_neg hnc, htext, if_true]
      have htop' : ∀ x ∈ mis', x.complex = false := everywhere_top hy.2
      obtain ⟨ha', hs', hmis', hmk'⟩ : a'.Held n (classAt t') ∧ ((slots' = fun _ => []) ∨ (∃ s, slots' = textSlots s)) ∧
          (∀ x ∈ mis', taker t' x = none) ∧ (∀ x ∈ mis', Held n x) := by
        cases hy.1 with
        | node _ hx => rw [htext] at hx; cases hx
        | text _ h1 h2 h3 h4 => exact ⟨h1, h2, h3, h4⟩
        | points => exact absurd rfl hnc
      refine ⟨?_, ?_⟩
      · rw [mergeElements]
        simp only
        rw [mergers_eq n htop, not_saved _ htext]
        simp only [List.map_nil, Merging.rounds, Outcome.ok_bind]
        rw [mergeFields_text ht ha ha' slots slots' mis' hmis htop, hm]
      · rw [hm]
        have h0 : ∀ x ∈ mis' ++ mis, x.complex = false := by
          intro x hx
          rcases List.mem_append.1 hx with h | h
          · exact htop' x h
          · exact htop x h
        refine ⟨.text ht (mergedAttrs_held ha ha') hs' ?_ ?_, .node h0 ?_ ?_⟩
        · intro x hx
          rcases List.mem_append.1 hx with h | h
          · exact hmis' x h
          · exact hmis x h
        · intro x hx
          rcases List.mem_append.1 hx with h | h
          · exact hmk' x h
          · exact hmk x h
        · intro m x hx
          have := hy.2
          cases this with
          | node _ h1 _ => exact h1 m x hx
        · intro x hx
          have := h0 x hx
          cases x with
          | node => cases this
          | field => exact .field trivial
  | @node t a slots mis unk hclass htext ha hslots hmis hk hmk ihs ihm =>
    intro hcl hls htd _ y hy hyc hty
    obtain ⟨c, hc⟩ := Option.isSome_iff_exists.1 hclass
    have hheld : Held n (.node t a slots mis unk) := .node hclass htext ha hslots hmis hk hmk
    have hP := held_placed htext hheld (everywhere_top hcl) (everywhere_top hls)
    have htop : ∀ x ∈ mis, x.complex = false := everywhere_top htd
    have hcat := classAt_eq hc
    cases y with
    | field => cases hyc
    | node t' a' slots' mis' unk' =>
      have : t' = t := hty
      subst this
      have htop' : ∀ x ∈ mis', x.complex = false := everywhere_top hy.2
      obtain ⟨ha', hslots', hmis', hk', hmk'⟩ : a'.Held n (classAt t') ∧
          (∀ m, ∀ x ∈ slots' m, ∃ act, taker t' x = some act ∧ act.mem = m ∧
            (act.isCdata = true ∧ (∃ t' s, x = .field t' s) ∨ Settled n act x) ∧
            (act.isArray = false → slots' m = [x])) ∧ (∀ x ∈ mis', taker t' x = none) ∧
          (∀ m, ∀ x ∈ slots' m, Held n x) ∧ (∀ x ∈ mis', Held n x) := by
        cases hy.1 with
        | node _ _ h1 h2 h3 h4 h5 => exact ⟨h1, h2, h3, h4, h5⟩
        | text hx => rcases hx with rfl | rfl | rfl <;> cases htext
        | points => cases htext
      have tidy' : ∀ m, ∀ x ∈ slots' m, Everywhere Tidy x := by
        have := hy.2
        cases this with
        | node _ h1 _ => exact h1
      have tidyS : ∀ m, ∀ x ∈ slots m, Everywhere Tidy x := by
        cases htd with
        | node _ h1 _ => exact h1
      have clS : ∀ m, ∀ x ∈ slots m, Everywhere Clonable x := by
        cases hcl with
        | node _ h1 _ => exact h1
      have lsS : ∀ m, ∀ x ∈ slots m, Everywhere Lossless x := by
        cases hls with
        | node _ h1 _ => exact h1
      -- the children of the source
      have inner_iff : ∀ {m x}, x ∈ slots m → (x.complex = true ↔ isInner c m = true) := by
        intro m x hx
        rw [held_saves hheld hx, hcat]
        unfold isInner
        rw [List.any_eq_true]
        constructor
        · rintro ⟨w, h1, h2, h3⟩
          exact ⟨w, h1, by rw [member_mem] at h3; simp [h3, h2]⟩
        · rintro ⟨w, h1, h2⟩
          simp only [Bool.and_eq_true, decide_eq_true_eq] at h2
          exact ⟨w, h1, h2.2, by rw [member_mem]; exact h2.1⟩
      have inner_iff' : ∀ {m x}, x ∈ slots' m → (x.complex = true ↔ isInner c m = true) := by
        intro m x hx
        rw [held_saves hy.1 hx, hcat]
        unfold isInner
        rw [List.any_eq_true]
        constructor
        · rintro ⟨w, h1, h2, h3⟩
          exact ⟨w, h1, by rw [member_mem] at h3; simp [h3, h2]⟩
        · rintro ⟨w, h1, h2⟩
          simp only [Bool.and_eq_true, decide_eq_true_eq] at h2
          exact ⟨w, h1, h2.2, by rw [member_mem]; exact h2.1⟩
      have okItem : ∀ m, isInner c m = true → ∀ x ∈ slots m, OkItem n t' c x ∧ memOf t' x = m := by
        intro m hin x hx
        have hcx := (inner_iff hx).2 hin
        obtain ⟨act, h1, h2, h3, h4⟩ := hslots m x hx
        unfold isInner at hin
        obtain ⟨w, hw1, hw2⟩ := List.any_eq_true.1 hin
        simp only [Bool.and_eq_true, decide_eq_true_eq] at hw2
        refine ⟨⟨hcx, ⟨act, h1, one_or_many hcx h3, w, hw1, hw2.2, by rw [hw2.1, h2]⟩,
          clone_self (hk m x hx) (clS m x hx) (lsS m x hx) hcx, ⟨hk m x hx, tidyS m x hx⟩,
          ihs m x hx (clS m x hx) (lsS m x hx) (tidyS m x hx) hcx⟩, ?_⟩
        unfold memOf
        rw [h1]
        exact h2
      have okKids : ∀ x ∈ innerKids c slots, OkItem n t' c x := by
        intro x hx
        unfold innerKids at hx
        obtain ⟨w, hw, hx⟩ := List.mem_flatMap.1 hx
        split at hx
        · rename_i hs
          refine (okItem w.mem ?_ x hx).1
          unfold isInner
          rw [List.any_eq_true]
          exact ⟨w, hw, by simp [hs]⟩
        · cases hx
      have keeps0 : ∀ m, isInner c m = true → Keeps n (slots' m) (slots' m) := by
        intro m hin i z hz
        have hzm : z ∈ slots' m := List.mem_of_getElem? hz
        exact ⟨z, hz, rfl, ⟨hk' m z hzm, tidy' m z hzm⟩, (inner_iff' hzm).2 hin⟩
      obtain ⟨gone, hrounds⟩ := rounds_spec hc hy.1 htop' (innerKids c slots) slots' [] okKids (pairwise_inner hc hP)
        (by intro s hs; cases hs) (by
          intro m _ hsv
          refine keeps0 m ?_
          obtain ⟨w, h1, h2, h3⟩ := hsv
          unfold isInner
          rw [List.any_eq_true]
          exact ⟨w, h1, by simp [h2, h3]⟩)
      -- each member
      have spec : ∀ m, fieldSlots t' slots ((innerKids c slots).foldl (stepSlots t' slots') slots') m =
          mergedSlots t' slots slots' m := by
        intro m
        unfold fieldSlots mergedSlots
        rw [foldl_stepSlots, filter_inner hc hP, hcat]
        by_cases hin : isInner c m = true
        · have hnv : isValue c m = false := by
            unfold isValue
            rw [List.any_eq_false]
            intro w hw
            simp only [Bool.and_eq_true, decide_eq_true_eq, Bool.not_eq_true', not_and]
            intro hwm
            unfold isInner at hin
            obtain ⟨w', hw1, hw2⟩ := List.any_eq_true.1 hin
            simp only [Bool.and_eq_true, decide_eq_true_eq] at hw2
            have : w' = w := nodup_map_inj (nodup_writes (classOf_pair hc)) hw1 hw (by rw [hw2.1, hwm])
            subst this
            rw [hw2.2]
            decide
          rw [hnv, if_pos hin]
          simp only [Bool.false_eq_true, if_false]
          cases hmany : holdsMany t' m with
          | true =>
            simp only [if_true]
            rw [mergedItems_complex _ _ _ fun x hx => (inner_iff hx).2 hin]
          | false =>
            simp only [Bool.false_eq_true, if_false]
            cases hs : slots m with
            | nil => rfl
            | cons x xs =>
              obtain ⟨act, h1, h2, h3, h4⟩ := hslots m x (by rw [hs]; simp)
              have harr : act.isArray = false := by rw [← holdsMany_act hc h1, h2, hmany]
              have := h4 harr
              rw [hs] at this
              simp only [List.cons.injEq, true_and] at this
              subst this
              simp only [List.foldl_cons, List.foldl_nil, stepItem]
              cases hs' : slots' m with
              | nil => rfl
              | cons y ys =>
                obtain ⟨act', h1', h2', h3', h4'⟩ := hslots' m y (by rw [hs']; simp)
                have harr' : act'.isArray = false := by rw [← holdsMany_act hc h1', h2', hmany]
                have := h4' harr'
                rw [hs'] at this
                simp only [List.cons.injEq, true_and] at this
                subst this
                rw [mergedItem]
                by_cases hxy : y.ty = x.ty
                · simp [List.findIdx?_cons, hxy, changeAt]
                · simp [List.findIdx?_cons, hxy]
                  exact fun h => absurd h.symm hxy
        · have hin : isInner c m = false := by simpa using hin
          have simple : ∀ x ∈ slots m, x.complex = false := by
            intro x hx
            cases hcx : x.complex with
            | false => rfl
            | true => rw [(inner_iff hx).1 hcx] at hin; cases hin
          rw [hin]
          simp only [Bool.false_eq_true, if_false, List.foldl_nil]
          have hval : isValue c m = true ∨ slots m = [] := by
            cases hs : slots m with
            | nil => exact .inr rfl
            | cons x xs =>
              left
              obtain ⟨act, h1, h2, h3, _⟩ := hP.placed m x (by rw [hs]; simp)
              have hun : t' = Ty.«XalLocality» → act.mem ≠ M.«localityname» := by
                intro hu1 hu2
                have hl := hP.locality hu1
                rw [← hu2, h2, hs] at hl
                cases hl
              obtain ⟨w, hw1, hw2, _⟩ := write_of hc h1 htext hun
              unfold isValue
              rw [List.any_eq_true]
              refine ⟨w, hw1, ?_⟩
              cases hsv : w.saves with
              | false => simp [hw2, h2]
              | true =>
                exfalso
                unfold isInner at hin
                rw [List.any_eq_false] at hin
                exact hin w hw1 (by simp [hw2, h2, hsv])
          have key : overValues t' m (slots m) (slots' m) =
              if holdsMany t' m then mergedItems (slots m) (slots' m) (slots' m) else mergedItem (slots m) (slots' m) := by
            unfold overValues
            split
            · rw [mergedItems_simple _ _ _ simple]
            · rename_i hmany
              cases hs : slots m with
              | nil => rfl
              | cons x xs =>
                obtain ⟨act, h1, h2, h3, h4⟩ := hslots m x (by rw [hs]; simp)
                have harr : act.isArray = false := by
                  rw [← holdsMany_act hc h1, h2]; simpa using hmany
                have := h4 harr
                rw [hs] at this
                simp only [List.cons.injEq, true_and] at this
                subst this
                have hx := simple x (by rw [hs]; simp)
                cases x with
                | node => cases hx
                | field tx sx =>
                  rw [mergedItem]
                  simp only [reduceCtorEq, if_false]
                  split
                  · split
                    · rfl
                    · rfl
                  · rfl
          rcases hval with hv | hv
          · rw [if_pos hv]
            exact key
          · rw [hv] at key ⊢
            rw [← key, overValues_nil]
            split <;> rfl
      refine ⟨?_, ?_⟩
      · rw [mergeElements]
        simp only
        rw [mergers_eq n htop, hcat, hrounds]
        simp only [Outcome.ok_bind]
        rw [mergeFields_node hc htext hP htop ha ha', merged_node htext]
        congr 2
        funext m
        exact spec m
      · rw [merged_node htext]
        have fits' : ∀ m, ∀ x ∈ slots' m, Fits n t' m x := by
          intro m x hx
          obtain ⟨act, h1, h2, h3, _⟩ := hslots' m x hx
          exact ⟨⟨act, h1, h2, h3⟩, hk' m x hx, tidy' m x hx⟩
        have fitsS : ∀ m, ∀ x ∈ slots m, Fits n t' m x := by
          intro m x hx
          obtain ⟨act, h1, h2, h3, _⟩ := hslots m x hx
          exact ⟨⟨act, h1, h2, h3⟩, hk m x hx, tidyS m x hx⟩
        have simple : ∀ m, isInner c m = false → ∀ x ∈ slots m, x.complex = false := by
          intro m hin x hx
          cases hcx : x.complex with
          | false => rfl
          | true => rw [(inner_iff hx).1 hcx] at hin; cases hin
        have one : ∀ m, holdsMany t' m = false → mergedSlots t' slots slots' m = slots' m ∨
            ∃ x, mergedSlots t' slots slots' m = [x] := by
          intro m hm
          unfold mergedSlots
          rw [hm]
          simp only [Bool.false_eq_true, if_false]
          cases hs : slots m with
          | nil => exact .inl rfl
          | cons x xs =>
            right
            rw [mergedItem]
            simp only
            split
            · split <;> exact ⟨_, rfl⟩
            · exact ⟨_, rfl⟩
        have fits : ∀ m, ∀ x ∈ mergedSlots t' slots slots' m, Fits n t' m x := by
          intro m x hx
          cases hin : isInner c m with
          | true =>
            rw [← spec m] at hx
            unfold fieldSlots at hx
            have hnv : isValue c m = false := by
              unfold isValue
              rw [List.any_eq_false]
              intro w hw
              simp only [Bool.and_eq_true, decide_eq_true_eq, Bool.not_eq_true', not_and]
              intro hwm
              unfold isInner at hin
              obtain ⟨w', hw1, hw2⟩ := List.any_eq_true.1 hin
              simp only [Bool.and_eq_true, decide_eq_true_eq] at hw2
              have : w' = w := nodup_map_inj (nodup_writes (classOf_pair hc)) hw1 hw (by rw [hw2.1, hwm])
              subst this
              rw [hw2.2]
              decide
            rw [hcat, hnv, foldl_stepSlots, filter_inner hc hP, if_pos hin] at hx
            simp only [Bool.false_eq_true, if_false] at hx
            cases hmany : holdsMany t' m with
            | true =>
              rw [hmany] at hx
              exact fits_fold (c := c) (slots m) (slots' m) (fun x hx => (okItem m hin x hx).1)
                (fun x hx => (okItem m hin x hx).2) (keeps0 m hin) (fits' m) x hx
            | false =>
              rw [hmany] at hx
              cases hs : slots m with
              | nil => rw [hs] at hx; exact fits' m x hx
              | cons z zs =>
                obtain ⟨act, h1, h2, h3, h4⟩ := hslots m z (by rw [hs]; simp)
                have harr : act.isArray = false := by rw [← holdsMany_act hc h1, h2, hmany]
                have := h4 harr
                rw [hs] at this
                simp only [List.cons.injEq, true_and] at this
                subst this
                rw [hs] at hx
                have hz := okItem m hin z (by rw [hs]; simp)
                exact fits_step hz.1 hz.2 (keeps0 m hin) (fits' m) x hx
          | false =>
            have hsm := simple m hin
            unfold mergedSlots at hx
            split at hx
            · rw [mergedItems_simple _ _ _ hsm] at hx
              rcases List.mem_append.1 hx with hx | hx
              · exact fits' m x hx
              · exact fitsS m x hx
            · cases hs : slots m with
              | nil => rw [hs] at hx; exact fits' m x hx
              | cons z zs =>
                have hz := fitsS m z (by rw [hs]; simp)
                have hzc := hsm z (by rw [hs]; simp)
                rw [hs, mergedItem] at hx
                cases z with
                | node => cases hzc
                | field tz sz =>
                  have : x = .field tz sz := by
                    simp only at hx
                    split at hx
                    · split at hx
                      · exact List.mem_singleton.1 hx
                      · exact List.mem_singleton.1 hx
                    · exact List.mem_singleton.1 hx
                  rw [this]
                  exact hz
        have h0 : ∀ x ∈ mis' ++ mis, x.complex = false := by
          intro x hx
          rcases List.mem_append.1 hx with h | h
          · exact htop' x h
          · exact htop x h
        refine ⟨.node hclass htext (mergedAttrs_held ha ha') ?_ ?_ (fun m x hx => (fits m x hx).2.1) ?_,
          .node h0 (fun m x hx => (fits m x hx).2.2) ?_⟩
        · intro m x hx
          obtain ⟨⟨act, h1, h2, h3⟩, _⟩ := fits m x hx
          refine ⟨act, h1, h2, h3, fun harr => ?_⟩
          have hm : holdsMany t' m = false := by rw [← h2, holdsMany_act hc h1, harr]
          rcases one m hm with h | ⟨z, h⟩
          · rw [h] at hx ⊢
            obtain ⟨act', h1', h2', _, h4'⟩ := hslots' m x hx
            exact h4' (by rw [← holdsMany_act hc h1', h2', hm])
          · rw [h] at hx ⊢
            rw [List.mem_singleton.1 hx]
        · intro x hx
          rcases List.mem_append.1 hx with h | h
          · exact hmis' x h
          · exact hmis x h
        · intro x hx
          rcases List.mem_append.1 hx with h | h
          · exact hmk' x h
          · exact hmk x h
        · intro x hx
          have := h0 x hx
          cases x with
          | node => cases this
          | field => exact .field trivial

end Kml.Dom
