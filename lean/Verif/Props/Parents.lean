import Verif.Model.Parents
import Verif.Props.Referent
/-! C119: the parent of an element. -/
namespace Kml.Parents
open Kml

theorem bind_iff {α β : Type} {x : Outcome α} {f : α → Outcome β} {b : β} :
    (x >>= f) = .ok b ↔ ∃ a, x = .ok a ∧ f a = .ok b := by
  cases x with
  | ok a => exact ⟨fun h => ⟨a, rfl, h⟩, fun ⟨_, h, k⟩ => by injection h with h; subst h; exact k⟩
  | throws => exact ⟨(fun h => nomatch h), (fun ⟨_, h, _⟩ => nomatch h)⟩
  | ub => exact ⟨(fun h => nomatch h), (fun ⟨_, h, _⟩ => nomatch h)⟩

theorem release_ptrs (s : Referent.State) (todo : List Nat) : ∀ q ∈ (Referent.releaseAll s todo).ptrs, q ∈ s.ptrs := by
  fun_induction Referent.releaseAll s todo with
  | case1 s => exact fun q h => h
  | case2 s d todo hc ih => exact fun q h => (List.mem_filter.1 (ih q h)).1
  | case3 s d todo hc ih => exact fun q h => ih q h

theorem drop_ptrs (s : Referent.State) (a : Referent.Owner) (t : Nat) :
    ∀ q ∈ (Referent.step s (.drop a t)).ptrs, q ∈ s.ptrs := by
  intro q h
  simp only [Referent.step] at h
  split at h
  · exact List.mem_of_mem_erase (release_ptrs _ _ q h)
  · exact h

theorem copy_ptrs (s : Referent.State) (src : Referent.Owner) (t : Nat) (a : Referent.Owner) :
    ∀ q ∈ (Referent.step s (.copy src t a)).ptrs, q = (a, t) ∨ q ∈ s.ptrs := by
  intro q h
  simp only [Referent.step] at h
  split at h
  · exact List.mem_cons.1 h
  · exact .inr h

theorem new_ptrs (s : Referent.State) (a : Referent.Owner) :
    ∀ q ∈ (Referent.step s (.new a)).ptrs, q = (a, s.next) ∨ q ∈ s.ptrs := by
  intro q h
  simp only [Referent.step] at h
  split at h
  · exact List.mem_cons.1 h
  · exact .inr h

/-- What is so in every state. -/
structure Inv (s : State) : Prop where
  ref : Referent.Inv s.ref []
  member : ∀ p e, (.member p, e) ∈ s.ref.ptrs → s.parent e = some p

theorem inv_init : Inv {} :=
  ⟨Referent.run_inv [], (fun _ _ h => nomatch h)⟩

theorem step_keep (s s' : State) (op : Op) (hi : Inv s) (h : step s op = .ok s') :
    Inv s' ∧ (∀ e p, s.parent e = some p → s'.parent e = some p) ∧
    ∀ e p, s'.parent e = some p → s.parent e = some p ∨ ∃ w old, op = .add p w e old := by
  have cl : ∀ (r : Referent.State), Referent.Inv r [] → (∀ p e, (.member p, e) ∈ r.ptrs → (.member p, e) ∈ s.ref.ptrs) →
      Inv { s with ref := r } := fun r hr hm => ⟨hr, fun p e h => hi.member p e (hm p e h)⟩
  have same : (∀ e p, s.parent e = some p → s.parent e = some p) ∧
      ∀ e p, s.parent e = some p → s.parent e = some p ∨ ∃ w old, op = .add p w e old := ⟨fun _ _ h => h, fun _ _ h => .inl h⟩
  cases op with
  | create v =>
    injection h with h; subst h
    refine ⟨cl _ (Referent.step_inv _ hi.ref _) fun p e hm => ?_, same⟩
    exact (new_ptrs _ _ _ hm).resolve_left (fun e => nomatch e)
  | share w e v =>
    injection h with h; subst h
    refine ⟨cl _ (Referent.step_inv _ hi.ref _) fun p e hm => ?_, same⟩
    exact (copy_ptrs _ _ _ _ _ hm).resolve_left (fun e => nomatch e)
  | forget v e =>
    injection h with h; subst h
    exact ⟨cl _ (Referent.step_inv _ hi.ref _) fun p e hm => drop_ptrs _ _ _ _ hm, same⟩
  | child p e v =>
    simp only [step] at h
    split at h
    · injection h with h; subst h
      refine ⟨cl _ (Referent.step_inv _ hi.ref _) fun p e hm => ?_, same⟩
      exact (copy_ptrs _ _ _ _ _ hm).resolve_left (fun e => nomatch e)
    · injection h with h; subst h; exact ⟨hi, same⟩
  | clear p e =>
    simp only [step] at h
    split at h
    · injection h with h; subst h
      exact ⟨cl _ (Referent.step_inv _ hi.ref _) fun p e hm => drop_ptrs _ _ _ _ hm, same⟩
    · injection h with h; subst h; exact ⟨hi, same⟩
  | take p e v =>
    simp only [step] at h
    split at h
    · injection h with h; subst h
      refine ⟨cl _ (Referent.step_inv _ (Referent.step_inv _ hi.ref _) _) fun p e hm => ?_, same⟩
      exact (copy_ptrs _ _ _ _ _ (drop_ptrs _ _ _ _ hm)).resolve_left (fun e => nomatch e)
    · injection h with h; subst h; exact ⟨hi, same⟩
  | add p w e old =>
    simp only [step] at h
    split at h
    case isFalse => injection h with h; subst h; exact ⟨hi, same⟩
    next hc =>
    injection h with h; subst h
    have old_inv : ∀ r, Referent.Inv r [] → Referent.Inv (dropOld r p old) [] := by
      intro r hr
      cases old with
      | none => exact hr
      | some o => exact Referent.step_inv r hr (.drop (.member p) o)
    have old_ptrs : ∀ r, ∀ q ∈ (dropOld r p old).ptrs, q ∈ r.ptrs := by
      intro r q hq
      cases old with
      | none => exact hq
      | some o => exact drop_ptrs _ _ _ q hq
    refine ⟨⟨old_inv _ (Referent.step_inv _ hi.ref _), fun q x hm => ?_⟩, fun x q hx => ?_, fun x q hx => ?_⟩
    · dsimp only at hm ⊢
      rcases copy_ptrs _ _ _ _ _ (old_ptrs _ _ hm) with he | hm
      · injection he with h1 h2
        injection h1 with h1
        rw [if_pos h2, h1]
      · have := hi.member q x hm
        rw [if_neg (by rintro rfl; rw [hc.2.2] at this; exact nomatch this)]
        exact this
    · dsimp only
      rw [if_neg (by rintro rfl; rw [hc.2.2] at hx; exact nomatch hx)]
      exact hx
    · dsimp only at hx
      split at hx
      · next hxe =>
        injection hx with hx
        exact .inr ⟨w, old, by rw [hx, hxe]⟩
      · exact .inl hx
  | parent e v =>
    simp only [step] at h
    split at h
    case isFalse => injection h with h; subst h; exact ⟨hi, same⟩
    obtain ⟨o, ho, h⟩ := bind_iff.1 h
    cases o with
    | none => injection h with h; subst h; exact ⟨hi, same⟩
    | some p =>
      injection h with h; subst h
      have ha : s.ref.alive p = true := by
        unfold getParent at ho
        split at ho
        · exact nomatch ho
        · split at ho
          · next ha => injection ho with ho; injection ho with ho; rw [← ho]; exact ha
          · exact nomatch ho
      have hp := hi.ref.pos p ha
      simp only [Referent.pointersTo, List.count_nil, Nat.add_zero] at hp
      obtain ⟨q, hq, he⟩ := List.mem_map.1 (List.count_pos_iff.1 hp)
      have hq' : (q.1, p) ∈ s.ref.ptrs := by rw [← he]; exact hq
      have key := Referent.step_inv s.ref hi.ref (.copy q.1 p (.client v))
      simp only [Referent.step] at key
      rw [if_pos ⟨hq', rfl⟩] at key
      refine ⟨cl _ key fun p' e' hm => ?_, same⟩
      exact (List.mem_cons.1 hm).resolve_left (fun e => nomatch e)

theorem run_keep : ∀ (ops : List Op) (s s' : State), Inv s → run s ops = .ok s' →
    Inv s' ∧ (∀ e p, s.parent e = some p → s'.parent e = some p) ∧
    ∀ e p, s'.parent e = some p → s.parent e = some p ∨ ∃ w old, .add p w e old ∈ ops
  | [], s, s', hi, h => by
    injection h with h; subst h
    exact ⟨hi, fun _ _ h => h, fun _ _ h => .inl h⟩
  | op :: ops, s, s', hi, h => by
    obtain ⟨s1, h1, h⟩ := bind_iff.1 h
    obtain ⟨i1, k1, b1⟩ := step_keep s s1 op hi h1
    obtain ⟨i2, k2, b2⟩ := run_keep ops s1 s' i1 h
    refine ⟨i2, fun e p he => k2 e p (k1 e p he), fun e p he => ?_⟩
    rcases b2 e p he with h' | ⟨w, old, h'⟩
    · rcases b1 e p h' with h'' | ⟨w, old, h''⟩
      · exact .inl h''
      · exact .inr ⟨w, old, by rw [← h'']; exact List.mem_cons_self⟩
    · exact .inr ⟨w, old, List.mem_cons_of_mem _ h'⟩

theorem pointed_iff {s : State} (hi : Inv s) (p : Nat) : s.ref.alive p = true ↔ ∃ a, (a, p) ∈ s.ref.ptrs := by
  constructor
  · intro ha
    have hp := hi.ref.pos p ha
    simp only [Referent.pointersTo, List.count_nil, Nat.add_zero] at hp
    obtain ⟨q, hq, he⟩ := List.mem_map.1 (List.count_pos_iff.1 hp)
    exact ⟨q.1, by rw [← he]; exact hq⟩
  · rintro ⟨a, ha⟩
    exact hi.ref.target _ ha

/-- Whatever was done before, the parent of a child is the element that has it. -/
theorem C119_child (ops : List Op) (s : State) (h : run {} ops = .ok s) (p e : Nat)
    (hm : (.member p, e) ∈ s.ref.ptrs) : getParent s e = .ok (some p) := by
  have hi := (run_keep ops _ s inv_init h).1
  unfold getParent
  rw [hi.member p e hm]
  dsimp only
  rw [if_pos (hi.ref.owner _ hm p rfl)]

/-- The parent of an element that was added to `p` is `p`, as long as anything still points to `p`. -/
theorem C119_added_partial (before after : List Op) (s s1 s2 : State) (h0 : run {} before = .ok s) (p v w e : Nat)
    (hp : (.client v, p) ∈ s.ref.ptrs) (he : (.client w, e) ∈ s.ref.ptrs) (hn : getParent s e = .ok none)
    (old : Option Nat) (h1 : step s (.add p w e old) = .ok s1) (h2 : run s1 after = .ok s2) :
    ((∃ a, (a, p) ∈ s2.ref.ptrs) → getParent s2 e = .ok (some p)) ∧
    ((¬ ∃ a, (a, p) ∈ s2.ref.ptrs) → getParent s2 e = .ub) := by
  have i0 := (run_keep before _ s inv_init h0).1
  have i1 := (step_keep s s1 _ i0 h1).1
  obtain ⟨i2, k2, _⟩ := run_keep after s1 s2 i1 h2
  have hnone : s.parent e = none := by
    unfold getParent at hn
    split at hn
    · next hx => exact hx
    · split at hn
      · injection hn with hn; exact nomatch hn
      · exact nomatch hn
  have hh : handle s p = true := List.any_eq_true.2 ⟨_, hp, by simp⟩
  have hpar : s1.parent e = some p := by
    simp only [step] at h1
    rw [if_pos ⟨hh, he, hnone⟩] at h1
    injection h1 with h1
    subst h1
    exact if_pos rfl
  have hpar2 := k2 e p hpar
  constructor
  · intro ha
    unfold getParent
    rw [hpar2]
    dsimp only
    rw [if_pos ((pointed_iff i2 p).2 ha)]
  · intro ha
    unfold getParent
    rw [hpar2]
    dsimp only
    rw [if_neg fun hc => ha ((pointed_iff i2 p).1 hc)]

/-- An element has a parent only if it was added to it. -/
theorem C119_only_added (ops : List Op) (s : State) (h : run {} ops = .ok s) (e p : Nat)
    (hg : getParent s e = .ok (some p)) : ∃ w old, .add p w e old ∈ ops := by
  have hb := (run_keep ops _ s inv_init h).2.2
  have hp : s.parent e = some p := by
    unfold getParent at hg
    split at hg
    · exact nomatch hg
    · next q hq =>
      split at hg
      · injection hg with hg; rw [hq]; exact hg
      · exact nomatch hg
  exact (hb e p hp).resolve_left (fun h => nomatch h)

/-- No history that never got a dead parent used dead memory, and memory is given back: an element lives exactly as long
as a smart pointer to it. -/
theorem C119_memory (ops : List Op) (s : State) (h : run {} ops = .ok s) :
    s.ref.ub = false ∧ ∀ e, s.ref.alive e = true ↔ ∃ a, (a, e) ∈ s.ref.ptrs :=
  have hi := (run_keep ops _ s inv_init h).1
  ⟨hi.ref.ub, pointed_iff hi⟩

theorem release_next (s : Referent.State) (todo : List Nat) : (Referent.releaseAll s todo).next = s.next := by
  fun_induction Referent.releaseAll s todo with
  | case1 s => rfl
  | case2 s d todo hc ih => exact ih
  | case3 s d todo hc ih => exact ih

theorem release_client (s : Referent.State) (todo : List Nat) (v e : Nat) :
    (.client v, e) ∈ s.ptrs → (.client v, e) ∈ (Referent.releaseAll s todo).ptrs := by
  fun_induction Referent.releaseAll s todo with
  | case1 s => exact fun h => h
  | case2 s d todo hc ih =>
    exact fun h => ih (List.mem_filter.2 ⟨h, decide_eq_true (fun e => nomatch e)⟩)
  | case3 s d todo hc ih => exact fun h => ih h

theorem drop_client (s : Referent.State) (p t : Nat) :
    (Referent.step s (.drop (.member p) t)).next = s.next ∧
    ∀ v e, (.client v, e) ∈ s.ptrs → (.client v, e) ∈ (Referent.step s (.drop (.member p) t)).ptrs := by
  simp only [Referent.step]
  split
  · exact ⟨release_next _ _, fun v e h =>
      release_client _ _ v e ((List.mem_erase_of_ne (by intro e; injection e with e1 _; exact nomatch e1)).2 h)⟩
  · exact ⟨rfl, fun _ _ h => h⟩

theorem copy_client (s : Referent.State) (src : Referent.Owner) (t : Nat) (a : Referent.Owner) :
    (Referent.step s (.copy src t a)).next = s.next ∧ ∀ q ∈ s.ptrs, q ∈ (Referent.step s (.copy src t a)).ptrs := by
  simp only [Referent.step]
  split
  · exact ⟨rfl, fun q h => List.mem_cons_of_mem _ h⟩
  · exact ⟨rfl, fun q h => h⟩

/-- The client has every element there ever was. -/
structure Kept (s : State) : Prop where
  all : ∀ o < s.ref.next, ∃ v, (.client v, o) ∈ s.ref.ptrs
  parent : ∀ e p, s.parent e = some p → p < s.ref.next

theorem step_kept (s : State) (op : Op) (hi : Inv s) (hs : Kept s) (hk : ∀ v e, op ≠ .forget v e) :
    ∃ s', step s op = .ok s' ∧ Kept s' := by
  have cl : ∀ r : Referent.State, r.next = s.ref.next →
      (∀ v e, (.client v, e) ∈ s.ref.ptrs → (.client v, e) ∈ r.ptrs) → Kept { s with ref := r } := by
    intro r hr hm
    refine ⟨fun o ho => ?_, fun e p h => ?_⟩
    · obtain ⟨v, hv⟩ := hs.all o (hr ▸ ho)
      exact ⟨v, hm v o hv⟩
    · dsimp only; rw [hr]; exact hs.parent e p h
  cases op with
  | create v =>
    refine ⟨_, rfl, fun o ho => ?_, fun e p h => ?_⟩
    · simp only [Referent.step, Referent.usable, if_true, Referent.addRef] at ho ⊢
      by_cases e : o = s.ref.next
      · exact ⟨v, by rw [e]; exact List.mem_cons_self⟩
      · obtain ⟨w, hw⟩ := hs.all o (by omega)
        exact ⟨w, List.mem_cons_of_mem _ hw⟩
    · simp only [Referent.step, Referent.usable, if_true, Referent.addRef]
      exact Nat.lt_succ_of_lt (hs.parent e p h)
  | share w e v =>
    exact ⟨_, rfl, cl _ (copy_client _ _ _ _).1 fun v e h => (copy_client _ _ _ _).2 _ h⟩
  | forget v e => exact absurd rfl (hk v e)
  | child p e v =>
    simp only [step]
    split
    · exact ⟨_, rfl, cl _ (copy_client _ _ _ _).1 fun v e h => (copy_client _ _ _ _).2 _ h⟩
    · exact ⟨_, rfl, hs⟩
  | clear p e =>
    simp only [step]
    split
    · exact ⟨_, rfl, cl _ (drop_client _ _ _).1 (drop_client _ _ _).2⟩
    · exact ⟨_, rfl, hs⟩
  | take p e v =>
    simp only [step]
    split
    · exact ⟨_, rfl, cl _ ((drop_client _ _ _).1.trans (copy_client _ _ _ _).1)
        fun v e h => (drop_client _ _ _).2 v e ((copy_client _ _ _ _).2 _ h)⟩
    · exact ⟨_, rfl, hs⟩
  | add p w e old =>
    simp only [step]
    split
    case isFalse => exact ⟨_, rfl, hs⟩
    next hc =>
    have hp : p < s.ref.next := by
      obtain ⟨q, hq, he⟩ := List.any_eq_true.1 hc.1
      have := of_decide_eq_true (Bool.and_eq_true _ _ ▸ he).1
      rw [← this]
      exact hi.ref.bound _ (hi.ref.target q hq)
    have hd : ∀ r, (dropOld r p old).next = r.next ∧
        ∀ v e, (.client v, e) ∈ r.ptrs → (.client v, e) ∈ (dropOld r p old).ptrs := by
      intro r
      cases old with
      | none => exact ⟨rfl, fun _ _ h => h⟩
      | some o => exact drop_client r p o
    have k := cl _ ((hd _).1.trans (copy_client s.ref (.client w) e (.member p)).1)
      fun v e' h => (hd _).2 v e' ((copy_client s.ref (.client w) e (.member p)).2 _ h)
    refine ⟨_, rfl, k.all, fun x q hx => ?_⟩
    dsimp only at hx
    split at hx
    · injection hx with hx
      rw [← hx, (hd _).1, (copy_client _ _ _ _).1]
      exact hp
    · exact k.parent x q hx
  | parent e v =>
    simp only [step]
    split
    case isFalse => exact ⟨_, rfl, hs⟩
    cases hp : s.parent e with
    | none =>
      unfold getParent
      rw [hp]
      exact ⟨_, rfl, hs⟩
    | some p =>
      obtain ⟨w, hw⟩ := hs.all p (hs.parent e p hp)
      unfold getParent
      rw [hp]
      dsimp only
      rw [if_pos (hi.ref.target _ hw)]
      exact ⟨_, rfl, cl _ rfl fun v e h => List.mem_cons_of_mem _ h⟩

/-- A client that keeps every element it made and all it was given never gets a dead parent: every history without
`forget` is defined. -/
theorem C119_kept_partial (ops : List Op) (hk : ∀ op ∈ ops, ∀ v e, op ≠ .forget v e) : (run {} ops).Safe := by
  have key : ∀ (ops : List Op) (s : State), Inv s → Kept s → (∀ op ∈ ops, ∀ v e, op ≠ .forget v e) → (run s ops).Safe := by
    intro ops
    induction ops with
    | nil => exact fun s _ _ _ => ⟨s, rfl⟩
    | cons op ops ih =>
      intro s hi hs hk
      obtain ⟨s1, h1, k1⟩ := step_kept s op hi hs (hk op List.mem_cons_self)
      unfold run
      rw [h1]
      exact ih s1 (step_keep s s1 op hi h1).1 k1 fun p hp => hk p (List.mem_cons_of_mem _ hp)
  exact key ops {} inv_init ⟨(fun _ h => nomatch h), (fun _ _ h => nomatch h)⟩ hk

theorem release_sub (s : Referent.State) (todo : List Nat) : (Referent.releaseAll s todo).ptrs.Sublist s.ptrs := by
  fun_induction Referent.releaseAll s todo with
  | case1 s => exact .refl _
  | case2 s d todo hc ih => exact ih.trans List.filter_sublist
  | case3 s d todo hc ih => exact ih

theorem release_alive (s : Referent.State) (todo : List Nat) (x : Nat) :
    (Referent.releaseAll s todo).alive x = true → s.alive x = true := by
  fun_induction Referent.releaseAll s todo with
  | case1 s => exact fun h => h
  | case2 s d todo hc ih =>
    intro h
    have := ih h
    simp only [Referent.delete, Referent.release] at this
    split at this
    · exact nomatch this
    · exact this
  | case3 s d todo hc ih => exact fun h => ih h

theorem release_member (s : Referent.State) (todo : List Nat) (x y : Nat) :
    (Referent.releaseAll s todo).alive x = true → (.member x, y) ∈ s.ptrs →
    (.member x, y) ∈ (Referent.releaseAll s todo).ptrs := by
  fun_induction Referent.releaseAll s todo with
  | case1 s => exact fun _ h => h
  | case2 s d todo hc ih =>
    intro ha h
    refine ih ha (List.mem_filter.2 ⟨h, decide_eq_true fun e => ?_⟩)
    injection e with e
    subst e
    have := release_alive _ _ _ ha
    simp [Referent.delete] at this
  | case3 s d todo hc ih => exact fun ha h => ih ha h

/-- No element holds another twice. -/
def Once (s : State) : Prop := ∀ p e, s.ref.ptrs.count (.member p, e) ≤ 1

theorem drop_once (r : Referent.State) (a : Referent.Owner) (t : Nat) (q : Referent.Owner × Nat) :
    (Referent.step r (.drop a t)).ptrs.count q ≤ r.ptrs.count q := by
  simp only [Referent.step]
  split
  · exact ((release_sub _ _).trans List.erase_sublist).count_le q
  · exact Nat.le_refl _

theorem drop_gone (r : Referent.State) (a : Referent.Owner) (t : Nat) (h : r.ptrs.count (a, t) ≤ 1) :
    (a, t) ∉ (Referent.step r (.drop a t)).ptrs := by
  simp only [Referent.step]
  split
  · intro hm
    have h1 := List.count_pos_iff.2 ((release_sub _ _).subset hm)
    simp only [List.count_erase_self] at h1
    omega
  · next hn => exact hn

theorem copy_once (r : Referent.State) (src a : Referent.Owner) (t p e : Nat) (ha : a = .member p → t = e → (a, t) ∉ r.ptrs)
    (h : r.ptrs.count (.member p, e) ≤ 1) : (Referent.step r (.copy src t a)).ptrs.count (.member p, e) ≤ 1 := by
  simp only [Referent.step]
  split
  · show List.count _ ((a, t) :: r.ptrs) ≤ 1
    rw [List.count_cons]
    split
    · next he =>
      have he := eq_of_beq he
      injection he with h1 h2
      have := List.count_eq_zero.2 (ha h1 h2)
      rw [h1, h2] at this
      omega
    · exact h
  · exact h

theorem step_once (s s' : State) (op : Op) (hi : Inv s) (ho : Once s) (h : step s op = .ok s') : Once s' := by
  intro p e
  have hpe := ho p e
  cases op with
  | create v =>
    injection h with h; subst h
    simp only [Referent.step, Referent.usable, if_true]
    show List.count _ ((.client v, s.ref.next) :: s.ref.ptrs) ≤ 1
    rw [List.count_cons_of_ne (by intro e; injection e with e _; exact nomatch e)]
    exact hpe
  | share w e v => injection h with h; subst h; exact copy_once _ _ _ _ _ _ (fun e => nomatch e) hpe
  | forget v e => injection h with h; subst h; exact Nat.le_trans (drop_once _ _ _ _) hpe
  | child q x v =>
    simp only [step] at h
    split at h
    · injection h with h; subst h; exact copy_once _ _ _ _ _ _ (fun e => nomatch e) hpe
    · injection h with h; subst h; exact hpe
  | clear q x =>
    simp only [step] at h
    split at h
    · injection h with h; subst h; exact Nat.le_trans (drop_once _ _ _ _) hpe
    · injection h with h; subst h; exact hpe
  | take q x v =>
    simp only [step] at h
    split at h
    · injection h with h; subst h
      exact Nat.le_trans (drop_once _ _ _ _) (copy_once _ _ _ _ _ _ (fun e => nomatch e) hpe)
    · injection h with h; subst h; exact hpe
  | add q w x old =>
    simp only [step] at h
    split at h
    case isFalse => injection h with h; subst h; exact hpe
    next hc =>
    injection h with h; subst h
    have h1 := copy_once s.ref (.client w) (.member q) x p e
      (fun _ _ hm => by have := hi.member q x hm; rw [hc.2.2] at this; exact nomatch this) hpe
    cases old with
    | none => exact h1
    | some o => exact Nat.le_trans (drop_once _ _ _ _) h1
  | parent x v =>
    simp only [step] at h
    split at h
    case isFalse => injection h with h; subst h; exact hpe
    obtain ⟨o, _, h⟩ := bind_iff.1 h
    cases o with
    | none => injection h with h; subst h; exact hpe
    | some q =>
      injection h with h; subst h
      show List.count _ ((.client v, q) :: s.ref.ptrs) ≤ 1
      rw [List.count_cons_of_ne (by intro e; injection e with e _; exact nomatch e)]
      exact hpe

theorem run_once : ∀ (ops : List Op) (s s' : State), Inv s → Once s → run s ops = .ok s' → Once s'
  | [], s, s', _, ho, h => by injection h with h; subst h; exact ho
  | op :: ops, s, s', hi, ho, h => by
    obtain ⟨s1, h1, h⟩ := bind_iff.1 h
    exact run_once ops s1 s' (step_keep s s1 op hi h1).1 (step_once s s1 op hi ho h1) h

/-- What the calls do, in any state a client can reach, to elements it has.  `DeleteXAt` takes the child out and gives it to
the client; `clear_x` takes it out; `add_x` and `set_x` of an element without parent put it in, and `set_x` takes out what the
field held; `get_x` and `GetParent` give the client a pointer, and a copy is a pointer; a new element is none there was. -/
theorem C119_calls (ops : List Op) (s s' : State) (h : run {} ops = .ok s) (p v : Nat) (hp : (.client v, p) ∈ s.ref.ptrs) :
    (∀ e w, (.member p, e) ∈ s.ref.ptrs → step s (.take p e w) = .ok s' →
      (.member p, e) ∉ s'.ref.ptrs ∧ (.client w, e) ∈ s'.ref.ptrs) ∧
    (∀ e, step s (.clear p e) = .ok s' → (.member p, e) ∉ s'.ref.ptrs) ∧
    (∀ e w, (.client w, e) ∈ s.ref.ptrs → getParent s e = .ok none → ∀ old, step s (.add p w e old) = .ok s' →
      old ≠ some e → (.member p, e) ∈ s'.ref.ptrs ∧ ∀ o, old = some o → (.member p, o) ∉ s'.ref.ptrs) ∧
    (∀ e w, (.member p, e) ∈ s.ref.ptrs → step s (.child p e w) = .ok s' →
      (.client w, e) ∈ s'.ref.ptrs ∧ (.member p, e) ∈ s'.ref.ptrs) ∧
    (∀ q w, getParent s p = .ok (some q) → step s (.parent p w) = .ok s' → (.client w, q) ∈ s'.ref.ptrs) ∧
    (∀ w, step s (.share v p w) = .ok s' → (.client w, p) ∈ s'.ref.ptrs) ∧
    (∀ w, step s (.create w) = .ok s' → (.client w, s.ref.next) ∈ s'.ref.ptrs ∧ ∀ a, (a, s.ref.next) ∉ s.ref.ptrs) := by
  have hi := (run_keep ops _ s inv_init h).1
  have ho := run_once ops _ s inv_init (fun _ _ => Nat.zero_le _) h
  have hh : handle s p = true := List.any_eq_true.2 ⟨_, hp, by simp⟩
  refine ⟨fun e w hm hs => ?_, fun e hs => ?_, fun e w he hn old hs hne => ?_, fun e w hm hs => ?_, fun q w hg hs => ?_,
    fun w hs => ?_, fun w hs => ?_⟩
  · simp only [step] at hs
    rw [if_pos hh] at hs
    injection hs with hs; subst hs
    refine ⟨drop_gone _ _ _ (copy_once _ _ _ _ _ _ (fun e => nomatch e) (ho p e)), (drop_client _ _ _).2 w e ?_⟩
    simp only [Referent.step]
    rw [if_pos ⟨hm, rfl⟩]
    exact List.mem_cons_self
  · simp only [step] at hs
    rw [if_pos hh] at hs
    injection hs with hs; subst hs
    exact drop_gone _ _ _ (ho p e)
  · have hnone : s.parent e = none := by
      unfold getParent at hn
      split at hn
      · next hx => exact hx
      · split at hn
        · injection hn with hn; exact nomatch hn
        · exact nomatch hn
    have i' := (step_keep s s' _ hi hs).1
    simp only [step] at hs
    rw [if_pos ⟨hh, he, hnone⟩] at hs
    injection hs with hs; subst hs
    have hin : (.member p, e) ∈ (Referent.step s.ref (.copy (.client w) e (.member p))).ptrs := by
      simp only [Referent.step]
      rw [if_pos ⟨he, hi.ref.target _ hp⟩]
      exact List.mem_cons_self
    have hcl := (copy_client s.ref (.client w) e (.member p)).2 _ hp
    have hnm : (.member p, e) ∉ s.ref.ptrs := fun hm => by
      have := hi.member p e hm; rw [hnone] at this; exact nomatch this
    cases old with
    | none => exact ⟨hin, fun _ h => nomatch h⟩
    | some o =>
      refine ⟨?_, fun o' h => ?_⟩
      · have hal : (Referent.step (Referent.step s.ref (.copy (.client w) e (.member p))) (.drop (.member p) o)).alive p = true :=
          i'.ref.target _ ((drop_client _ p o).2 v p hcl)
        show _ ∈ (Referent.step (Referent.step s.ref (.copy (.client w) e (.member p))) (.drop (.member p) o)).ptrs
        generalize Referent.step s.ref (.copy (.client w) e (.member p)) = r at hin hal
        simp only [Referent.step] at hal ⊢
        split
        · next hc =>
          rw [if_pos hc] at hal
          exact release_member _ _ _ _ hal
            ((List.mem_erase_of_ne (by intro h; injection h with _ h; exact hne (by rw [h]))).2 hin)
        · exact hin
      · injection h with h
        subst h
        exact drop_gone _ _ _ (copy_once _ _ _ _ _ _
          (fun _ h => absurd (by rw [h]) hne) (ho p o))
  · simp only [step] at hs
    rw [if_pos hh] at hs
    injection hs with hs; subst hs
    simp only [Referent.step]
    rw [if_pos ⟨hm, rfl⟩]
    exact ⟨List.mem_cons_self, List.mem_cons_of_mem _ hm⟩
  · simp only [step] at hs
    rw [if_pos hh, hg] at hs
    injection hs with hs; subst hs
    exact List.mem_cons_self
  · simp only [step] at hs
    injection hs with hs; subst hs
    simp only [Referent.step]
    rw [if_pos ⟨hp, rfl⟩]
    exact List.mem_cons_self
  · simp only [step] at hs
    injection hs with hs; subst hs
    refine ⟨?_, fun a ha => Nat.lt_irrefl _ (hi.ref.bound _ (hi.ref.target _ ha))⟩
    simp only [Referent.step, Referent.usable, if_true]
    exact List.mem_cons_self

/-- Violated: a child outlives its parent and still has it.  A folder gets a placemark and is forgotten; asking the
placemark for its parent uses the folder. -/
theorem C119_dead_violated : ∃ s, run {} [.create 0, .create 1, .add 0 1 1 none, .forget 0 0] = .ok s ∧
    handle s 1 = true ∧ getParent s 1 = .ub := by
  refine ⟨_, rfl, ?_, ?_⟩ <;>
  simp [handle, getParent, dropOld, Referent.step, Referent.releaseAll, Referent.release, Referent.delete, Referent.addRef,
    Referent.usable, Referent.members]

/-- Violated: a child that was taken out still has the parent it had, which does not have it, and cannot be put anywhere
else. -/
theorem C119_taken_violated : ∃ s, run {} [.create 0, .create 1, .create 2, .add 0 1 1 none, .take 0 1 3] = .ok s ∧
    getParent s 1 = .ok (some 0) ∧ (∀ p, (.member p, 1) ∉ s.ref.ptrs) ∧
    (.client 1, 1) ∈ s.ref.ptrs ∧ (.client 2, 2) ∈ s.ref.ptrs ∧ step s (.add 2 1 1 none) = .ok s := by
  refine ⟨_, rfl, ?_, ?_, ?_, ?_, if_neg fun h => nomatch h.2.2⟩ <;>
  simp [getParent, dropOld, Referent.step, Referent.releaseAll, Referent.release, Referent.addRef, Referent.usable]

/-- A folder with a placemark: the parent of the placemark is the folder, which stays when only the pointer `GetParent` gave
is kept. -/
example : ∃ s, run {} [.create 0, .create 1, .add 0 1 1 none, .parent 1 2, .forget 0 0] = .ok s ∧
    (.member 0, 1) ∈ s.ref.ptrs ∧ getParent s 1 = .ok (some 0) := by
  refine ⟨_, rfl, ?_, ?_⟩ <;>
  simp [getParent, dropOld, Referent.step, Referent.releaseAll, Referent.release, Referent.addRef, Referent.usable]

/-- `set_x` twice: the first child is released by the element and kept by the client. -/
example : ∃ s, run {} [.create 0, .create 1, .create 2, .add 0 1 1 none, .add 0 2 2 (some 1), .parent 1 3] = .ok s ∧
    (.member 0, 1) ∉ s.ref.ptrs ∧ (.member 0, 2) ∈ s.ref.ptrs := by
  obtain ⟨s, h⟩ := C119_kept_partial [.create 0, .create 1, .create 2, .add 0 1 1 none, .add 0 2 2 (some 1), .parent 1 3]
    (by intro op h v e; rintro rfl; simp at h)
  refine ⟨s, h, ?_⟩
  simp [run, step, bind, Outcome.bind, handle, getParent, dropOld, Referent.step, Referent.releaseAll, Referent.release,
    Referent.addRef, Referent.usable] at h
  subst h
  simp

end Kml.Parents
