import Verif.Model.UriMem
/-! C118: a `UriParser` and the texts it was made of. -/
namespace Kml.UriMem
open Kml

/-- uriparser's resolution gives text ranges of its operands, or constants. -/
def Lib.Lawful (lib : Lib) : Prop := ∀ r b ps, lib.add r b = some ps → ∀ e ∈ ps,
  (∃ t, e.2 = .const t) ∨ ∃ e' ∈ r ++ b, e'.2 = e.2

/-- The step is none of those that end or change the object: its destructor, `Normalize` and `Parse` of it. -/
def Op.Leaves (o : Nat) : Op → Prop
  | .destroy c => c ≠ o
  | .normalize c => c ≠ o
  | .reparse c _ => c ≠ o
  | _ => True

/-- The step does not free or change the text. -/
def Op.Keeps (b : Nat) : Op → Prop
  | .drop c => c ≠ b
  | _ => True

/-- What is so in every state: ids that live were given out, and no allocation belongs to two objects. -/
structure Inv (s : State) : Prop where
  text : ∀ b, (s.texts b).isSome → b < s.next
  obj : ∀ o x, s.objs o = some x → o < s.next
  mem : ∀ o x, s.objs o = some x → ∀ h ∈ x.mem, h < s.next ∧ s.heaps h = true
  own : ∀ o x o' x' h, s.objs o = some x → s.objs o' = some x' → h ∈ x.mem → h ∈ x'.mem → o = o'

theorem inv_init : Inv .init :=
  ⟨(fun _ h => nomatch h), (fun _ _ h => nomatch h), (fun _ _ h => nomatch h), (fun _ _ _ _ _ h => nomatch h)⟩

theorem bind_iff {α β : Type} {x : Outcome α} {f : α → Outcome β} {b : β} :
    (x >>= f) = .ok b ↔ ∃ a, x = .ok a ∧ f a = .ok b := by
  cases x with
  | ok a => exact ⟨fun h => ⟨a, rfl, h⟩, fun ⟨_, h, k⟩ => by injection h with h; subst h; exact k⟩
  | throws => exact ⟨(fun h => nomatch h), (fun ⟨_, h, _⟩ => nomatch h)⟩
  | ub => exact ⟨(fun h => nomatch h), (fun ⟨_, h, _⟩ => nomatch h)⟩

/-- A new object with one allocation, the last id given out, in place of the one with id `c` or with a new id. -/
theorem inv_put {s : State} (hi : Inv s) (c k : Nat) (ps : List (Part × Ref)) (n : Nat) (hc : c < n) (hk : s.next ≤ k)
    (hn : k < n) (heaps : Nat → Bool) (hh : ∀ o x, s.objs o = some x → o ≠ c → ∀ h ∈ x.mem, heaps h = true)
    (hk' : heaps k = true) :
    Inv { texts := s.texts, heaps := heaps, objs := fun o => if o = c then some ⟨ps, [k]⟩ else s.objs o, next := n } := by
  refine ⟨fun b hb => Nat.lt_of_lt_of_le (hi.text b hb) (by dsimp only; omega), fun o x h => ?_, fun o x h j hj => ?_,
    fun o x o' x' h h1 h2 h3 h4 => ?_⟩
  · dsimp only at h ⊢
    split at h
    · next e => rw [e]; exact hc
    · exact Nat.lt_of_lt_of_le (hi.obj o x h) (by omega)
  · dsimp only at h ⊢
    split at h
    · injection h with h
      subst h
      rw [List.mem_singleton.1 hj]
      exact ⟨hn, hk'⟩
    · next e => exact ⟨Nat.lt_of_lt_of_le (hi.mem o x h j hj).1 (by omega), hh o x h e j hj⟩
  · dsimp only at h1 h2
    split at h1
    · next e1 =>
      injection h1 with h1
      subst h1
      rw [List.mem_singleton.1 h3] at h4
      split at h2
      · next e2 => rw [e1, e2]
      · have := (hi.mem o' x' h2 k h4).1; omega
    · split at h2
      · injection h2 with h2
        subst h2
        rw [List.mem_singleton.1 h4] at h3
        have := (hi.mem o x h1 k h3).1; omega
      · exact hi.own o x o' x' h h1 h2 h3 h4

theorem freed_other {s : State} (hi : Inv s) {o : Nat} {x : Obj} (hx : s.objs o = some x) (o' : Nat) (x' : Obj)
    (h' : s.objs o' = some x') (hne : o' ≠ o) (h : Nat) (hm : h ∈ x'.mem) : freeAll s.heaps x.mem h = true := by
  unfold freeAll
  rw [(hi.mem o' x' h' h hm).2, Bool.true_and, Bool.not_eq_true', List.contains_eq_mem, decide_eq_false_iff_not]
  exact fun hc => hne (hi.own o' x' o x h h' hx hm hc)

theorem step_frame (lib : Lib) (s s' : State) (op : Op) (hi : Inv s) (h : step lib s op = .ok s') :
    Inv s' ∧ (∀ b t, s.texts b = some t → op.Keeps b → s'.texts b = some t) ∧
    (∀ o x, s.objs o = some x → op.Leaves o → s'.objs o = some x) ∧ s.next ≤ s'.next := by
  cases op with
  | hold t =>
    injection h with h; subst h
    refine ⟨⟨fun b hb => ?_, fun o x h => Nat.lt_succ_of_lt (hi.obj o x h), fun o x h j hj =>
      ⟨Nat.lt_succ_of_lt (hi.mem o x h j hj).1, (hi.mem o x h j hj).2⟩, hi.own⟩, fun b u hb _ => ?_, fun _ _ h _ => h,
      Nat.le_succ _⟩
    · dsimp only at hb ⊢
      split at hb
      · omega
      · exact Nat.lt_succ_of_lt (hi.text b hb)
    · have := hi.text b (by rw [hb]; rfl)
      dsimp only
      rw [if_neg (by omega)]
      exact hb
  | drop c =>
    injection h with h; subst h
    refine ⟨⟨fun b hb => ?_, hi.obj, hi.mem, hi.own⟩, fun b u hb hk => ?_, fun _ _ h _ => h, Nat.le_refl _⟩
    · dsimp only at hb
      split at hb
      · exact nomatch hb
      · exact hi.text b hb
    · dsimp only
      rw [if_neg (fun e => hk e.symm)]
      exact hb
  | parse b =>
    unfold step at h
    dsimp only at h
    split at h
    · exact nomatch h
    split at h
    · injection h with h; subst h
      exact ⟨hi, fun _ _ h _ => h, fun _ _ h _ => h, Nat.le_refl _⟩
    · injection h with h; subst h
      refine ⟨inv_put hi _ _ _ _ (by omega) (by omega) (by omega) _ (fun o x h _ j hj => ?_) (if_pos rfl),
        fun _ _ h _ => h, fun o x h _ => ?_, by dsimp only; omega⟩
      · try dsimp only
        split
        · rfl
        · exact (hi.mem o x h j hj).2
      · have := hi.obj o x h
        dsimp only
        rw [if_neg (by omega)]
        exact h
  | reparse c b =>
    unfold step at h
    dsimp only at h
    split at h
    case h_2 => exact nomatch h
    next t y ht hy =>
    split at h
    · injection h with h; subst h
      refine ⟨⟨hi.text, fun o x h => ?_, fun o x h j hj => ?_, fun o x o' x' j h1 h2 h3 h4 => ?_⟩, fun _ _ h _ => h,
        fun o x h hl => ?_, Nat.le_refl _⟩
      · dsimp only at h ⊢
        split at h
        · next e => rw [e]; exact hi.obj c y hy
        · exact hi.obj o x h
      · dsimp only at h
        split at h
        · injection h with h; subst h; exact nomatch hj
        · exact hi.mem o x h j hj
      · dsimp only at h1 h2
        split at h1
        · injection h1 with h1; subst h1; exact nomatch h3
        · split at h2
          · injection h2 with h2; subst h2; exact nomatch h4
          · exact hi.own o x o' x' j h1 h2 h3 h4
      · dsimp only
        rw [if_neg (fun e => hl e.symm)]
        exact h
    · injection h with h; subst h
      refine ⟨inv_put hi _ _ _ _ (Nat.lt_succ_of_lt (hi.obj c y hy)) (Nat.le_refl _) (Nat.lt_succ_self _) _
        (fun o x h _ j hj => ?_) (if_pos rfl), fun _ _ h _ => h, fun o x h hl => ?_, Nat.le_succ _⟩
      · try dsimp only
        split
        · rfl
        · exact (hi.mem o x h j hj).2
      · dsimp only
        rw [if_neg (fun e => hl e.symm)]
        exact h
  | normalize c =>
    unfold step at h
    dsimp only at h
    split at h
    · exact nomatch h
    next y hy =>
    obtain ⟨l, _, h⟩ := bind_iff.1 h
    injection h with h; subst h
    refine ⟨inv_put hi _ _ _ _ (Nat.lt_succ_of_lt (hi.obj c y hy)) (Nat.le_refl _) (Nat.lt_succ_self _) _
      (fun o x h hne j hj => ?_) (if_pos rfl), fun _ _ h _ => h, fun o x h hl => ?_, Nat.le_succ _⟩
    · try dsimp only
      split
      · rfl
      · exact freed_other hi hy o x h hne j hj
    · dsimp only
      rw [if_neg (fun e => hl e.symm)]
      exact h
  | resolve base rel =>
    unfold step at h
    dsimp only at h
    split at h
    case h_2 => exact nomatch h
    obtain ⟨_, _, h⟩ := bind_iff.1 h
    obtain ⟨_, _, h⟩ := bind_iff.1 h
    split at h
    · injection h with h; subst h
      exact ⟨hi, fun _ _ h _ => h, fun _ _ h _ => h, Nat.le_refl _⟩
    · injection h with h; subst h
      refine ⟨inv_put hi _ _ _ _ (by omega) (by omega) (by omega) _ (fun o x h _ j hj => ?_) (if_pos rfl),
        fun _ _ h _ => h, fun o x h _ => ?_, by dsimp only; omega⟩
      · try dsimp only
        split
        · rfl
        · exact (hi.mem o x h j hj).2
      · have := hi.obj o x h
        dsimp only
        rw [if_neg (by omega)]
        exact h
  | destroy c =>
    unfold step at h
    dsimp only at h
    split at h
    · exact nomatch h
    next y hy =>
    injection h with h; subst h
    refine ⟨⟨hi.text, fun o x h => ?_, fun o x h j hj => ?_, fun o x o' x' j h1 h2 h3 h4 => ?_⟩, fun _ _ h _ => h,
      fun o x h hl => ?_, Nat.le_refl _⟩
    · dsimp only at h
      split at h
      · exact nomatch h
      · exact hi.obj o x h
    · dsimp only at h ⊢
      split at h
      · exact nomatch h
      · next e => exact ⟨(hi.mem o x h j hj).1, freed_other hi hy o x h e j hj⟩
    · dsimp only at h1 h2
      split at h1
      · exact nomatch h1
      · split at h2
        · exact nomatch h2
        · exact hi.own o x o' x' j h1 h2 h3 h4
    · dsimp only
      rw [if_neg (fun e => hl e.symm)]
      exact h

theorem run_frame (lib : Lib) : ∀ (ops : List Op) (s s' : State), Inv s → run lib s ops = .ok s' →
    Inv s' ∧ (∀ b t, s.texts b = some t → (∀ op ∈ ops, op.Keeps b) → s'.texts b = some t) ∧
    (∀ o x, s.objs o = some x → (∀ op ∈ ops, op.Leaves o) → s'.objs o = some x)
  | [], s, s', hi, h => by
    injection h with h; subst h
    exact ⟨hi, fun _ _ h _ => h, fun _ _ h _ => h⟩
  | op :: ops, s, s', hi, h => by
    obtain ⟨s1, h1, h⟩ := bind_iff.1 h
    obtain ⟨i1, t1, o1, _⟩ := step_frame lib s s1 op hi h1
    obtain ⟨i2, t2, o2⟩ := run_frame lib ops s1 s' i1 h
    exact ⟨i2, fun b t hb hk => t2 b t (t1 b t hb (hk op List.mem_cons_self)) fun p hp => hk p (List.mem_cons_of_mem _ hp),
      fun o x ho hl => o2 o x (o1 o x ho (hl op List.mem_cons_self)) fun p hp => hl p (List.mem_cons_of_mem _ hp)⟩

/-- The part of a URI with these parts. -/
def partOf (ps : List (Part × Str)) (p : Part) : Option Str := (ps.find? fun e => e.1 = p).map (·.2)

/-- Its path: the segments, with `/` between. -/
def pathOf (ps : List (Part × Str)) : Option Str :=
  if (ps.filter fun e => e.1 = .segment) = [] then none
  else some (['/'].intercalate ((ps.filter fun e => e.1 = .segment).map (·.2)))

theorem joined_eq : ∀ l : List Str, joined l = ['/'].intercalate l
  | [] => rfl
  | [t] => by simp [joined, List.intercalate]
  | t :: u :: l => by
    have := joined_eq (u :: l)
    unfold joined
    rw [this]
    simp [List.intercalate, List.intersperse]

theorem readAll_map (s : State) (f : Str → Ref) (ps : List (Part × Str)) (h : ∀ e ∈ ps, readRef s (f e.2) = .ok e.2) :
    readAll s (ps.map fun e => (e.1, f e.2)) = .ok ps := by
  induction ps with
  | nil => rfl
  | cons e ps ih =>
    show readRef s (f e.2) >>= _ = _
    rw [h e List.mem_cons_self]
    show readAll s (ps.map fun e => (e.1, f e.2)) >>= _ = _
    rw [ih fun e he => h e (List.mem_cons_of_mem _ he)]
    rfl

/-- Reading an object whose text ranges can all be read. -/
theorem get_map (s : State) (o : Nat) (f : Str → Ref) (ps : List (Part × Str)) (mem : List Nat)
    (ho : s.objs o = some ⟨ps.map fun e => (e.1, f e.2), mem⟩) (h : ∀ t, readRef s (f t) = .ok t) :
    (∀ p, get s o p = .ok (partOf ps p)) ∧ getPath s o = .ok (pathOf ps) := by
  constructor
  · intro p
    unfold get partOf
    rw [ho]
    dsimp only
    rw [List.find?_map]
    have e : ((fun e : Part × Ref => decide (e.1 = p)) ∘ fun e : Part × Str => (e.1, f e.2)) = fun e => decide (e.1 = p) := rfl
    rw [e]
    cases ps.find? fun e => decide (e.1 = p) with
    | none => rfl
    | some e =>
      show readRef s (f e.2) >>= _ = _
      rw [h]; rfl
  · unfold getPath pathOf
    rw [ho]
    dsimp only
    rw [List.filter_map]
    have e : ((fun e : Part × Ref => decide (e.1 = .segment)) ∘ fun e : Part × Str => (e.1, f e.2)) =
        fun e => decide (e.1 = .segment) := rfl
    rw [e]
    by_cases hn : (ps.filter fun e => decide (e.1 = .segment)) = []
    · rw [hn]; rfl
    · rw [if_neg hn, if_neg (fun hm => hn (List.map_eq_nil_iff.1 hm)), readAll_map s f _ fun e _ => h e.2, ← joined_eq]
      rfl

/-- Its text, if there is always room for it. -/
theorem text_map (s : State) (o : Nat) (f : Str → Ref) (ps : List (Part × Str)) (mem : List Nat)
    (ho : s.objs o = some ⟨ps.map fun e => (e.1, f e.2), mem⟩) (h : ∀ t, readRef s (f t) = .ok t)
    (needed : List (Part × Str) → Nat) (write : List (Part × Str) → Str) (hw : ∀ l, (write l).length ≤ needed l) :
    toText needed write s o = .ok (some (write ps)) := by
  unfold toText
  rw [ho]
  dsimp only
  rw [readAll_map s f ps fun e _ => h e.2]
  exact if_pos (Nat.succ_le_succ (hw ps))

/-- Whatever happened before and happens afterwards: as long as the text that was parsed is there, and the object is not
changed, each part is what uriparser found in that text. -/
theorem C118_parsed_partial (lib : Lib) (before after : List Op) (s s1 s2 : State) (h0 : run lib .init before = .ok s)
    (b : Nat) (t : Str) (hb : s.texts b = some t) (ps : List (Part × Str)) (hp : lib.split t = some ps)
    (h1 : step lib s (.parse b) = .ok s1) (h2 : run lib s1 after = .ok s2)
    (hk : ∀ op ∈ after, op.Keeps b) (hl : ∀ op ∈ after, op.Leaves s.next) :
    ((∀ p, get s2 s.next p = .ok (partOf ps p)) ∧ getPath s2 s.next = .ok (pathOf ps)) ∧
    ∀ needed write, (∀ l, (write l).length ≤ needed l) → toText needed write s2 s.next = .ok (some (write ps)) := by
  have i0 := (run_frame lib before _ s inv_init h0).1
  obtain ⟨i1, t1, _, _⟩ := step_frame lib s s1 _ i0 h1
  obtain ⟨_, t2, o2⟩ := run_frame lib after s1 s2 i1 h2
  unfold step at h1
  dsimp only at h1
  rw [hb] at h1
  dsimp only at h1
  rw [hp] at h1
  injection h1 with h1
  have ho : s1.objs s.next = some ⟨ps.map fun e => (e.1, .text b e.2), [s.next + 1]⟩ := by
    rw [← h1]; exact if_pos rfl
  have rd : ∀ u, readRef s2 (.text b u) = .ok u := by
    intro u
    show (if (s2.texts b).isSome then Outcome.ok u else .ub) = _
    rw [t2 b t (t1 b t hb trivial) hk]
    rfl
  exact ⟨get_map s2 s.next (fun t => .text b t) ps _ (o2 _ _ ho hl) rd, text_map s2 s.next (fun t => .text b t) ps _ (o2 _ _ ho hl) rd⟩

/-- Once normalised, an object needs no text: whatever is freed, its parts are those normalised. -/
theorem C118_normalized (lib : Lib) (before after : List Op) (s s1 s2 : State) (h0 : run lib .init before = .ok s)
    (o : Nat) (h1 : step lib s (.normalize o) = .ok s1) (h2 : run lib s1 after = .ok s2)
    (hl : ∀ op ∈ after, op.Leaves o) :
    ∃ x l, s.objs o = some x ∧ readAll s x.parts = .ok l ∧
      ((∀ p, get s2 o p = .ok (partOf (lib.norm l) p)) ∧ getPath s2 o = .ok (pathOf (lib.norm l))) ∧
      ∀ needed write, (∀ l, (write l).length ≤ needed l) → toText needed write s2 o = .ok (some (write (lib.norm l))) := by
  have i0 := (run_frame lib before _ s inv_init h0).1
  have i1 := (step_frame lib s s1 _ i0 h1).1
  obtain ⟨i2, _, o2⟩ := run_frame lib after s1 s2 i1 h2
  unfold step at h1
  dsimp only at h1
  split at h1
  · exact nomatch h1
  next x hx =>
  obtain ⟨l, hr, h1⟩ := bind_iff.1 h1
  injection h1 with h1
  have ho : s1.objs o = some ⟨(lib.norm l).map fun e => (e.1, .heap s.next e.2), [s.next]⟩ := by
    rw [← h1]; exact if_pos rfl
  have ho2 := o2 _ _ ho hl
  have rd : ∀ u, readRef s2 (.heap s.next u) = .ok u := by
    intro u
    show (if s2.heaps s.next then Outcome.ok u else .ub) = _
    rw [(i2.mem _ _ ho2 s.next (List.mem_singleton.2 rfl)).2]
    rfl
  exact ⟨x, l, hx, hr, get_map s2 o (fun t => .heap s.next t) _ _ ho2 rd, text_map s2 o (fun t => .heap s.next t) _ _ ho2 rd⟩

/-- The steps of `CreateResolvedUri` on two texts that can be parsed, where the next id is `n`. -/
def createResolved (n base rel : Nat) : List Op :=
  [.parse base, .parse rel, .resolve n (n + 2), .destroy (n + 2), .destroy n]

/-- The characters a text range had. -/
def Ref.chars : Ref → Str
  | .const t | .text _ t | .heap _ t => t

theorem readAll_ok (s : State) : ∀ l : List (Part × Ref), (∀ e ∈ l, readRef s e.2 = .ok e.2.chars) →
    readAll s l = .ok (l.map fun e => (e.1, e.2.chars))
  | [], _ => rfl
  | e :: l, h => by
    unfold readAll
    rw [h e List.mem_cons_self]
    show readAll s l >>= _ = _
    rw [readAll_ok s l fun e he => h e (List.mem_cons_of_mem _ he)]
    rfl

/-- A resolved URI has the parts uriparser found as long as both texts are there and it is not changed, although the
objects it was made of are gone. -/
theorem C118_resolved_partial (lib : Lib) (hlib : lib.Lawful) (before after : List Op) (s s1 s2 : State)
    (h0 : run lib .init before = .ok s) (b r : Nat) (t u : Str) (hb : s.texts b = some t) (hr : s.texts r = some u)
    (ps qs : List (Part × Str)) (hp : lib.split t = some ps) (hq : lib.split u = some qs)
    (rs : List (Part × Ref))
    (ha : lib.add (qs.map fun e => (e.1, .text r e.2)) (ps.map fun e => (e.1, .text b e.2)) = some rs)
    (h1 : run lib s (createResolved s.next b r) = .ok s1) (h2 : run lib s1 after = .ok s2)
    (hk : ∀ op ∈ after, op.Keeps b ∧ op.Keeps r) (hl : ∀ op ∈ after, op.Leaves (s.next + 4)) :
    (∀ p, get s2 (s.next + 4) p = .ok (partOf (rs.map fun e => (e.1, e.2.chars)) p)) ∧
    getPath s2 (s.next + 4) = .ok (pathOf (rs.map fun e => (e.1, e.2.chars))) ∧
    ∀ needed write, (∀ l, (write l).length ≤ needed l) →
      toText needed write s2 (s.next + 4) = .ok (some (write (rs.map fun e => (e.1, e.2.chars)))) := by
  have i0 := (run_frame lib before _ s inv_init h0).1
  have i1 := (run_frame lib _ s s1 i0 h1)
  obtain ⟨i2, t2, o2⟩ := run_frame lib after s1 s2 i1.1 h2
  have hb2 : (s2.texts b).isSome := by
    rw [t2 b t (i1.2.1 b t hb ?_) fun op h => (hk op h).1]
    · rfl
    · intro op h
      simp only [createResolved, List.mem_cons, List.not_mem_nil, or_false] at h
      rcases h with rfl | rfl | rfl | rfl | rfl <;> trivial
  have hr2 : (s2.texts r).isSome := by
    rw [t2 r u (i1.2.1 r u hr ?_) fun op h => (hk op h).2]
    · rfl
    · intro op h
      simp only [createResolved, List.mem_cons, List.not_mem_nil, or_false] at h
      rcases h with rfl | rfl | rfl | rfl | rfl <;> trivial
  have hx : s1.objs (s.next + 4) = some ⟨rs, [s.next + 4 + 1]⟩ := by
    unfold createResolved run at h1
    obtain ⟨a1, g1, h1⟩ := bind_iff.1 h1
    unfold run at h1
    obtain ⟨a2, g2, h1⟩ := bind_iff.1 h1
    unfold run at h1
    obtain ⟨a3, g3, h1⟩ := bind_iff.1 h1
    unfold run at h1
    obtain ⟨a4, g4, h1⟩ := bind_iff.1 h1
    unfold run at h1
    obtain ⟨a5, g5, h1⟩ := bind_iff.1 h1
    injection h1 with h1
    subst h1
    unfold step at g1
    dsimp only at g1
    rw [hb] at g1
    dsimp only at g1
    rw [hp] at g1
    injection g1 with g1
    subst g1
    unfold step at g2
    dsimp only at g2
    rw [hr] at g2
    dsimp only at g2
    rw [hq] at g2
    injection g2 with g2
    subst g2
    unfold step at g3
    dsimp only at g3
    rw [if_neg (by omega), if_pos rfl, if_pos rfl] at g3
    dsimp only at g3
    obtain ⟨_, _, g3⟩ := bind_iff.1 g3
    obtain ⟨_, _, g3⟩ := bind_iff.1 g3
    rw [ha] at g3
    injection g3 with g3
    subst g3
    unfold step at g4 g5
    dsimp only at g4 g5
    split at g4
    · exact nomatch g4
    injection g4 with g4
    subst g4
    split at g5
    · exact nomatch g5
    injection g5 with g5
    subst g5
    dsimp only
    rw [if_neg (by omega), if_neg (by omega), if_pos rfl]
  have read : ∀ e ∈ rs, readRef s2 e.2 = .ok e.2.chars := by
    intro e he
    rcases hlib _ _ _ ha e he with ⟨w, h⟩ | ⟨e', he', h⟩
    · rw [h]; rfl
    · rcases List.mem_append.1 he' with h' | h'
      · obtain ⟨w, _, rfl⟩ := List.mem_map.1 h'
        rw [← h]; exact if_pos hr2
      · obtain ⟨w, _, rfl⟩ := List.mem_map.1 h'
        rw [← h]; exact if_pos hb2
  have ho := o2 _ _ hx hl
  refine ⟨fun p => ?_, ?_, fun needed write hw => ?_⟩
  · unfold get partOf
    rw [ho, List.find?_map]
    have e : ((fun e : Part × Str => decide (e.1 = p)) ∘ fun e : Part × Ref => (e.1, e.2.chars)) =
        fun e => decide (e.1 = p) := rfl
    rw [e]
    dsimp only
    cases hf : rs.find? fun e => decide (e.1 = p) with
    | none => rfl
    | some e =>
      dsimp only
      rw [read e (List.mem_of_find?_eq_some hf)]
      rfl
  · unfold getPath pathOf
    rw [ho, List.filter_map]
    have e : ((fun e : Part × Str => decide (e.1 = .segment)) ∘ fun e : Part × Ref => (e.1, e.2.chars)) =
        fun e => decide (e.1 = .segment) := rfl
    rw [e]
    dsimp only
    by_cases hn : (rs.filter fun e => decide (e.1 = .segment)) = []
    · rw [hn]; rfl
    · rw [if_neg hn, if_neg (fun hm => hn (List.map_eq_nil_iff.1 hm)),
        readAll_ok s2 _ fun e he => read e (List.mem_filter.1 he).1, ← joined_eq, List.map_map]
      show Outcome.ok _ = _
      rw [List.map_map]
  · unfold toText
    rw [ho]
    dsimp only
    rw [readAll_ok s2 rs read]
    exact if_pos (Nat.succ_le_succ (hw _))

/-- A text range that is a constant or in a text that is there. -/
def Held (s : State) (r : Ref) : Prop := (∃ t, r = .const t) ∨ ∃ b t, r = .text b t ∧ (s.texts b).isSome

theorem Held.read {s : State} {r : Ref} (h : Held s r) : readRef s r = .ok r.chars := by
  rcases h with ⟨t, rfl⟩ | ⟨b, t, rfl, h⟩
  · rfl
  · exact if_pos h

theorem held_step (lib : Lib) (hlib : lib.Lawful) (s s' : State) (op : Op) (hi : Inv s)
    (hs : ∀ o x, s.objs o = some x → ∀ e ∈ x.parts, Held s e.2)
    (hd : ∀ b, op ≠ .drop b) (hn : ∀ o, op ≠ .normalize o) (h : step lib s op = .ok s') :
    ∀ o x, s'.objs o = some x → ∀ e ∈ x.parts, Held s' e.2 := by
  obtain ⟨_, ht, _, _⟩ := step_frame lib s s' op hi h
  have keep : ∀ r, Held s r → Held s' r := by
    rintro r (h' | ⟨b, t, hr, h'⟩)
    · exact .inl h'
    · obtain ⟨u, hu⟩ := Option.isSome_iff_exists.1 h'
      refine .inr ⟨b, t, hr, ?_⟩
      rw [ht b u hu (by cases op <;> first | trivial | exact absurd rfl (hd _))]
      rfl
  have put : ∀ (c : Nat) (y : Obj), (∀ e ∈ y.parts, Held s' e.2) →
      ∀ o x, (if o = c then some y else s.objs o) = some x → ∀ e ∈ x.parts, Held s' e.2 := by
    intro c y hy o x hx
    split at hx
    · injection hx with hx; rw [← hx]; exact hy
    · exact fun e he => keep _ (hs o x hx e he)
  cases op with
  | hold t => injection h with h; subst h; exact fun o x hx e he => keep _ (hs o x hx e he)
  | drop b => exact absurd rfl (hd b)
  | normalize o => exact absurd rfl (hn o)
  | parse b =>
    unfold step at h
    dsimp only at h
    split at h
    · exact nomatch h
    next t htx =>
    split at h
    · injection h with h; subst h; exact hs
    · injection h with h; subst h
      refine put _ _ fun e he => ?_
      obtain ⟨w, _, rfl⟩ := List.mem_map.1 he
      exact .inr ⟨b, w.2, rfl, by dsimp only; rw [htx]; rfl⟩
  | reparse c b =>
    unfold step at h
    dsimp only at h
    split at h
    case h_2 => exact nomatch h
    next t y htx hy =>
    split at h
    · injection h with h; subst h
      exact put _ _ fun e he => nomatch he
    · injection h with h; subst h
      refine put _ _ fun e he => ?_
      obtain ⟨w, _, rfl⟩ := List.mem_map.1 he
      exact .inr ⟨b, w.2, rfl, by dsimp only; rw [htx]; rfl⟩
  | resolve base rel =>
    unfold step at h
    dsimp only at h
    split at h
    case h_2 => exact nomatch h
    next x y hx hy =>
    obtain ⟨_, _, h⟩ := bind_iff.1 h
    obtain ⟨_, _, h⟩ := bind_iff.1 h
    split at h
    · injection h with h; subst h; exact hs
    next rs ha =>
    injection h with h; subst h
    refine put _ _ fun e he => ?_
    rcases hlib _ _ _ ha e he with h' | ⟨e', he', h'⟩
    · exact .inl h'
    · rw [← h']
      rcases List.mem_append.1 he' with h'' | h''
      · exact keep _ (hs rel y hy e' h'')
      · exact keep _ (hs base x hx e' h'')
  | destroy c =>
    unfold step at h
    dsimp only at h
    split at h
    · exact nomatch h
    injection h with h; subst h
    intro o x hx
    dsimp only at hx
    split at hx
    · exact nomatch hx
    · exact fun e he => keep _ (hs o x hx e he)

/-- A program that keeps its texts and normalises nothing before may make, resolve, parse again and destroy parsers in
any order: every parser that lives can be read, normalised, destroyed, and resolved against every other. -/
theorem C118_held_partial (lib : Lib) (hlib : lib.Lawful) (ops : List Op) (s : State) (h : run lib .init ops = .ok s)
    (hd : ∀ op ∈ ops, ∀ b, op ≠ .drop b) (hn : ∀ op ∈ ops, ∀ o, op ≠ .normalize o) (o : Nat) (x : Obj)
    (ho : s.objs o = some x) :
    (∀ p, (get s o p).Safe) ∧ (getPath s o).Safe ∧ (step lib s (.normalize o)).Safe ∧ (step lib s (.destroy o)).Safe ∧
    ∀ o' x', s.objs o' = some x' → (step lib s (.resolve o o')).Safe := by
  have key : ∀ (ops : List Op) (s s' : State), Inv s → (∀ o x, s.objs o = some x → ∀ e ∈ x.parts, Held s e.2) →
      run lib s ops = .ok s' → (∀ op ∈ ops, ∀ b, op ≠ .drop b) → (∀ op ∈ ops, ∀ o, op ≠ .normalize o) →
      ∀ o x, s'.objs o = some x → ∀ e ∈ x.parts, Held s' e.2 := by
    intro ops
    induction ops with
    | nil => intro s s' _ hs h _ _; injection h with h; subst h; exact hs
    | cons op ops ih =>
      intro s s' hi hs h hd hn
      obtain ⟨s1, h1, h⟩ := bind_iff.1 h
      exact ih s1 s' (step_frame lib s s1 op hi h1).1
        (held_step lib hlib s s1 op hi hs (hd op List.mem_cons_self) (hn op List.mem_cons_self) h1) h
        (fun p hp => hd p (List.mem_cons_of_mem _ hp)) fun p hp => hn p (List.mem_cons_of_mem _ hp)
  have all := key ops _ s inv_init (fun _ _ h => nomatch h) h hd hn
  have read : ∀ o x, s.objs o = some x → readAll s x.parts = .ok (x.parts.map fun e => (e.1, e.2.chars)) :=
    fun o x ho => readAll_ok s _ fun e he => (all o x ho e he).read
  refine ⟨fun p => ?_, ?_, ?_, ?_, fun o' x' ho' => ?_⟩
  · unfold get
    rw [ho]
    dsimp only
    cases hf : x.parts.find? fun e => decide (e.1 = p) with
    | none => exact ⟨none, rfl⟩
    | some e =>
      dsimp only
      rw [(all o x ho e (List.mem_of_find?_eq_some hf)).read]
      exact ⟨_, rfl⟩
  · unfold getPath
    rw [ho]
    dsimp only
    split
    · exact ⟨none, rfl⟩
    · rw [readAll_ok s _ fun e he => (all o x ho e (List.mem_filter.1 he).1).read]
      exact ⟨_, rfl⟩
  · unfold step
    dsimp only
    rw [ho]
    dsimp only
    rw [read o x ho]
    exact ⟨_, rfl⟩
  · unfold step
    dsimp only
    rw [ho]
    exact ⟨_, rfl⟩
  · unfold step
    dsimp only
    rw [ho, ho']
    dsimp only
    rw [read o x ho, read o' x' ho']
    show (match lib.add x'.parts x.parts with
      | none => Outcome.ok s
      | some ps => _).Safe
    cases lib.add x'.parts x.parts with
    | none => exact ⟨_, rfl⟩
    | some ps => exact ⟨_, rfl⟩

/-- A library for which every text is a path of one segment, and a resolved URI is the relative one and then the base. -/
def plain : Lib := ⟨fun t => some [(.segment, t)], id, fun r b => some (r ++ b)⟩

theorem plain_lawful : plain.Lawful := by
  intro r b ps h e he
  injection h with h
  subst h
  exact .inr ⟨e, he, rfl⟩

/-- Violated: uri_parser.h calls the class a memory-safe wrapper, but an object does not outlive the text it was made of.
The text is freed, and asking for the path reads it. -/
theorem C118_text_violated : ∃ s, run plain .init [.hold ['a'], .parse 0, .drop 0] = .ok s ∧ getPath s 1 = .ub ∧
    ∀ needed write, toText needed write s 1 = .ub :=
  ⟨_, rfl, rfl, fun _ _ => rfl⟩

/-- Violated: an object resolved against a normalised base, which has its text itself, does not outlive the base. -/
theorem C118_base_violated : ∃ s, run plain .init [.hold ['a'], .parse 0, .normalize 1, .hold ['b'], .parse 4,
    .resolve 1 5, .destroy 1] = .ok s ∧ (∀ b, b = 0 ∨ b = 4 → (s.texts b).isSome) ∧ getPath s 7 = .ub :=
  ⟨_, rfl, (by rintro b (rfl | rfl) <;> rfl), rfl⟩

/-- Violated: `Parse` into an object that has a URI already loses what that one had allocated: all objects are gone and
there is memory left. -/
theorem C118_leak_violated : ∃ s, run plain .init [.hold ['a'], .parse 0, .reparse 1 0, .destroy 1] = .ok s ∧
    (∀ o, s.objs o = none) ∧ ∃ h, s.heaps h = true :=
  ⟨_, rfl, (by
    intro o
    show (if o = 1 then none else if o = 1 then some _ else if o = 1 then some _ else none) = none
    by_cases h : o = 1
    · rw [if_pos h]
    · rw [if_neg h, if_neg h, if_neg h]), 2, rfl⟩

/-- Otherwise nothing is lost: if `Parse` is called only for new objects, then all memory there is belongs to some
object. -/
theorem C118_no_leak_partial (lib : Lib) (ops : List Op) (s : State) (h : run lib .init ops = .ok s)
    (hn : ∀ op ∈ ops, ∀ o b, op ≠ .reparse o b) (k : Nat) (hk : s.heaps k = true) :
    ∃ o x, s.objs o = some x ∧ k ∈ x.mem := by
  have key : ∀ (ops : List Op) (s s' : State), Inv s → (∀ k, s.heaps k = true → ∃ o x, s.objs o = some x ∧ k ∈ x.mem) →
      run lib s ops = .ok s' → (∀ op ∈ ops, ∀ o b, op ≠ .reparse o b) →
      ∀ k, s'.heaps k = true → ∃ o x, s'.objs o = some x ∧ k ∈ x.mem := by
    intro ops
    induction ops with
    | nil => intro s s' _ hs h _; injection h with h; subst h; exact hs
    | cons op ops ih =>
      intro s s' hi hs h hn
      obtain ⟨s1, h1, h⟩ := bind_iff.1 h
      refine ih s1 s' (step_frame lib s s1 op hi h1).1 ?_ h fun p hp => hn p (List.mem_cons_of_mem _ hp)
      have fresh : ∀ (c k : Nat) (ps : List (Part × Ref)) (heaps : Nat → Bool) (y : Option Obj), s.objs c = y →
          (∀ j, heaps j = true → j ≠ k → s.heaps j = true ∧ ∀ z, y = some z → j ∉ z.mem) →
          ∀ j, heaps j = true → ∃ o x, (if o = c then some (⟨ps, [k]⟩ : Obj) else s.objs o) = some x ∧ j ∈ x.mem := by
        intro c k ps heaps y hy hh j hj
        by_cases e : j = k
        · exact ⟨c, _, if_pos rfl, List.mem_singleton.2 e⟩
        · obtain ⟨h1, h2⟩ := hh j hj e
          obtain ⟨o, x, ho, hx⟩ := hs j h1
          have : o ≠ c := by
            rintro rfl
            exact h2 x (hy.symm.trans ho) hx
          exact ⟨o, x, by rw [if_neg this]; exact ho, hx⟩
      have none_at : ∀ c, s.next ≤ c → s.objs c = none := by
        intro c hc
        cases hz : s.objs c with
        | none => rfl
        | some z => have := hi.obj c z hz; omega
      cases op with
      | hold t => injection h1 with h1; subst h1; exact hs
      | drop b => injection h1 with h1; subst h1; exact hs
      | parse b =>
        unfold step at h1
        dsimp only at h1
        split at h1
        · exact nomatch h1
        split at h1
        · injection h1 with h1; subst h1; exact hs
        · injection h1 with h1; subst h1
          refine fresh _ _ _ _ none (none_at _ (Nat.le_refl _)) fun j hj e => ⟨?_, fun z hz => nomatch hz⟩
          dsimp only at hj
          rw [if_neg e] at hj
          exact hj
      | reparse o b => exact absurd rfl (hn _ List.mem_cons_self o b)
      | normalize c =>
        unfold step at h1
        dsimp only at h1
        split at h1
        · exact nomatch h1
        next y hy =>
        obtain ⟨l, _, h1⟩ := bind_iff.1 h1
        injection h1 with h1; subst h1
        refine fresh _ _ _ _ (some y) hy fun j hj e => ?_
        dsimp only at hj
        rw [if_neg e] at hj
        unfold freeAll at hj
        rw [Bool.and_eq_true, Bool.not_eq_true', List.contains_eq_mem, decide_eq_false_iff_not] at hj
        exact ⟨hj.1, fun z hz => by injection hz with hz; rw [← hz]; exact hj.2⟩
      | resolve base rel =>
        unfold step at h1
        dsimp only at h1
        split at h1
        case h_2 => exact nomatch h1
        obtain ⟨_, _, h1⟩ := bind_iff.1 h1
        obtain ⟨_, _, h1⟩ := bind_iff.1 h1
        split at h1
        · injection h1 with h1; subst h1; exact hs
        · injection h1 with h1; subst h1
          refine fresh _ _ _ _ none (none_at _ (Nat.le_refl _)) fun j hj e => ⟨?_, fun z hz => nomatch hz⟩
          dsimp only at hj
          rw [if_neg e] at hj
          exact hj
      | destroy c =>
        unfold step at h1
        dsimp only at h1
        split at h1
        · exact nomatch h1
        next y hy =>
        injection h1 with h1; subst h1
        intro j hj
        dsimp only at hj
        unfold freeAll at hj
        rw [Bool.and_eq_true, Bool.not_eq_true', List.contains_eq_mem, decide_eq_false_iff_not] at hj
        obtain ⟨o, x, ho, hx⟩ := hs j hj.1
        have : o ≠ c := by
          rintro rfl
          rw [hy] at ho
          injection ho with ho
          exact hj.2 (ho ▸ hx)
        exact ⟨o, x, by dsimp only; rw [if_neg this]; exact ho, hx⟩
  exact key ops _ s inv_init (fun _ h => nomatch h) h hn k hk

example : ∃ s, run plain .init ([.hold ['a'], .hold ['b']] ++ createResolved 2 0 1 ++ [.hold ['c']]) = .ok s ∧
    getPath s 6 = .ok (some ['b', '/', 'a']) := ⟨_, rfl, rfl⟩

example : ∃ s, run plain .init [.hold ['a'], .parse 0, .normalize 1, .drop 0] = .ok s ∧
    getPath s 1 = .ok (some ['a']) := ⟨_, rfl, rfl⟩

example : ∃ s, run plain .init [.hold ['a'], .parse 0, .hold ['b'], .parse 3, .normalize 4, .destroy 4, .drop 3] = .ok s ∧
    getPath s 1 = .ok (some ['a']) ∧ s.heaps 2 = true ∧ s.heaps 5 = false ∧ s.heaps 6 = false :=
  ⟨_, rfl, rfl, rfl, rfl, rfl⟩

end Kml.UriMem
