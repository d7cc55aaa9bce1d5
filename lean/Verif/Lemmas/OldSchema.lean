import Verif.Spec.OldSchema
import Verif.Lemmas.File
import Verif.Lemmas.SafeBuild

/-! An old-style schema in force: events of ordinary elements are handled as without it. -/

namespace Kml.Dom

open Kml

variable {σ : Type}

attribute [local irreducible] kml22Elements Xsd.tagToId classes inc dec uintSize

/-- The same state with an old-style schema in force. -/
def cover (N : Str) (fs : List Str) (sd : List Elem) (k : Nat) (h : Handler σ) : Handler σ :=
  { h with oldName := N, fieldNames := fs, simpleData := sd, taken := k }

/-- No old-style schema. -/
def Bare (h : Handler σ) : Prop := h.oldName = [] ∧ h.inOld = false

/-- A step that goes on covered as it goes on bare. -/
def Covered (N : Str) (fs : List Str) (sd : List Elem) (k : Nat) (r r' : Outcome (Handler σ)) : Prop :=
  r' = (r >>= fun h => .ok (cover N fs sd k h)) ∧ ∀ h, r = .ok h → Bare h

theorem Covered.ok {N : Str} {fs : List Str} {sd : List Elem} {k : Nat} {h : Handler σ} (hb : Bare h) :
    Covered N fs sd k (.ok h) (.ok (cover N fs sd k h)) := ⟨rfl, fun _ e => by cases e; exact hb⟩

theorem start_covered {n : NumLib} {os : List (Observer σ)} {N : Str} {fs : List Str} {sd : List Elem} {k : Nat} {h : Handler σ}
    {name : Str} {attrs : List (Str × Str)} (hb : Bare h) (ho : Ordinary N fs name attrs) :
    Covered N fs sd k (h.startElement n os name attrs) ((cover N fs sd k h).startElement n os name attrs) := by
  obtain ⟨ho1, ho2, ho3⟩ := ho
  obtain ⟨hb1, hb2⟩ := hb
  obtain ⟨stack, chars, skip, inDesc, nesting, inOld, oldName, fieldNames, simpleData, taken, stopped, obs⟩ := h
  dsimp only at hb1 hb2
  subst hb1 hb2
  unfold Handler.startElement cover
  dsimp only
  split
  · exact .ok ⟨rfl, rfl⟩
  · by_cases hd : inDesc > 0 ∧ name = chars! "description"
    all_goals
      first | rw [if_pos hd, if_pos hd] | rw [if_neg hd, if_neg hd]
      dsimp only
      split
      · cases chars with
        | nil => exact ⟨rfl, fun _ h => nomatch h⟩
        | cons c cs => exact .ok ⟨rfl, rfl⟩
      · unfold Handler.startPlain
        rw [if_neg ho1, if_neg ho1]
        dsimp only
        have ht : typeOfName N name = typeOfName [] name := by
          unfold typeOfName
          rw [if_neg (fun h => ho2 h.2), if_neg (fun h => h.1 rfl)]
        rw [ht]
        have hm := makeElement_isSome n (stack.head?.map Elem.ty) name attrs
        have ht' : typeOfName [] name = Xsd.elementId name := by
          unfold typeOfName
          rw [if_neg (fun h => h.1 rfl)]
        rw [ht']
        cases hme : makeElement n (stack.head?.map Elem.ty) (Xsd.elementId name) attrs with
        | some e =>
          dsimp only
          unfold Handler.startKnown
          by_cases hde : e.ty = Ty.«description»
          · simp only [if_pos hde]
            exact .ok ⟨rfl, rfl⟩
          · simp only [if_neg hde]
            exact .ok ⟨rfl, rfl⟩
        | none =>
          dsimp only
          rw [hme] at hm
          have hfs : name ∉ fs := ho3.resolve_left (by rw [← hm]; decide)
          rw [if_neg (show ¬ (_ ∧ ([] : Str) ≠ []) from fun h => h.2 rfl)]
          have hx : oldSchemaChild name fs = none := by
            unfold oldSchemaChild
            rw [if_neg hfs]
          rw [hx]
          dsimp only
          unfold Handler.startUnknown
          cases stack with
          | nil =>
            dsimp only
            split <;> exact .ok ⟨rfl, rfl⟩
          | cons _ _ =>
            dsimp only
            split <;> exact .ok ⟨rfl, rfl⟩

theorem leave_covered {N : Str} {fs : List Str} {sd : List Elem} {k : Nat} (h : Handler σ) (name : Str) :
    (cover N fs sd k h).leaveDescription name = cover N fs sd k (h.leaveDescription name) := by
  unfold Handler.leaveDescription
  split
  · show (if dec h.inDesc = 0 then _ else _) = _
    split <;> rfl
  · rfl

theorem leave_bare {h : Handler σ} (name : Str) (hb : Bare h) : Bare (h.leaveDescription name) := by
  unfold Handler.leaveDescription
  split
  · split <;> exact hb
  · exact hb

theorem endUnknown_covered {N : Str} {fs : List Str} {sd : List Elem} {k : Nat} {h : Handler σ} {name : Str} (hb : Bare h) :
    Covered N fs sd k (h.endUnknown name) ((cover N fs sd k h).endUnknown name) := by
  obtain ⟨stack, chars, skip, inDesc, nesting, inOld, oldName, fieldNames, simpleData, taken, stopped, obs⟩ := h
  unfold Handler.endUnknown cover
  dsimp only
  cases chars with
  | nil => exact ⟨rfl, fun _ h => nomatch h⟩
  | cons c cs =>
    show Covered N fs sd k (if dec skip = 0 then _ else _) (if dec skip = 0 then _ else _)
    split
    · cases stack with
      | nil => exact ⟨rfl, fun _ h => nomatch h⟩
      | cons e es => exact .ok hb
    · exact .ok hb

theorem attach_covered {n : NumLib} {os : List (Observer σ)} {N : Str} {fs : List Str} {sd : List Elem} {k : Nat} {h : Handler σ}
    {e : Elem} (hb : Bare h) : Covered N fs sd k (h.attach n os e) ((cover N fs sd k h).attach n os e) := by
  obtain ⟨stack, chars, skip, inDesc, nesting, inOld, oldName, fieldNames, simpleData, taken, stopped, obs⟩ := h
  unfold Handler.attach cover
  dsimp only
  cases stack with
  | nil => exact .ok hb
  | cons x l =>
    cases l with
    | nil => exact .ok hb
    | cons y l =>
      dsimp only
      cases giveChild n (callAll (fun o s => o.endElement s y e) os obs).1 y e with
      | ok p => exact .ok hb
      | throws => exact ⟨rfl, fun _ h => nomatch h⟩
      | ub => exact ⟨rfl, fun _ h => nomatch h⟩

theorem endPlain_covered {n : NumLib} {os : List (Observer σ)} {N : Str} {fs : List Str} {sd : List Elem} {k : Nat} {h : Handler σ}
    {name : Str} (hb : Bare h) (h1 : name ≠ chars! "Schema") (h2 : name ≠ N) :
    Covered N fs sd k (h.endPlain n os name) ((cover N fs sd k h).endPlain n os name) := by
  obtain ⟨hb1, hb2⟩ := hb
  obtain ⟨stack, chars, skip, inDesc, nesting, inOld, oldName, fieldNames, simpleData, taken, stopped, obs⟩ := h
  dsimp only at hb1 hb2
  subst hb1 hb2
  unfold Handler.endPlain cover
  dsimp only
  cases stack with
  | nil => exact .ok ⟨rfl, rfl⟩
  | cons top l =>
    dsimp only
    cases chars with
    | nil => exact ⟨rfl, fun _ h => nomatch h⟩
    | cons s chars =>
      simp only [Bool.false_and]
      cases finishElement n top s with
      | throws => exact ⟨rfl, fun _ h => nomatch h⟩
      | ub => exact ⟨rfl, fun _ h => nomatch h⟩
      | ok e =>
        simp only [Outcome.ok_bind]
        have hc : (⟨top :: l, chars, skip, inDesc, nesting, false, N, fs, sd, k, stopped, obs⟩ : Handler σ).endOldSchema name e =
            .ok (e, ⟨top :: l, chars, skip, inDesc, nesting, false, N, fs, sd, k, stopped, obs⟩) := by
          show (if N = [] then _ else if name = chars! "Schema" then _ else if name = N then _ else _) = _
          rw [if_neg h1, if_neg h2, ite_self]
        rw [hc]
        exact attach_covered (h := ⟨top :: l, chars, skip, inDesc, nesting, false, [], fieldNames, simpleData, taken, stopped, obs⟩)
          ⟨rfl, rfl⟩

theorem end_covered {n : NumLib} {os : List (Observer σ)} {N : Str} {fs : List Str} {sd : List Elem} {k : Nat} {h : Handler σ}
    {name : Str} (hb : Bare h) (h1 : name ≠ chars! "Schema") (h2 : name ≠ N) :
    Covered N fs sd k (h.endElement n os name) ((cover N fs sd k h).endElement n os name) := by
  unfold Handler.endElement
  dsimp only
  rw [show ({ cover N fs sd k h with nesting := dec (cover N fs sd k h).nesting } : Handler σ).leaveDescription name =
    cover N fs sd k (({ h with nesting := dec h.nesting } : Handler σ).leaveDescription name) from
      leave_covered ({ h with nesting := dec h.nesting } : Handler σ) name]
  have hb' : Bare (({ h with nesting := dec h.nesting } : Handler σ).leaveDescription name) := leave_bare name hb
  generalize ({ h with nesting := dec h.nesting } : Handler σ).leaveDescription name = g at hb' ⊢
  show Covered N fs sd k _ (if g.skip > 0 then _ else _)
  split
  · exact endUnknown_covered hb'
  · exact endPlain_covered hb' h1 h2

/-- An event of an ordinary element. -/
def OrdinaryEv (N : Str) (fs : List Str) : Ev → Prop
  | .start name attrs => Ordinary N fs name attrs
  | .stop name => name ≠ chars! "Schema" ∧ name ≠ N
  | .empty name attrs => Ordinary N fs name attrs
  | .chars _ => True

theorem step_covered {n : NumLib} {os : List (Observer σ)} {N : Str} {fs : List Str} {sd : List Elem} {k : Nat} {h : Handler σ}
    {ev : Ev} (hb : Bare h) (ho : OrdinaryEv N fs ev) :
    Covered N fs sd k (h.step n os ev) ((cover N fs sd k h).step n os ev) := by
  cases ev with
  | start name attrs => exact start_covered hb ho
  | stop name => exact end_covered hb ho.1 ho.2
  | chars s =>
    show Covered N fs sd k (appendTop s h.chars >>= _) (appendTop s h.chars >>= _)
    cases appendTop s h.chars with
    | ok c => exact .ok hb
    | throws => exact ⟨rfl, fun _ h => nomatch h⟩
    | ub => exact ⟨rfl, fun _ h => nomatch h⟩
  | empty name attrs =>
    have h1 := start_covered (n := n) (os := os) (sd := sd) (k := k) (attrs := attrs) hb ho
    show Covered N fs sd k (h.startElement n os name attrs >>= fun h => h.endElement n os name)
      ((cover N fs sd k h).startElement n os name attrs >>= fun h => h.endElement n os name)
    rw [h1.1]
    cases hs : h.startElement n os name attrs with
    | ok g => exact end_covered (h1.2 g hs) ho.1 ho.2.1
    | throws => exact ⟨rfl, fun _ h => nomatch h⟩
    | ub => exact ⟨rfl, fun _ h => nomatch h⟩

theorem run_covered {n : NumLib} {os : List (Observer σ)} {N : Str} {fs : List Str} {sd : List Elem} {k : Nat} : ∀ {evs : List Ev}
    {h : Handler σ}, Bare h → (∀ ev ∈ evs, OrdinaryEv N fs ev) →
    Covered N fs sd k (h.run n os evs) ((cover N fs sd k h).run n os evs)
  | [], h, hb, _ => .ok hb
  | ev :: evs, h, hb, ho => by
    have h1 := step_covered (n := n) (os := os) (sd := sd) (k := k) hb (ho ev (by simp))
    unfold Handler.run
    rw [h1.1]
    cases hs : h.step n os ev with
    | ok g =>
      show Covered N fs sd k (if g.stopped then .ok g else g.run n os evs)
        (if g.stopped then .ok (cover N fs sd k g) else (cover N fs sd k g).run n os evs)
      split
      · exact .ok (h1.2 g hs)
      · exact run_covered (h1.2 g hs) fun ev hev => ho ev (List.mem_cons_of_mem _ hev)
    | throws => exact ⟨rfl, fun _ h => nomatch h⟩
    | ub => exact ⟨rfl, fun _ h => nomatch h⟩

mutual

theorem ordinary_events {N : Str} {fs : List Str} : ∀ (x : Xml), x.All (Ordinary N fs) → ∀ ev ∈ x.events, OrdinaryEv N fs ev
  | .text s, _, ev, h => by
    obtain ⟨c, _, rfl⟩ := List.mem_map.1 (show ev ∈ s.map fun c => Ev.chars [c] from h)
    trivial
  | .empty m a, ho, ev, h => by
    rw [List.mem_singleton.1 (show ev ∈ [Ev.empty m a] from h)]
    exact ho
  | .elem m a ks, ho, ev, h => by
    have h : ev ∈ Ev.start m a :: eventsOf ks ++ [.stop m] := h
    simp only [List.cons_append, List.mem_cons, List.mem_append, List.not_mem_nil, or_false] at h
    rcases h with rfl | h | rfl
    · exact ho.1
    · exact ordinary_all ks ho.2 ev h
    · exact ⟨ho.1.1, ho.1.2.1⟩

theorem ordinary_all {N : Str} {fs : List Str} : ∀ (xs : List Xml), AllOf (Ordinary N fs) xs → ∀ ev ∈ eventsOf xs, OrdinaryEv N fs ev
  | [], _, ev, h => nomatch h
  | x :: xs, ho, ev, h => by
    rcases List.mem_append.1 (show ev ∈ x.events ++ eventsOf xs from h) with h | h
    · exact ordinary_events x ho.1 ev h
    · exact ordinary_all xs ho.2 ev h

end

mutual

theorem ordinary_notOld {N : Str} {fs : List Str} : ∀ (x : Xml), x.All (Ordinary N fs) → x.All NotOldSchema
  | .text _, _ => trivial
  | .empty _ _, h => fun hn => absurd hn h.1
  | .elem _ _ ks, h => ⟨fun hn => absurd hn h.1.1, ordinary_allNotOld ks h.2⟩

theorem ordinary_allNotOld {N : Str} {fs : List Str} : ∀ (xs : List Xml), AllOf (Ordinary N fs) xs → AllOf NotOldSchema xs
  | [], _ => trivial
  | x :: xs, h => ⟨ordinary_notOld x h.1, ordinary_allNotOld xs h.2⟩

end

/-! ### The attribute left out -/

theorem withoutParents_map : ∀ l : List Elem, withoutParents l = l.map Elem.withoutParent
  | [] => rfl
  | e :: l => congrArg (e.withoutParent :: ·) (withoutParents_map l)

/-- Equal but for the attribute `parent` of schemas. -/
def Alike (a b : Elem) : Prop := a.withoutParent = b.withoutParent

theorem without_ty (e : Elem) : e.withoutParent.ty = e.ty := by cases e <;> rfl

theorem Alike.ty {a b : Elem} (h : Alike a b) : a.ty = b.ty := by
  rw [← without_ty a, h, without_ty]

theorem without_isA (e : Elem) (t : Ty) : e.withoutParent.isA t = e.isA t := by
  cases e <;> rfl

theorem without_rule (rules : List Rule) (e : Elem) : findRule rules e.withoutParent = findRule rules e := by
  unfold findRule
  congr 2
  funext r
  cases r.1 with
  | ty t => show decide (e.withoutParent.ty = t) = decide (e.ty = t); rw [without_ty]
  | isA t => exact without_isA e t
  | any => rfl

theorem without_single (l : List Elem) : single (withoutParents l) = single l := by
  cases l with
  | nil => rfl
  | cons e l =>
    cases l with
    | nil => cases e <;> rfl
    | cons _ _ => cases e <;> rfl

theorem without_setSlot (slots : Mem → List Elem) (m : Mem) (v : List Elem) :
    setSlot (fun i => withoutParents (slots i)) m (withoutParents v) = fun i => withoutParents (setSlot slots m v i) := by
  funext i
  unfold setSlot
  split <;> rfl

theorem without_points (n : NumLib) (text : Str) : ∀ pts, readPoints n text = .ok pts → withoutParents pts = pts := by
  intro pts h
  unfold readPoints at h
  cases hp : Coords.parse n text.length text [] with
  | none => rw [hp] at h; cases h
  | some r =>
    rw [hp] at h
    dsimp only at h
    cases r with
    | throws => cases h
    | ub => cases h
    | ok l =>
      cases h
      rw [withoutParents_map, List.map_map]
      rfl

theorem without_apply (n : NumLib) (cd : Str) (slots : Mem → List Elem) (c : Elem) (act : Act) :
    act.apply n cd (fun i => withoutParents (slots i)) c.withoutParent =
      (act.apply n cd slots c >>= fun s => .ok fun i => withoutParents (s i)) := by
  cases act with
  | field m k =>
    cases c with
    | field t text =>
      show (readValue n k t (single (withoutParents (slots m))) text >>= _) = ((readValue n k t (single (slots m)) text >>= _) >>= _)
      rw [without_single]
      cases readValue n k t (single (slots m)) text with
      | ok v =>
        show Outcome.ok _ = Outcome.ok _
        rw [← without_setSlot]
        cases v <;> rfl
      | throws => rfl
      | ub => rfl
    | node t a s mis unk =>
      show Outcome.ok _ = Outcome.ok _
      rw [← without_setSlot]
      rfl
  | fields m k =>
    cases c with
    | field t text =>
      show (readValue n k t none text >>= _) = ((readValue n k t none text >>= _) >>= _)
      cases readValue n k t none text with
      | ok v =>
        show Outcome.ok _ = Outcome.ok _
        rw [← without_setSlot]
        simp only [withoutParents_map, List.map_append]
        cases v <;> rfl
      | throws => rfl
      | ub => rfl
    | node t a s mis unk => rfl
  | one m =>
    show Outcome.ok _ = Outcome.ok _
    rw [← without_setSlot]
    rfl
  | many m =>
    show Outcome.ok _ = Outcome.ok _
    rw [← without_setSlot]
    simp only [withoutParents_map, List.map_append]
    rfl
  | selfText m =>
    show Outcome.ok _ = Outcome.ok _
    rw [← without_setSlot]
    rfl
  | selfPoints m =>
    show (readPoints n cd >>= _) = ((readPoints n cd >>= _) >>= _)
    cases hp : readPoints n cd with
    | ok pts =>
      show Outcome.ok _ = Outcome.ok _
      rw [← without_setSlot]
      have := without_points n cd pts hp
      rw [withoutParents_map] at this
      simp only [withoutParents_map, List.map_append, this]
    | throws => rfl
    | ub => rfl

theorem without_add (n : NumLib) (cd : Str) (p c : Elem) :
    addElement n cd p.withoutParent c.withoutParent = (addElement n cd p c >>= fun e => .ok e.withoutParent) := by
  cases p with
  | field t s => rfl
  | node t a slots mis unk =>
    show (match classOf t with
      | none => Outcome.ok (Elem.node t _ (fun i => withoutParents (slots i)) (withoutParents mis ++ [c.withoutParent]) unk)
      | some cl => match findRule cl.rules c.withoutParent with
        | none => Outcome.ok (Elem.node t _ (fun i => withoutParents (slots i)) (withoutParents mis ++ [c.withoutParent]) unk)
        | some act => act.apply n cd (fun i => withoutParents (slots i)) c.withoutParent >>= fun s =>
          .ok (.node t _ s (withoutParents mis) unk)) = ((match classOf t with
      | none => Outcome.ok (Elem.node t a slots (mis ++ [c]) unk)
      | some cl => match findRule cl.rules c with
        | none => Outcome.ok (Elem.node t a slots (mis ++ [c]) unk)
        | some act => act.apply n cd slots c >>= fun s => .ok (.node t a s mis unk)) >>= fun e => .ok e.withoutParent)
    have hmis : withoutParents mis ++ [c.withoutParent] = withoutParents (mis ++ [c]) := by
      simp only [withoutParents_map, List.map_append]
      rfl
    cases classOf t with
    | none => dsimp only; rw [hmis]; rfl
    | some cl =>
      dsimp only
      rw [without_rule]
      cases findRule cl.rules c with
      | none => dsimp only; rw [hmis]; rfl
      | some act =>
        dsimp only
        rw [without_apply]
        cases act.apply n cd slots c <;> rfl

theorem alike_add {n : NumLib} {cd : Str} {p p' c c' r : Elem} (hp : Alike p p') (hc : Alike c c')
    (h : addElement n cd p c = .ok r) : ∃ r', addElement n cd p' c' = .ok r' ∧ Alike r r' := by
  have h1 := without_add n cd p c
  rw [h, hp, hc, without_add] at h1
  cases h2 : addElement n cd p' c' with
  | ok r' =>
    rw [h2] at h1
    refine ⟨r', rfl, ?_⟩
    simpa [Alike] using h1.symm
  | throws => rw [h2] at h1; cases h1
  | ub => rw [h2] at h1; cases h1

theorem alike_finish {n : NumLib} {e e' r : Elem} {s : Str} (he : Alike e e') (h : finishElement n e s = .ok r) :
    ∃ r', finishElement n e' s = .ok r' ∧ Alike r r' := by
  have hs : Alike (setCharData e s) (setCharData e' s) := by
    have : ∀ x : Elem, (setCharData x s).withoutParent = setCharData x.withoutParent s := fun x => by cases x <;> rfl
    unfold Alike
    rw [this, this, he]
  unfold finishElement at h ⊢
  rw [← he.ty]
  split at h
  · rename_i hp
    rw [if_pos hp]
    exact alike_add hs hs h
  · rename_i hp
    rw [if_neg hp]
    cases h
    exact ⟨_, rfl, hs⟩

theorem alike_unknown {e e' : Elem} (s : Str) (he : Alike e e') : Alike (addUnknownElement e s) (addUnknownElement e' s) := by
  have : ∀ x : Elem, (addUnknownElement x s).withoutParent = addUnknownElement x.withoutParent s := fun x => by cases x <;> rfl
  unfold Alike
  rw [this, this, he]

theorem alike_child {n : NumLib} {d : Nat} {cur cur' : Elem} {text : Str} {s : σ} {name : Str} {attrs : List (Str × Str)}
    {whole inner : Str} {height : Nat} {kids : Elem → σ → Outcome (Option (Elem × Str × σ))} {r : Elem × Str × σ}
    (hc : Alike cur cur') (h : buildChild n [] d cur text s name attrs whole inner height kids = .ok (some r)) :
    ∃ e, buildChild n [] d cur' text s name attrs whole inner height kids = .ok (some (e, r.2)) ∧ Alike r.1 e := by
  unfold buildChild at h ⊢
  rw [← hc.ty]
  split at h
  · cases h
  rename_i hd
  rw [if_neg hd]
  cases hm : makeElement n (some cur.ty) (Xsd.elementId name) attrs with
  | none =>
    rw [hm] at h
    dsimp only at h ⊢
    split at h
    · cases h
    rename_i hh
    rw [if_neg hh]
    cases h
    exact ⟨_, rfl, alike_unknown _ hc⟩
  | some e =>
    rw [hm] at h
    dsimp only at h ⊢
    cases hk : buildKnown n [] (d + 1) e s inner height kids with
    | throws => rw [hk] at h; cases h
    | ub => rw [hk] at h; cases h
    | ok o =>
      rw [hk] at h
      cases o with
      | none => cases h
      | some q =>
        obtain ⟨child, s2⟩ := q
        have h' : (addElement n [] cur child >>= fun p => Outcome.ok (some (p, text, s2))) = .ok (some r) := by
          have e1 : (handOver n [] cur s2 child >>= fun r => match r with
              | none => Outcome.ok none
              | some (cur, s) => .ok (some (cur, text, s))) = .ok (some r) := h
          unfold handOver giveChild callAll at e1
          dsimp only at e1
          rw [if_pos rfl] at e1
          cases ha : addElement n [] cur child with
          | ok p => rw [ha] at e1; exact e1
          | throws => rw [ha] at e1; cases e1
          | ub => rw [ha] at e1; cases e1
        cases ha : addElement n [] cur child with
        | throws => rw [ha] at h'; cases h'
        | ub => rw [ha] at h'; cases h'
        | ok p =>
          rw [ha] at h'
          cases h'
          obtain ⟨p', h1, h2⟩ := alike_add hc (show Alike child child from rfl) ha
          refine ⟨p', ?_, h2⟩
          show (handOver n [] cur' s2 child >>= fun r => match r with
              | none => Outcome.ok none
              | some (cur, s) => .ok (some (cur, text, s))) = _
          unfold handOver giveChild callAll
          dsimp only
          rw [if_pos rfl, h1]
          rfl

theorem alike_kid {n : NumLib} {d : Nat} {cur cur' : Elem} {text : Str} {s : σ} {x : Xml} {r : Elem × Str × σ}
    (hc : Alike cur cur') (h : buildKid n [] d cur text s x = .ok (some r)) :
    ∃ e, buildKid n [] d cur' text s x = .ok (some (e, r.2)) ∧ Alike r.1 e := by
  cases x with
  | text t =>
    unfold buildKid at h ⊢
    cases h
    exact ⟨_, rfl, hc⟩
  | empty name attrs =>
    unfold buildKid at h ⊢
    exact alike_child hc h
  | elem name attrs ks =>
    unfold buildKid at h ⊢
    exact alike_child hc h

end Kml.Dom
