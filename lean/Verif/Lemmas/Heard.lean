import Verif.Lemmas.FileObs

/-!
# Observers that never object, for every sequence of events

No condition on the document: whatever the parser tells the recorder, it tells them.
-/

set_option linter.unusedVariables false

namespace Kml.Dom

open Kml

variable {σ : Type}

attribute [local irreducible] kml22Elements Xsd.tagToId classes inc dec uintSize

/-- The same parser with other observers. -/
def Handler.seen (h : Handler (List Notice)) (s : σ) : Handler σ :=
  ⟨h.stack, h.chars, h.skip, h.inDesc, h.nesting, h.inOld, h.oldName, h.fieldNames, h.simpleData, h.taken, h.stopped, s⟩

/-- Two parsers that go the same way, one with the recorder. -/
def Same (f : σ → Notice → Option σ) (s0 : σ) : Outcome (Handler (List Notice)) → Outcome (Handler σ) → Prop
  | .ok g, o => ∃ s, takeIn f s0 g.obs = some s ∧ o = .ok (g.seen s)
  | .throws, o => o = .throws
  | .ub, o => o = .ub

theorem same_ok {f : σ → Notice → Option σ} {s0 s : σ} {g : Handler (List Notice)} (h : takeIn f s0 g.obs = some s) :
    Same f s0 (.ok g) (.ok (g.seen s)) := ⟨s, h, rfl⟩

/-- A step that asks no observer, after which both parsers go on. -/
theorem same_bind {α : Type} {f : σ → Notice → Option σ} {s0 : σ} {x : Outcome α} {k : α → Outcome (Handler (List Notice))}
    {k' : α → Outcome (Handler σ)} (h : ∀ a, Same f s0 (k a) (k' a)) : Same f s0 (x >>= k) (x >>= k') := by
  cases x with
  | ok a => exact h a
  | throws => rfl
  | ub => rfl

/-- Both parsers ask the same question. -/
theorem same_ite {f : σ → Notice → Option σ} {s0 : σ} {c : Prop} {i j : Decidable c} {a b : Outcome (Handler (List Notice))}
    {a' b' : Outcome (Handler σ)} (h1 : c → Same f s0 a a') (h2 : ¬ c → Same f s0 b b') :
    Same f s0 (@ite _ c i a b) (@ite _ c j a' b') := by
  by_cases h : c
  · rw [if_pos h, if_pos h]; exact h1 h
  · rw [if_neg h, if_neg h]; exact h2 h

theorem same_then {f : σ → Notice → Option σ} {s0 : σ} {x : Outcome (Handler (List Notice))} {y : Outcome (Handler σ)}
    {k : Handler (List Notice) → Outcome (Handler (List Notice))} {k' : Handler σ → Outcome (Handler σ)} (hxy : Same f s0 x y)
    (h : ∀ g s, takeIn f s0 g.obs = some s → Same f s0 (k g) (k' (g.seen s))) : Same f s0 (x >>= k) (y >>= k') := by
  cases x with
  | ok a =>
    obtain ⟨s, h1, rfl⟩ := hxy
    exact h a s h1
  | throws => cases hxy; rfl
  | ub => cases hxy; rfl

section

variable {n : NumLib} {os : List (Observer σ)} {f : σ → Notice → Option σ} {s0 : σ}

theorem same_startUnknown {g : Handler (List Notice)} {s : σ} {name : Str} {attrs : List (Str × Str)}
    (hs : takeIn f s0 g.obs = some s) : Same f s0 (g.startUnknown name attrs) ((g.seen s).startUnknown name attrs) := by
  obtain ⟨stack, chars, skip, inDesc, nesting, inOld, oldName, fieldNames, simpleData, taken, stopped, obs⟩ := g
  unfold Handler.startUnknown
  cases stack with
  | nil => exact ⟨s, hs, rfl⟩
  | cons => exact same_bind fun c => ⟨s, hs, rfl⟩

theorem same_startKnown (hL : Listens os f) (hf : ∀ s x, (f s x).isSome = true) {g : Handler (List Notice)} {s : σ} {e : Elem}
    (hs : takeIn f s0 g.obs = some s) : Same f s0 (.ok (g.startKnown [recorder] e)) (.ok ((g.seen s).startKnown os e)) := by
  obtain ⟨stack, chars, skip, inDesc, nesting, inOld, oldName, fieldNames, simpleData, taken, stopped, obs⟩ := g
  obtain ⟨s', hs'⟩ := Option.isSome_iff_exists.1 (hf s (.new e))
  have hnew := (hL.new s e).2 s' hs'
  refine ⟨s', ?_, ?_⟩
  · have : (Handler.startKnown [recorder] ⟨stack, chars, skip, inDesc, nesting, inOld, oldName, fieldNames, simpleData, taken, stopped, obs⟩ e).obs
        = obs ++ [.new e] := by
      unfold Handler.startKnown
      by_cases he : e.ty = Ty.«description»
      · simp only [if_pos he, recorder_new]
      · simp only [if_neg he, recorder_new]
    rw [this, takeIn_snoc]
    simp only at hs
    rw [hs]
    exact hs'
  · unfold Handler.startKnown Handler.seen
    by_cases he : e.ty = Ty.«description»
    · simp only [if_pos he, recorder_new, hnew]
    · simp only [if_neg he, recorder_new, hnew]

theorem same_startPlain (hL : Listens os f) (hf : ∀ s x, (f s x).isSome = true) {g : Handler (List Notice)} {s : σ} {name : Str}
    {attrs : List (Str × Str)} (hs : takeIn f s0 g.obs = some s) :
    Same f s0 (g.startPlain n [recorder] name attrs) ((g.seen s).startPlain n os name attrs) := by
  obtain ⟨stack, chars, skip, inDesc, nesting, inOld, oldName, fieldNames, simpleData, taken, stopped, obs⟩ := g
  unfold Handler.startPlain
  by_cases hn : name = chars! "Schema"
  all_goals
    simp only [hn, if_true, if_false, Handler.seen]
    cases hm : makeElement n (stack.head?.map Elem.ty) _ attrs with
    | some e => exact same_startKnown hL hf (g := ⟨stack, [] :: chars, skip, inDesc, nesting, inOld, _, fieldNames, simpleData, taken, stopped, obs⟩) hs
    | none =>
      simp only
      refine same_ite (fun _ => ?_) fun _ => ?_
      · cases hc : oldSchemaChild _ fieldNames with
        | some sd => exact ⟨s, hs, rfl⟩
        | none => exact same_startUnknown (g := ⟨stack, [] :: chars, skip, inDesc, nesting, false, _, fieldNames, simpleData, taken, stopped, obs⟩) hs
      · exact same_startUnknown (g := ⟨stack, [] :: chars, skip, inDesc, nesting, inOld, _, fieldNames, simpleData, taken, stopped, obs⟩) hs

theorem same_startElement (hL : Listens os f) (hf : ∀ s x, (f s x).isSome = true) {g : Handler (List Notice)} {s : σ} {name : Str}
    {attrs : List (Str × Str)} (hs : takeIn f s0 g.obs = some s) :
    Same f s0 (g.startElement n [recorder] name attrs) ((g.seen s).startElement n os name attrs) := by
  obtain ⟨stack, chars, skip, inDesc, nesting, inOld, oldName, fieldNames, simpleData, taken, stopped, obs⟩ := g
  unfold Handler.startElement
  simp only [Handler.seen]
  by_cases h1 : inc nesting > maxNestingDepth
  · simp only [h1, if_true]
    exact ⟨s, hs, rfl⟩
  · simp only [h1, if_false]
    by_cases h2 : inDesc > 0 ∧ name = chars! "description"
    all_goals
      simp only [h2, and_self, if_true, if_false]
      refine same_ite (fun _ => ?_) fun _ => ?_
      · exact same_bind fun c => ⟨s, hs, rfl⟩
      · exact same_startPlain hL hf (g := ⟨stack, chars, skip, _, inc nesting, inOld, oldName, fieldNames, simpleData, taken, stopped, obs⟩) hs

theorem same_endUnknown {g : Handler (List Notice)} {s : σ} {name : Str}
    (hs : takeIn f s0 g.obs = some s) : Same f s0 (g.endUnknown name) ((g.seen s).endUnknown name) := by
  obtain ⟨stack, chars, skip, inDesc, nesting, inOld, oldName, fieldNames, simpleData, taken, stopped, obs⟩ := g
  unfold Handler.endUnknown
  simp only [Handler.seen]
  refine same_bind fun c => ?_
  refine same_ite (fun _ => ?_) fun _ => ?_
  · cases stack with
    | nil => rfl
    | cons top rest =>
      cases c with
      | nil => rfl
      | cons x xs => exact ⟨s, hs, rfl⟩
  · exact ⟨s, hs, rfl⟩

theorem same_attach (hL : Listens os f) (hf : ∀ s x, (f s x).isSome = true) {g : Handler (List Notice)} {s : σ} {child : Elem}
    (hs : takeIn f s0 g.obs = some s) : Same f s0 (g.attach n [recorder] child) ((g.seen s).attach n os child) := by
  obtain ⟨stack, chars, skip, inDesc, nesting, inOld, oldName, fieldNames, simpleData, taken, stopped, obs⟩ := g
  unfold Handler.attach
  simp only [Handler.seen]
  match stack with
  | [] => exact ⟨s, hs, rfl⟩
  | [_] => exact ⟨s, hs, rfl⟩
  | x :: parent :: rest =>
    simp only [recorder_fin, hL.fin]
    refine same_bind fun p => ?_
    obtain ⟨s', hs'⟩ := Option.isSome_iff_exists.1 (hf s (.add p child))
    have hadd := (hL.add s p child).2 s' hs'
    simp only [recorder_add, hadd]
    refine ⟨s', ?_, rfl⟩
    simp only at hs ⊢
    rw [takeIn_snoc, hs]
    exact hs'

theorem same_endOldSchema {g : Handler (List Notice)} {s : σ} {name : Str} {e : Elem} :
    (g.seen s).endOldSchema name e = (g.endOldSchema name e >>= fun r => .ok (r.1, r.2.seen s)) ∧
    ∀ r, g.endOldSchema name e = .ok r → r.2.obs = g.obs := by
  obtain ⟨stack, chars, skip, inDesc, nesting, inOld, oldName, fieldNames, simpleData, taken, stopped, obs⟩ := g
  unfold Handler.endOldSchema
  simp only [Handler.seen]
  by_cases h1 : oldName = []
  · simp only [h1, if_true]
    exact ⟨rfl, fun r h => by cases h; rfl⟩
  · by_cases h2 : name = chars! "Schema"
    · simp only [h1, h2, if_true, if_false]
      cases oldSchemaEnd e oldName with
      | ok a => exact ⟨rfl, fun r h => by cases h; rfl⟩
      | throws => exact ⟨rfl, fun r h => by cases h⟩
      | ub => exact ⟨rfl, fun r h => by cases h⟩
    · by_cases h3 : name = oldName
      · simp only [h1, h3, if_true, if_false]
        rw [h3] at h2
        simp only [if_neg h2]
        cases oldSchemaParentEnd e oldName (simpleData.drop taken) with
        | ok a => exact ⟨rfl, fun r h => by cases h; rfl⟩
        | throws => exact ⟨rfl, fun r h => by cases h⟩
        | ub => exact ⟨rfl, fun r h => by cases h⟩
      · simp only [h1, h2, h3, if_false]
        exact ⟨rfl, fun r h => by cases h; rfl⟩

theorem same_endPlain (hL : Listens os f) (hf : ∀ s x, (f s x).isSome = true) {g : Handler (List Notice)} {s : σ} {name : Str}
    (hs : takeIn f s0 g.obs = some s) : Same f s0 (g.endPlain n [recorder] name) ((g.seen s).endPlain n os name) := by
  obtain ⟨stack, chars, skip, inDesc, nesting, inOld, oldName, fieldNames, simpleData, taken, stopped, obs⟩ := g
  unfold Handler.endPlain
  simp only [Handler.seen]
  cases stack with
  | nil => exact ⟨s, hs, rfl⟩
  | cons top rest =>
    cases chars with
    | nil => rfl
    | cons c cs =>
      simp only
      cases inOld && !simpleData.isEmpty with
      | true => exact ⟨s, hs, rfl⟩
      | false =>
        simp only
        refine same_bind fun e => ?_
        obtain ⟨h1, h2⟩ := same_endOldSchema (name := name) (e := e) (s := s)
          (g := ⟨top :: rest, cs, skip, inDesc, nesting, inOld, oldName, fieldNames, simpleData, taken, stopped, obs⟩)
        simp only [Handler.seen] at h1
        rw [h1]
        cases hr : Handler.endOldSchema ⟨top :: rest, cs, skip, inDesc, nesting, inOld, oldName, fieldNames, simpleData, taken, stopped, obs⟩ name e with
        | ok r => exact same_attach hL hf (g := r.2) (by rw [h2 r hr]; exact hs)
        | throws => rfl
        | ub => rfl

theorem same_endElement (hL : Listens os f) (hf : ∀ s x, (f s x).isSome = true) {g : Handler (List Notice)} {s : σ} {name : Str}
    (hs : takeIn f s0 g.obs = some s) : Same f s0 (g.endElement n [recorder] name) ((g.seen s).endElement n os name) := by
  obtain ⟨stack, chars, skip, inDesc, nesting, inOld, oldName, fieldNames, simpleData, taken, stopped, obs⟩ := g
  unfold Handler.endElement Handler.leaveDescription
  simp only [Handler.seen]
  by_cases h1 : name = chars! "description"
  · by_cases h2 : dec inDesc = 0
    all_goals
      simp only [h1, h2, if_true, if_false]
      refine same_ite (fun _ => ?_) fun _ => ?_
      · exact same_endUnknown (g := ⟨stack, chars, _, _, dec nesting, inOld, oldName, fieldNames, simpleData, taken, stopped, obs⟩) hs
      · exact same_endPlain hL hf (g := ⟨stack, chars, _, _, dec nesting, inOld, oldName, fieldNames, simpleData, taken, stopped, obs⟩) hs
  · simp only [h1, if_false]
    refine same_ite (fun _ => ?_) fun _ => ?_
    · exact same_endUnknown (g := ⟨stack, chars, _, _, dec nesting, inOld, oldName, fieldNames, simpleData, taken, stopped, obs⟩) hs
    · exact same_endPlain hL hf (g := ⟨stack, chars, _, _, dec nesting, inOld, oldName, fieldNames, simpleData, taken, stopped, obs⟩) hs

theorem same_step (hL : Listens os f) (hf : ∀ s x, (f s x).isSome = true) {g : Handler (List Notice)} {s : σ} (ev : Ev)
    (hs : takeIn f s0 g.obs = some s) : Same f s0 (g.step n [recorder] ev) ((g.seen s).step n os ev) := by
  cases ev with
  | start name attrs => exact same_startElement hL hf hs
  | stop name => exact same_endElement hL hf hs
  | empty name attrs => exact same_then (same_startElement hL hf hs) fun g s hs => same_endElement hL hf hs
  | chars c =>
    unfold Handler.step Handler.charData
    exact same_bind fun c => ⟨s, hs, rfl⟩

theorem same_run (hL : Listens os f) (hf : ∀ s x, (f s x).isSome = true) : ∀ (evs : List Ev) {g : Handler (List Notice)} {s : σ},
    takeIn f s0 g.obs = some s → Same f s0 (g.run n [recorder] evs) ((g.seen s).run n os evs)
  | [], g, s, hs => ⟨s, hs, rfl⟩
  | ev :: evs, g, s, hs => by
    unfold Handler.run
    refine same_then (same_step hL hf ev hs) fun g s hs => ?_
    simp only [Handler.seen]
    refine same_ite (fun _ => ?_) fun _ => ?_
    · exact ⟨s, hs, rfl⟩
    · exact same_run hL hf evs hs

end

/-- **Every sequence of events.** Observers that never object end with what they make of the notices of the parser, and
the parse is the same as with the recorder. -/
theorem parse_heard {n : NumLib} {os : List (Observer σ)} {f : σ → Notice → Option σ} (hL : Listens os f)
    (hf : ∀ s x, (f s x).isSome = true) (s0 : σ) (evs : List Ev) :
    (∀ o s, parseEvents n os s0 evs = .ok (o, s) ↔
      ∃ l, parseEvents n [recorder] [] evs = .ok (o, l) ∧ takeIn f s0 l = some s) ∧
    (parseEvents n os s0 evs = .throws ↔ parseEvents n [recorder] [] evs = .throws) ∧
    (parseEvents n os s0 evs = .ub ↔ parseEvents n [recorder] [] evs = .ub) := by
  have h := same_run (n := n) (s0 := s0) hL hf evs (g := Handler.init []) (s := s0) rfl
  have hi : (Handler.init ([] : List Notice)).seen s0 = Handler.init s0 := rfl
  rw [hi] at h
  unfold parseEvents
  cases hr : (Handler.init ([] : List Notice)).run n [recorder] evs with
  | ok g =>
    rw [hr] at h
    obtain ⟨s, h1, h2⟩ := h
    rw [h2]
    simp only [Outcome.ok_bind, Outcome.ok.injEq, Prod.mk.injEq, reduceCtorEq, and_true]
    intro o s'
    constructor
    · rintro ⟨h3, h4⟩
      exact ⟨g.obs, ⟨h3, rfl⟩, h1.trans (congrArg some h4)⟩
    · rintro ⟨l, ⟨h3, rfl⟩, h4⟩
      exact ⟨h3, Option.some.inj (h1.symm.trans h4)⟩
  | throws =>
    rw [hr] at h
    rw [show (Handler.init s0).run n os evs = .throws from h]
    refine ⟨fun o s => ⟨?_, ?_⟩, ⟨fun _ => rfl, fun _ => rfl⟩, ⟨?_, ?_⟩⟩
    · intro h; cases h
    · rintro ⟨l, h, _⟩; cases h
    · intro h; cases h
    · intro h; cases h
  | ub =>
    rw [hr] at h
    rw [show (Handler.init s0).run n os evs = .ub from h]
    refine ⟨fun o s => ⟨?_, ?_⟩, ⟨?_, ?_⟩, ⟨fun _ => rfl, fun _ => rfl⟩⟩
    · intro h; cases h
    · rintro ⟨l, h, _⟩; cases h
    · intro h; cases h
    · intro h; cases h

end Kml.Dom
