import Verif.Lemmas.Handler

/-! The nesting counter of the parser, for every document. -/

namespace Kml.Dom

open Kml

variable {σ : Type}

attribute [local irreducible] kml22Elements Xsd.tagToId classes inc dec uintSize

/-- The steps that follow the counter do not touch it. -/
theorem startUnknown_nesting {h h' : Handler σ} {name : Str} {attrs : List (Str × Str)}
    (he : h.startUnknown name attrs = .ok h') :
    h'.nesting = h.nesting ∧ (h.stack ≠ [] → h'.stopped = h.stopped ∧ h'.stack = h.stack) := by
  unfold Handler.startUnknown at he
  split at he
  · rename_i hs
    cases he
    exact ⟨rfl, fun hx => absurd hs hx⟩
  · cases hc : appendTop (startText name attrs) h.chars with
    | ok c => rw [hc] at he; cases he; exact ⟨rfl, fun _ => ⟨rfl, rfl⟩⟩
    | throws => rw [hc] at he; cases he
    | ub => rw [hc] at he; cases he

theorem startKnown_nesting (os : List (Observer σ)) (h : Handler σ) (e : Elem) :
    (h.startKnown os e).nesting = h.nesting ∧ (h.startKnown os e).stack = e :: h.stack ∧
      (os = [] → (h.startKnown os e).stopped = h.stopped) := by
  unfold Handler.startKnown
  by_cases hx : e.ty = Ty.«description»
  · simp only [hx, if_true]
    exact ⟨trivial, trivial, fun ho => by rw [ho]; simp [callAll]⟩
  · simp only [hx, if_false]
    exact ⟨trivial, trivial, fun ho => by rw [ho]; simp [callAll]⟩

theorem startPlain_nesting {n : NumLib} {os : List (Observer σ)} {h h' : Handler σ} {name : Str}
    {attrs : List (Str × Str)} (he : h.startPlain n os name attrs = .ok h') :
    h'.nesting = h.nesting ∧ (h.stack ≠ [] → os = [] → h'.stopped = h.stopped ∧ h'.stack ≠ []) := by
  unfold Handler.startPlain at he
  have hk : ∀ k : Handler σ, k.nesting = h.nesting → k.stack = h.stack → k.stopped = h.stopped →
      ∀ (t : Ty), (match makeElement n (k.stack.head?.map Elem.ty) t attrs with
        | some e => .ok (k.startKnown os e)
        | none =>
          if Xsd.elementType t = .unknown ∧ k.oldName ≠ [] then
            match oldSchemaChild name k.fieldNames with
            | some sd => .ok { k with inOld := true, simpleData := k.simpleData ++ [sd] }
            | none => { k with inOld := false }.startUnknown name attrs
          else k.startUnknown name attrs) = Outcome.ok h' →
        h'.nesting = h.nesting ∧ (h.stack ≠ [] → os = [] → h'.stopped = h.stopped ∧ h'.stack ≠ []) := by
    intro k h1 h2 h3 t hk
    split at hk
    · rename_i e _
      cases hk
      obtain ⟨a, b, c⟩ := startKnown_nesting os k e
      exact ⟨by rw [a, h1], fun _ ho => ⟨by rw [c ho, h3], by rw [b]; exact List.cons_ne_nil _ _⟩⟩
    · split at hk
      · split at hk
        · cases hk
          exact ⟨h1, fun hs _ => ⟨h3, by show k.stack ≠ []; rw [h2]; exact hs⟩⟩
        · have := startUnknown_nesting hk
          exact ⟨by rw [this.1]; exact h1, fun hs _ => by
            have h5 := this.2 (by show k.stack ≠ []; rw [h2]; exact hs)
            exact ⟨by rw [h5.1]; exact h3, by rw [h5.2]; show k.stack ≠ []; rw [h2]; exact hs⟩⟩
      · have := startUnknown_nesting hk
        exact ⟨by rw [this.1]; exact h1, fun hs _ => by
          have h5 := this.2 (by rw [h2]; exact hs)
          exact ⟨by rw [h5.1]; exact h3, by rw [h5.2, h2]; exact hs⟩⟩
  by_cases hx : name = chars! "Schema"
  · simp only [if_pos hx] at he
    exact hk ({ h with
      oldName := findOldSchemaName attrs h.oldName, chars := [] :: h.chars }) rfl rfl rfl _ he
  · simp only [if_neg hx] at he
    exact hk ({ h with chars := [] :: h.chars }) rfl rfl rfl _ he

theorem startElement_nesting {n : NumLib} {os : List (Observer σ)} {h h' : Handler σ} {name : Str}
    {attrs : List (Str × Str)} (hn : h.nesting ≤ 100) (he : h.startElement n os name attrs = .ok h') :
    (h.nesting + 1 > 100 ∧ h'.stopped = true) ∨
      (h.nesting + 1 ≤ 100 ∧ h'.nesting = h.nesting + 1 ∧
        (h.stack ≠ [] → os = [] → h'.stopped = h.stopped ∧ h'.stack ≠ [])) := by
  have hu := uintSize_val
  have hinc : inc h.nesting = h.nesting + 1 := inc_eq (by omega)
  unfold Handler.startElement at he
  simp only [hinc, maxNestingDepth] at he
  by_cases hd : h.nesting + 1 > 100
  · rw [if_pos hd] at he
    cases he
    exact .inl ⟨hd, rfl⟩
  · rw [if_neg hd] at he
    refine .inr ⟨by omega, ?_⟩
    have hk : ∀ k : Handler σ, k.nesting = h.nesting + 1 → k.stack = h.stack → k.stopped = h.stopped →
        ((if k.skip > 0 then do
          let c ← appendTop (startText name attrs) k.chars
          .ok { k with chars := c, skip := inc k.skip }
        else k.startPlain n os name attrs) = Outcome.ok h') →
        h'.nesting = h.nesting + 1 ∧
          (h.stack ≠ [] → os = [] → h'.stopped = h.stopped ∧ h'.stack ≠ []) := by
      intro k h1 h2 h3 hk
      split at hk
      · cases hc : appendTop (startText name attrs) k.chars with
        | ok c =>
          rw [hc] at hk; cases hk
          exact ⟨h1, fun hs _ => ⟨h3, by show k.stack ≠ []; rw [h2]; exact hs⟩⟩
        | throws => rw [hc] at hk; cases hk
        | ub => rw [hc] at hk; cases hk
      · have := startPlain_nesting hk
        exact ⟨by rw [this.1, h1], fun hs ho => by
          have h5 := this.2 (by rw [h2]; exact hs) ho
          exact ⟨by rw [h5.1, h3], h5.2⟩⟩
    by_cases hx : h.inDesc > 0 ∧ name = chars! "description"
    · simp only [if_pos hx] at he
      exact hk ({ h with nesting := h.nesting + 1, inDesc := inc h.inDesc }) rfl rfl rfl he
    · simp only [if_neg hx] at he
      exact hk ({ h with nesting := h.nesting + 1 }) rfl rfl rfl he

theorem leaveDescription_same (h : Handler σ) (name : Str) :
    (h.leaveDescription name).nesting = h.nesting ∧ (h.leaveDescription name).stack = h.stack ∧
      (h.leaveDescription name).stopped = h.stopped := by
  unfold Handler.leaveDescription
  split
  · split <;> exact ⟨rfl, rfl, rfl⟩
  · exact ⟨rfl, rfl, rfl⟩

theorem endOldSchema_same {h : Handler σ} {name : Str} {e : Elem} {r : Elem × Handler σ}
    (ho : h.endOldSchema name e = .ok r) :
    r.2.nesting = h.nesting ∧ r.2.stack = h.stack ∧ r.2.stopped = h.stopped := by
  unfold Handler.endOldSchema at ho
  split at ho
  · cases ho; exact ⟨rfl, rfl, rfl⟩
  · split at ho
    · cases hx : oldSchemaEnd e h.oldName with
      | ok v => simp only [hx, Outcome.ok_bind] at ho; cases ho; exact ⟨rfl, rfl, rfl⟩
      | throws => simp only [hx] at ho; cases ho
      | ub => simp only [hx] at ho; cases ho
    · split at ho
      · cases hx : oldSchemaParentEnd e h.oldName (h.simpleData.drop h.taken) with
        | ok v => simp only [hx, Outcome.ok_bind] at ho; cases ho; exact ⟨rfl, rfl, rfl⟩
        | throws => simp only [hx] at ho; cases ho
        | ub => simp only [hx] at ho; cases ho
      · cases ho; exact ⟨rfl, rfl, rfl⟩

theorem attach_same {n : NumLib} {os : List (Observer σ)} {h h' : Handler σ} {child : Elem}
    (ha : h.attach n os child = .ok h') :
    h'.nesting = h.nesting ∧ (h.stack ≠ [] → os = [] → h'.stopped = h.stopped ∧ h'.stack ≠ []) := by
  unfold Handler.attach at ha
  split at ha
  · rename_i p rest _
    cases hq : giveChild n (callAll (fun o s => o.endElement s p child) os h.obs).1 p child with
    | ok v =>
      simp only [hq, Outcome.ok_bind] at ha
      cases ha
      exact ⟨rfl, fun _ ho => ⟨by rw [ho]; simp [callAll], List.cons_ne_nil _ _⟩⟩
    | throws => simp only [hq] at ha; cases ha
    | ub => simp only [hq] at ha; cases ha
  · cases ha; exact ⟨rfl, fun _ _ => ⟨rfl, List.cons_ne_nil _ _⟩⟩
  · rename_i hs; cases ha; exact ⟨rfl, fun hx _ => absurd hs hx⟩

theorem endElement_nesting {n : NumLib} {os : List (Observer σ)} {h h' : Handler σ} {name : Str}
    (he : h.endElement n os name = .ok h') :
    h'.nesting = dec h.nesting ∧ (h.stack ≠ [] → os = [] → h'.stopped = h.stopped ∧ h'.stack ≠ []) := by
  unfold Handler.endElement at he
  obtain ⟨h1, h2, h3⟩ := leaveDescription_same ({ h with nesting := dec h.nesting } : Handler σ) name
  generalize ({ h with nesting := dec h.nesting }.leaveDescription name) = k at h1 h2 h3 he
  have h1' : k.nesting = dec h.nesting := h1
  have h2' : k.stack = h.stack := h2
  have h3' : k.stopped = h.stopped := h3
  simp only at he
  split at he
  · unfold Handler.endUnknown at he
    cases hc : appendTop (endText name) k.chars with
    | ok c =>
      rw [hc] at he
      simp only [Outcome.ok_bind] at he
      split at he
      · split at he
        · cases he; exact ⟨h1', fun _ _ => ⟨h3', List.cons_ne_nil _ _⟩⟩
        · cases he
      · cases he; exact ⟨h1', fun hs _ => ⟨h3', by show k.stack ≠ []; rw [h2']; exact hs⟩⟩
    | throws => rw [hc] at he; cases he
    | ub => rw [hc] at he; cases he
  · unfold Handler.endPlain at he
    split at he
    · rename_i hs
      cases he; exact ⟨h1', fun hx _ => absurd (h2' ▸ hs) hx⟩
    · split at he
      · cases he
      · split at he
        · cases he; exact ⟨h1', fun hs _ => ⟨h3', by show k.stack ≠ []; rw [h2']; exact hs⟩⟩
        · rename_i top _ _ _ s chars _ _ _
          cases hf : finishElement n top s with
          | ok e =>
            rw [hf] at he
            simp only [Outcome.ok_bind] at he
            cases ho : { k with chars := chars }.endOldSchema name e with
            | ok r =>
              rw [ho] at he
              simp only [Outcome.ok_bind] at he
              obtain ⟨a, b, c⟩ := endOldSchema_same ho
              obtain ⟨a', b'⟩ := attach_same he
              refine ⟨by rw [a', a]; exact h1', fun hs hos => ?_⟩
              have := b' (by rw [b]; show k.stack ≠ []; rw [h2']; exact hs) hos
              exact ⟨by rw [this.1, c]; exact h3', this.2⟩
            | throws => rw [ho] at he; cases he
            | ub => rw [ho] at he; cases he
          | throws => rw [hf] at he; cases he
          | ub => rw [hf] at he; cases he

/-- A run, if it ends: either it was stopped, or nothing in it was too deep and the counter is back where
it was.  Without observers, and inside a root, only depth stops it. -/
def Counts (os : List (Observer σ)) (depth : Nat) (h : Handler σ) (r : Outcome (Handler σ)) : Prop :=
  ∀ h', r = .ok h' →
    (h'.stopped = true ∨ (h.nesting + depth ≤ 100 ∧ h'.nesting = h.nesting)) ∧
    (h.stack ≠ [] → os = [] → h.nesting + depth ≤ 100 → h'.stopped = false ∧ h'.stack ≠ [])

theorem run_cons_elem (n : NumLib) (os : List (Observer σ)) (name : Str) (attrs : List (Str × Str))
    (evs : List Ev) (d : Nat)
    (ih : ∀ h : Handler σ, h.stopped = false → h.nesting ≤ 100 → Counts os d h (h.run n os evs))
    (h : Handler σ) (hs : h.stopped = false) (hn : h.nesting ≤ 100) :
    Counts os (d + 1) h (h.run n os (.start name attrs :: evs ++ [.stop name])) := by
  intro h' he
  have hu := uintSize_val
  rw [List.cons_append] at he
  simp only [Handler.run, Handler.step] at he
  cases h1e : h.startElement n os name attrs with
  | ok h1 =>
    rw [h1e] at he
    simp only [Outcome.ok_bind] at he
    rcases startElement_nesting hn h1e with ⟨hd, hst⟩ | ⟨hd, hn1, hlive⟩
    · rw [if_pos hst] at he
      cases he
      exact ⟨.inl hst, fun _ _ hx => by omega⟩
    · cases hst : h1.stopped with
      | true =>
        rw [if_pos hst] at he
        cases he
        refine ⟨.inl hst, fun hk ho hx => ?_⟩
        have := (hlive hk ho).1
        rw [hst, hs] at this; cases this
      | false =>
        rw [if_neg (by rw [hst]; decide), run_append n os _ _ h1 hst] at he
        cases h2e : h1.run n os evs with
        | ok h2 =>
          rw [h2e] at he
          simp only [Outcome.ok_bind] at he
          obtain ⟨c1, c2⟩ := ih h1 hst (by omega) h2 h2e
          cases hst2 : h2.stopped with
          | true =>
            rw [if_pos hst2] at he
            cases he
            refine ⟨.inl hst2, fun hk ho hx => ?_⟩
            have := (c2 (hlive hk ho).2 ho (by omega)).1
            rw [hst2] at this; cases this
          | false =>
            rw [if_neg (by rw [hst2]; decide)] at he
            simp only [Handler.run, Handler.step] at he
            cases h3e : h2.endElement n os name with
            | ok h3 =>
              rw [h3e] at he
              simp only [Outcome.ok_bind, ite_self, Outcome.ok.injEq] at he
              subst he
              obtain ⟨e1, e2⟩ := endElement_nesting h3e
              rcases c1 with c1 | ⟨c1, c1'⟩
              · rw [hst2] at c1; cases c1
              · refine ⟨.inr ⟨by omega, ?_⟩, fun hk ho hx => ?_⟩
                · rw [e1, c1', hn1, dec_succ (by omega)]
                · have := c2 (hlive hk ho).2 ho (by omega)
                  have := e2 this.2 ho
                  exact ⟨by rw [this.1, hst2], this.2⟩
            | throws => rw [h3e] at he; cases he
            | ub => rw [h3e] at he; cases he
        | throws => rw [h2e] at he; cases he
        | ub => rw [h2e] at he; cases he
  | throws => rw [h1e] at he; cases he
  | ub => rw [h1e] at he; cases he

theorem run_empty_tag (n : NumLib) (os : List (Observer σ)) (name : Str) (attrs : List (Str × Str))
    (h : Handler σ) (hs : h.stopped = false) (hn : h.nesting ≤ 100) :
    Counts os 1 h (h.run n os [.empty name attrs]) := by
  intro h' he
  have hu := uintSize_val
  rw [Handler.run, Handler.step] at he
  cases h1e : h.startElement n os name attrs with
  | ok h1 =>
    rw [h1e] at he
    simp only [Outcome.ok_bind] at he
    cases h2e : h1.endElement n os name with
    | ok h2 =>
      rw [h2e] at he
      simp only [Outcome.ok_bind, Handler.run, ite_self, Outcome.ok.injEq] at he
      subst he
      obtain ⟨e1, e2⟩ := endElement_nesting h2e
      rcases startElement_nesting hn h1e with ⟨hd, hst⟩ | ⟨hd, hn1, hlive⟩
      · exact ⟨.inl (endElement_stopped n os h1 name hst _ h2e), fun _ _ hx => by omega⟩
      · refine ⟨.inr ⟨hd, by rw [e1, hn1, dec_succ (by omega)]⟩, fun hk ho _ => ?_⟩
        have h3 := hlive hk ho
        have h4 := e2 h3.2 ho
        exact ⟨by rw [h4.1, h3.1, hs], h4.2⟩
    | throws => rw [h2e] at he; cases he
    | ub => rw [h2e] at he; cases he
  | throws => rw [h1e] at he; cases he
  | ub => rw [h1e] at he; cases he

theorem run_chars_counts (n : NumLib) (os : List (Observer σ)) (s : Str) : ∀ (h : Handler σ),
    h.stopped = false → h.nesting ≤ 100 → Counts os 0 h (h.run n os (charEvents s)) := by
  induction s with
  | nil =>
    intro h hs hn h' he
    cases he
    exact ⟨.inr ⟨hn, rfl⟩, fun hk _ _ => ⟨hs, hk⟩⟩
  | cons c s ih =>
    intro h hs hn h' he
    simp only [charEvents, List.map_cons, Handler.run, Handler.step, Handler.charData] at he
    cases hc : appendTop [c] h.chars with
    | ok v =>
      rw [hc] at he
      simp only [Outcome.ok_bind, hs] at he
      exact ih { h with chars := v } hs hn h' (by simpa [hs, charEvents] using he)
    | throws => rw [hc] at he; cases he
    | ub => rw [hc] at he; cases he

mutual

theorem counts_one (n : NumLib) (os : List (Observer σ)) : ∀ (x : Xml) (h : Handler σ), h.stopped = false →
    h.nesting ≤ 100 → Counts os x.depth h (h.run n os x.events)
  | .text s, h, hs, hn => run_chars_counts n os s h hs hn
  | .empty name attrs, h, hs, hn => run_empty_tag n os name attrs h hs hn
  | .elem name attrs ks, h, hs, hn =>
    run_cons_elem n os name attrs (eventsOf ks) (depthOf ks) (counts_all n os ks) h hs hn

theorem counts_all (n : NumLib) (os : List (Observer σ)) : ∀ (xs : List Xml) (h : Handler σ),
    h.stopped = false → h.nesting ≤ 100 → Counts os (depthOf xs) h (h.run n os (eventsOf xs))
  | [], h, hs, hn => run_chars_counts n os [] h hs hn
  | x :: xs, h, hs, hn => by
    intro h' he
    rw [show eventsOf (x :: xs) = x.events ++ eventsOf xs from rfl, run_append n os _ _ h hs] at he
    have hd : depthOf (x :: xs) = max x.depth (depthOf xs) := rfl
    cases h1e : h.run n os x.events with
    | ok h1 =>
      rw [h1e] at he
      simp only [Outcome.ok_bind] at he
      obtain ⟨c1, c2⟩ := counts_one n os x h hs hn h1 h1e
      cases hst : h1.stopped with
      | true =>
        rw [if_pos hst] at he
        cases he
        refine ⟨.inl hst, fun hk ho hx => ?_⟩
        have := (c2 hk ho (by omega)).1
        rw [hst] at this; cases this
      | false =>
        rw [if_neg (by rw [hst]; decide)] at he
        rcases c1 with c1 | ⟨c1, c1'⟩
        · rw [hst] at c1; cases c1
        · obtain ⟨d1, d2⟩ := counts_all n os xs h1 hst (by omega) h' he
          refine ⟨?_, fun hk ho hx => d2 (c2 hk ho (by omega)).2 ho (by omega)⟩
          rcases d1 with d1 | ⟨d1, d1'⟩
          · exact .inl d1
          · exact .inr ⟨by omega, by rw [d1', c1']⟩
    | throws => rw [h1e] at he; cases he
    | ub => rw [h1e] at he; cases he

end

end Kml.Dom
