import Verif.Lemmas.Refine
import Verif.Spec.Meddle

/-!
# The parser with an observer that changes what it is shown

As Handler.lean and Refine.lean.
-/

namespace Kml.Dom

open Kml

variable {σ : Type}

attribute [local irreducible] kml22Elements Xsd.tagToId classes inc dec uintSize

theorem run_appendW (n : NumLib) (w : Meddler σ) (a b : List Ev) :
    ∀ h : Handler σ, h.stopped = false →
      h.runW n w (a ++ b) = (h.runW n w a >>= fun h => if h.stopped then .ok h else h.runW n w b) := by
  induction a with
  | nil => intro h hs; simp [Handler.runW, hs]
  | cons ev evs ih =>
    intro h hs
    simp only [List.cons_append, Handler.runW]
    cases h.stepW n w ev with
    | ok h1 =>
      simp only [Outcome.ok_bind]
      cases h1s : h1.stopped with
      | true => simp [h1s]
      | false => simpa using ih h1 h1s
    | throws => rfl
    | ub => rfl

theorem Follows.appendW {α β : Type} {n : NumLib} {w : Meddler σ} {r : Outcome (Option α)}
    {a b : List Ev} {h : Handler σ} {f : α → Handler σ} {g : α → Outcome (Option β)} {f' : β → Handler σ}
    (hr : Follows r (h.runW n w a) f) (hs : h.stopped = false) (hf : ∀ x, (f x).stopped = false)
    (hg : ∀ x, Follows (g x) ((f x).runW n w b) f') :
    Follows (r >>= fun o => match o with
      | none => .ok none
      | some x => g x) (h.runW n w (a ++ b)) f' := by
  rw [run_appendW n w a b h hs]
  cases r with
  | ok o =>
    cases o with
    | some x =>
      have hr' : h.runW n w a = .ok (f x) := hr
      rw [hr']
      simpa [hf] using hg x
    | none =>
      have hr' : Stops (h.runW n w a) := hr
      show Stops _
      intro h' hh
      cases hrun : h.runW n w a with
      | ok h1 =>
        have := hr' _ hrun
        rw [hrun] at hh
        simp only [Outcome.ok_bind, this, if_true, Outcome.ok.injEq] at hh
        exact hh ▸ this
      | throws => rw [hrun] at hh; cases hh
      | ub => rw [hrun] at hh; cases hh
  | throws =>
    have hr' : h.runW n w a = .throws := hr
    rw [hr']; rfl
  | ub =>
    have hr' : h.runW n w a = .ub := hr
    rw [hr']; rfl

/-- Nothing takes a stop back. -/
theorem endElement_stoppedW (n : NumLib) (w : Meddler σ) (h : Handler σ) (name : Str)
    (hs : h.stopped = true) : Stops (h.endElementW n w name) := by
  intro h' hh
  unfold Handler.endElementW at hh
  have h1 : ({ h with nesting := dec h.nesting }.leaveDescription name).stopped = true := by
    rw [leaveDescription_stopped]; exact hs
  generalize ({ h with nesting := dec h.nesting }.leaveDescription name) = k at h1 hh
  simp only at hh
  split at hh
  · unfold Handler.endUnknown at hh
    cases hc : appendTop (endText name) k.chars with
    | ok c =>
      rw [hc] at hh
      simp only [Outcome.ok_bind] at hh
      split at hh
      · split at hh
        · cases hh; exact h1
        · cases hh
      · cases hh; exact h1
    | throws => rw [hc] at hh; cases hh
    | ub => rw [hc] at hh; cases hh
  · unfold Handler.endPlainW at hh
    split at hh
    · cases hh; exact h1
    · split at hh
      · cases hh
      · split at hh
        · cases hh; exact h1
        · rename_i top _ _ _ s chars _ _ _
          cases hf : finishElement n top s with
          | ok e =>
            rw [hf] at hh
            simp only [Outcome.ok_bind] at hh
            cases ho : { k with chars := chars }.endOldSchema name e with
            | ok r =>
              rw [ho] at hh
              simp only [Outcome.ok_bind] at hh
              have hr : r.2.stopped = true := by
                unfold Handler.endOldSchema at ho
                split at ho
                · cases ho; exact h1
                · split at ho
                  · cases hx : oldSchemaEnd e k.oldName with
                    | ok v => simp only [hx, Outcome.ok_bind] at ho; cases ho; exact h1
                    | throws => simp only [hx] at ho; cases ho
                    | ub => simp only [hx] at ho; cases ho
                  · split at ho
                    · cases hx : oldSchemaParentEnd e k.oldName (k.simpleData.drop k.taken) with
                      | ok v => simp only [hx, Outcome.ok_bind] at ho; cases ho; exact h1
                      | throws => simp only [hx] at ho; cases ho
                      | ub => simp only [hx] at ho; cases ho
                    · cases ho; exact h1
              unfold Handler.attachW at hh
              split at hh
              · rename_i p rest _
                cases hw : w.finish r.2.obs p r.1 with
                | ok q =>
                  simp only [hw, Outcome.ok_bind] at hh
                  cases hq : giveChild n q.1 q.2.1 r.1 with
                  | ok v => simp only [hq, Outcome.ok_bind] at hh; cases hh; exact hr
                  | throws => simp only [hq] at hh; cases hh
                  | ub => simp only [hq] at hh; cases hh
                | throws => simp only [hw] at hh; cases hh
                | ub => simp only [hw] at hh; cases hh
              · cases hh; exact hr
              · cases hh; exact hr
            | throws => rw [ho] at hh; cases hh
            | ub => rw [ho] at hh; cases hh
          | throws => rw [hf] at hh; cases hh
          | ub => rw [hf] at hh; cases hh

/-- An empty-element tag does what a start tag and an end tag do. -/
theorem Follows.emptyW {α : Type} {n : NumLib} {w : Meddler σ} {r : Outcome (Option α)} {h : Handler σ}
    {f : α → Handler σ} {name : Str} {attrs : List (Str × Str)}     (hr : Follows r (h.runW n w [.start name attrs, .stop name]) f) (hf : ∀ x, (f x).stopped = false) :
    Follows r (h.runW n w [.empty name attrs]) f := by
  cases hst : h.startElement n [w.watch] name attrs with
  | ok h1 =>
    cases h1s : h1.stopped with
    | true =>
      have hrun : h.runW n w [.start name attrs, .stop name] = .ok h1 := by
        simp [Handler.runW, Handler.stepW, hst, h1s]
      have hstop : Stops (h.runW n w [.empty name attrs]) := by
        intro h' hh
        cases he : h1.endElementW n w name with
        | ok h2 =>
          have h2s := endElement_stoppedW n w h1 name h1s h2 he
          simp [Handler.runW, Handler.stepW, hst, he] at hh
          exact hh ▸ h2s
        | throws => simp [Handler.runW, Handler.stepW, hst, he] at hh
        | ub => simp [Handler.runW, Handler.stepW, hst, he] at hh
      rw [hrun] at hr
      cases r with
      | ok o =>
        cases o with
        | none => exact hstop
        | some x =>
          have : Outcome.ok h1 = .ok (f x) := hr
          cases this
          rw [hf] at h1s
          cases h1s
      | throws => cases (hr : Outcome.ok h1 = .throws)
      | ub => cases (hr : Outcome.ok h1 = .ub)
    | false =>
      have : h.runW n w [.empty name attrs] = h.runW n w [.start name attrs, .stop name] := by
        simp only [Handler.runW, Handler.stepW, hst, Outcome.ok_bind, h1s]
        rfl
      rw [this]; exact hr
  | throws =>
    have : h.runW n w [.empty name attrs] = h.runW n w [.start name attrs, .stop name] := by
      simp [Handler.runW, Handler.stepW, hst]
    rw [this]; exact hr
  | ub =>
    have : h.runW n w [.empty name attrs] = h.runW n w [.start name attrs, .stop name] := by
      simp [Handler.runW, Handler.stepW, hst]
    rw [this]; exact hr

theorem run_charsW (n : NumLib) (w : Meddler σ) (s : Str) : ∀ (h : Handler σ) (t : Str)
    (crest : List Str), h.stopped = false → h.chars = t :: crest →
    h.runW n w (charEvents s) = .ok { h with chars := (t ++ s) :: crest } := by
  induction s with
  | nil => intro h t crest hs hc; cases h; simp_all [charEvents, Handler.runW]
  | cons c s ih =>
    intro h t crest hs hc
    simp only [charEvents, List.map_cons, Handler.runW, Handler.stepW, Handler.charData, hc, appendTop,
      Outcome.ok_bind, hs]
    have := ih { h with chars := (t ++ [c]) :: crest } (t ++ [c]) crest hs rfl
    simpa [charEvents, hs] using this

/-- What one unknown element leaves behind, if its content leaves its text. -/
theorem skip_elemW (n : NumLib) (w : Meddler σ) (name : Str) (attrs : List (Str × Str))
    (ks : List Xml)
    (ih : ∀ (h : Handler σ) (t : Str) (crest : List Str), h.chars = t :: crest →
      Quiet h (NoDesc ks) →
      Follows (if h.nesting + depthOf ks > 100 then .ok none else .ok (some ()))
        (h.runW n w (eventsOf ks)) (fun _ => { h with chars := (t ++ renderAll ks) :: crest }))
    (h : Handler σ) (t : Str) (crest : List Str) (hc : h.chars = t :: crest)
    (hq : Quiet h ((Xml.elem name attrs ks).All (fun m _ => m ≠ chars! "description"))) :
    Follows (if h.nesting + (depthOf ks + 1) > 100 then .ok none else .ok (some ()))
      (h.runW n w (.start name attrs :: eventsOf ks ++ [.stop name]))
      (fun _ => { h with chars := (t ++ (Xml.elem name attrs ks).render) :: crest }) := by
  obtain ⟨hs, hn, hk, hk', hd⟩ := hq
  have hu := uintSize_val
  have hinc : inc h.nesting = h.nesting + 1 := inc_eq (by omega)
  rw [List.cons_append]
  by_cases hdeep : h.nesting + 1 > 100
  · rw [if_pos (by omega)]
    show Stops _
    intro h' hh
    simp only [Handler.runW, Handler.stepW, Handler.startElement, hinc, maxNestingDepth] at hh
    rw [if_pos (by omega)] at hh
    simp only [Outcome.ok_bind, if_true, Outcome.ok.injEq] at hh
    rw [← hh]
  · -- the start tag
    obtain ⟨j, hj⟩ : ∃ j, j = if h.inDesc > 0 ∧ name = chars! "description" then h.inDesc + 1
        else h.inDesc := ⟨_, rfl⟩
    have hstart : h.startElement n [w.watch] name attrs = .ok { h with
        nesting := h.nesting + 1, skip := h.skip + 1, inDesc := j,
        chars := (t ++ startText name attrs) :: crest } := by
      simp only [Handler.startElement, hinc, maxNestingDepth]
      rw [if_neg (by omega)]
      have hinc2 : h.inDesc > 0 → inc h.inDesc = h.inDesc + 1 := fun h0 => inc_eq (by
        rcases hd with ⟨h1, _⟩ | ⟨_, h2⟩ <;> omega)
      have hinc3 : inc h.skip = h.skip + 1 := inc_eq (by omega)
      by_cases hx : h.inDesc > 0 ∧ name = chars! "description"
      · rw [if_pos hx] at hj
        rw [if_pos hx]
        simp only [hk, if_true, hc, appendTop, Outcome.ok_bind, hinc3, hinc2 hx.1, hj]
      · rw [if_neg hx] at hj
        rw [if_neg hx]
        subst hj
        simp only [hk, if_true, hc, appendTop, Outcome.ok_bind, hinc3]
    have h2 := ih { h with
        nesting := h.nesting + 1, skip := h.skip + 1, inDesc := j,
        chars := (t ++ startText name attrs) :: crest } (t ++ startText name attrs) crest rfl (by
      refine ⟨hs, by show h.nesting + 1 ≤ 100; omega, by show 0 < h.skip + 1; omega, by
        show h.skip + 1 + (100 - (h.nesting + 1)) + 1 < uintSize; omega, ?_⟩
      rcases hd with ⟨h1, h2⟩ | ⟨h1, h2⟩
      · left
        refine ⟨?_, h2.2⟩
        show j = 0
        rw [hj, if_neg (by omega)]; exact h1
      · right
        show 0 < j ∧ j + (100 - (h.nesting + 1)) + 1 < uintSize
        rw [hj]
        split <;> omega)
    have hdepth : h.nesting + (depthOf ks + 1) = h.nesting + 1 + depthOf ks := by omega
    rw [hdepth]
    have h3 := Follows.appendW (b := [.stop name])
      (g := fun _ => (Outcome.ok (some ()) : Outcome (Option Unit)))
      (f' := fun _ => { h with chars := (t ++ (Xml.elem name attrs ks).render) :: crest }) h2 hs (fun _ => hs) (by
        intro _
        have hend : Handler.endElementW n w ({ h with
            nesting := h.nesting + 1, skip := h.skip + 1, inDesc := j,
            chars := (t ++ startText name attrs ++ renderAll ks) :: crest }) name =
            .ok { h with chars := (t ++ (Xml.elem name attrs ks).render) :: crest } := by
          have hleave : Handler.leaveDescription ({ h with
              nesting := h.nesting, skip := h.skip + 1, inDesc := j,
              chars := (t ++ startText name attrs ++ renderAll ks) :: crest }) name = { h with
              skip := h.skip + 1,
              chars := (t ++ startText name attrs ++ renderAll ks) :: crest } := by
            unfold Handler.leaveDescription
            by_cases hname : name = chars! "description"
            · rw [if_pos hname]
              rcases hd with ⟨h1, h2⟩ | ⟨h1, h2⟩
              · exact absurd hname h2.1
              · rw [if_pos ⟨h1, hname⟩] at hj
                simp only [hj]
                rw [dec_succ (by omega), if_neg (by omega)]
            · rw [if_neg hname]
              rw [if_neg (fun hx => hname hx.2)] at hj
              rw [hj]
          unfold Handler.endElementW
          simp only [dec_succ (show h.nesting < uintSize by omega)]
          rw [hleave]
          simp only
          rw [if_pos (by omega)]
          simp only [Handler.endUnknown, appendTop, Outcome.ok_bind,
            dec_succ (show h.skip < uintSize by omega)]
          rw [if_neg (by omega)]
          simp only [← whole_eq, List.append_assoc]
        show Handler.runW n w _ _ = _
        simp only [Handler.runW, Handler.stepW, hend, Outcome.ok_bind]
        simp [hs])
    have heq : Handler.runW n w h (.start name attrs :: (eventsOf ks ++ [.stop name])) =
        Handler.runW n w { h with
          nesting := h.nesting + 1, skip := h.skip + 1, inDesc := j,
          chars := (t ++ startText name attrs) :: crest } (eventsOf ks ++ [.stop name]) := by
      simp [Handler.runW, Handler.stepW, hstart, hs]
    rw [heq]
    by_cases hx : h.nesting + 1 + depthOf ks > 100
    · simpa [hx] using h3
    · simpa [hx] using h3

theorem skip_nilW (n : NumLib) (w : Meddler σ) (h : Handler σ) (t : Str) (crest : List Str)
    (hc : h.chars = t :: crest) (hq : Quiet h (NoDesc [])) :
    Follows (if h.nesting + depthOf [] > 100 then .ok none else .ok (some ()))
      (h.runW n w (eventsOf [])) (fun _ => { h with chars := (t ++ renderAll []) :: crest }) := by
  rw [if_neg (by have := hq.2.1; simp only [depthOf]; omega)]
  cases h
  simp_all [Follows, eventsOf, Handler.runW, renderAll]

mutual

theorem skip_oneW (n : NumLib) (w : Meddler σ) : ∀ (x : Xml) (h : Handler σ) (t : Str)
    (crest : List Str), h.chars = t :: crest →
    Quiet h (x.All (fun m _ => m ≠ chars! "description")) →
    Follows (if h.nesting + x.depth > 100 then .ok none else .ok (some ()))
      (h.runW n w x.events) (fun _ => { h with chars := (t ++ x.render) :: crest })
  | .text s, h, t, crest, hc, hq => by
    rw [if_neg (by have := hq.2.1; simp only [Xml.depth]; omega)]
    exact run_charsW n w s h t crest hq.1 hc
  | .empty name attrs, h, t, crest, hc, hq => by
    have := skip_elemW n w name attrs [] (skip_nilW n w) h t crest hc (by
      simpa [Xml.All, AllOf] using hq)
    rw [show Ev.start name attrs :: eventsOf [] ++ [Ev.stop name] = [.start name attrs, .stop name] from
      rfl] at this
    have h2 := Follows.emptyW this (fun _ => hq.1)
    simpa [Xml.depth, depthOf, Xml.events, Xml.render, renderAll] using h2
  | .elem name attrs ks, h, t, crest, hc, hq => by
    exact skip_elemW n w name attrs ks (skip_allW n w ks) h t crest hc hq

theorem skip_allW (n : NumLib) (w : Meddler σ) : ∀ (xs : List Xml) (h : Handler σ) (t : Str)
    (crest : List Str), h.chars = t :: crest → Quiet h (NoDesc xs) →
    Follows (if h.nesting + depthOf xs > 100 then .ok none else .ok (some ()))
      (h.runW n w (eventsOf xs)) (fun _ => { h with chars := (t ++ renderAll xs) :: crest })
  | [], h, t, crest, hc, hq => skip_nilW n w h t crest hc hq
  | x :: xs, h, t, crest, hc, hq => by
    have h1 := skip_oneW n w x h t crest hc (by
      obtain ⟨a, b, c, d, e⟩ := hq
      exact ⟨a, b, c, d, e.imp (fun e => ⟨e.1, e.2.1⟩) id⟩)
    have h2 := skip_allW n w xs { h with chars := (t ++ x.render) :: crest } (t ++ x.render) crest rfl (by
      obtain ⟨a, b, c, d, e⟩ := hq
      exact ⟨a, b, c, d, e.imp (fun e => ⟨e.1, e.2.2⟩) id⟩)
    have h3 := Follows.appendW h1 hq.1 (fun _ => hq.1) (fun _ => h2)
    have hr : (t ++ x.render ++ renderAll xs) = t ++ renderAll (x :: xs) := by
      simp [renderAll]
    simp only [hr] at h3
    have hd : depthOf (x :: xs) = max x.depth (depthOf xs) := rfl
    rw [show eventsOf (x :: xs) = x.events ++ eventsOf xs from rfl, hd]
    by_cases ha : h.nesting + x.depth > 100
    · rw [if_pos (by omega)]
      simpa [ha] using h3
    · by_cases hb : h.nesting + depthOf xs > 100
      · rw [if_pos (by omega)]
        simpa [ha, hb] using h3
      · rw [if_neg (by omega)]
        simpa [ha, hb] using h3

end

theorem run_singleW (n : NumLib) (w : Meddler σ) (h : Handler σ) (ev : Ev) :
    h.runW n w [ev] = h.stepW n w ev := by
  simp only [Handler.runW]
  cases h.stepW n w ev <;> simp

/-- Joining with an arbitrary continuation. -/
theorem Follows.bind_runW {α : Type} {n : NumLib} {w : Meddler σ} {r : Outcome (Option α)}
    {a b : List Ev} {h : Handler σ} {f : α → Handler σ} (hr : Follows r (h.runW n w a) f)
    (hs : h.stopped = false) (hf : ∀ x, (f x).stopped = false) :
    Leads r (h.runW n w (a ++ b)) (fun x => (f x).runW n w b) := by
  unfold Leads
  rw [run_appendW n w a b h hs]
  cases r with
  | ok o =>
    cases o with
    | some x =>
      have hr' : h.runW n w a = .ok (f x) := hr
      simp [hr', hf]
    | none =>
      have hr' : Stops (h.runW n w a) := hr
      intro h' hh
      cases hrun : h.runW n w a with
      | ok h1 =>
        have := hr' _ hrun
        rw [hrun] at hh
        simp only [Outcome.ok_bind, this, if_true, Outcome.ok.injEq] at hh
        exact hh ▸ this
      | throws => rw [hrun] at hh; cases hh
      | ub => rw [hrun] at hh; cases hh
  | throws =>
    have hr' : h.runW n w a = .throws := hr
    simp [hr']
  | ub =>
    have hr' : h.runW n w a = .ub := hr
    simp [hr']

theorem attach_topW (n : NumLib) (w : Meddler σ) (h : Handler σ) (x y : Elem) (rest : List Elem)
    (child : Elem) : ({ h with stack := x :: rest } : Handler σ).attachW n w child =
      ({ h with stack := y :: rest } : Handler σ).attachW n w child := by
  cases rest <;> rfl

/-- The end tag of a known element, once its content is read. -/
theorem end_knownW (n : NumLib) (w : Meddler σ) (h : Handler σ) (name : Str) (e : Elem)
    (text : Str) (rest : List Elem) (crest : List Str) (hi : Idle h)
    (hst : h.stack = e :: rest) (hc : h.chars = text :: crest) :
    h.endPlainW n w name = (finishElement n e text >>= fun e' =>
      ({ h with chars := crest } : Handler σ).attachW n w e') := by
  obtain ⟨_, _, _, ho, hold, _⟩ := hi
  unfold Handler.endPlainW
  simp only [hst, hc, ho, Bool.false_and]
  cases finishElement n e text with
  | ok e' =>
    simp only [Outcome.ok_bind, Handler.endOldSchema, hold, if_true]
  | throws => rfl
  | ub => rfl

/-- What the parser does with the text of a known element `e`. -/
theorem run_knownW (n : NumLib) (w : Meddler σ) (name : Str) (attrs : List (Str × Str))
    (ks : List Xml) (h : Handler σ) (hi : Idle h) (e : Elem) (hn : h.nesting + 1 ≤ 100)
    (hold : NotOldSchema name attrs)
    (hmake : makeElement n (h.stack.head?.map Elem.ty) (Xsd.elementId name) attrs = some e)
    (ih : name ≠ chars! "description" →
      ∀ (h : Handler σ) (cur : Elem) (rest : List Elem) (text : Str) (crest : List Str), Idle h →
      h.stack = cur :: rest → h.chars = text :: crest →
      Follows (buildKidsW n w h.nesting cur text h.obs ks) (h.runW n w (eventsOf ks))
        (fun r => { h with stack := r.1 :: rest, chars := r.2.1 :: crest, obs := r.2.2 })) :
    Leads (buildKnown n [w.watch] (h.nesting + 1) e h.obs (renderAll ks) (depthOf ks)
        (fun e s => buildKidsW n w (h.nesting + 1) e [] s ks))
      (h.runW n w (.start name attrs :: eventsOf ks ++ [.stop name]))
      (fun r => ({ h with stack := r.1 :: h.stack, obs := r.2 } : Handler σ).attachW n w r.1) := by
  obtain ⟨hs, hsk, hid, hio, hon, _⟩ := hi
  have hu := uintSize_val
  have hinc : inc h.nesting = h.nesting + 1 := inc_eq (by omega)
  have hinc0 : inc 0 = 1 := inc_eq (by omega)
  have hstart : h.startElement n [w.watch] name attrs = .ok
      (({ h with nesting := h.nesting + 1, chars := [] :: h.chars } : Handler σ).startKnown [w.watch] e) := by
    simp only [Handler.startElement, hinc, maxNestingDepth]
    rw [if_neg (by omega)]
    simp only [hid, hsk, Nat.lt_irrefl, gt_iff_lt, if_false, false_and]
    unfold Handler.startPlain
    have hname : (if name = chars! "Schema" then
        ({ h with nesting := h.nesting + 1, oldName := findOldSchemaName attrs h.oldName } : Handler σ)
        else { h with nesting := h.nesting + 1 }) = { h with nesting := h.nesting + 1 } := by
      split
      · rename_i hx
        rw [hon, findOldSchemaName_nil (hold hx)]
      · rfl
    simp only [hid, hsk] at hname
    simp only [hname]
    simp only [typeOfName, hon, ne_eq, not_true_eq_false, false_and, if_false]
    rw [hmake]
  rw [List.cons_append]
  simp only [Handler.runW, Handler.stepW, hstart, Outcome.ok_bind]
  have hd := makeElement_description hmake
  unfold buildKnown
  cases hcall : callAll (fun o s => o.new s e) [w.watch] h.obs with
  | mk agreed s =>
  cases agreed with
  | false =>
    simp only
    have hst : (({ h with nesting := h.nesting + 1, chars := [] :: h.chars } : Handler σ).startKnown [w.watch] e).stopped = true := by
      unfold Handler.startKnown
      by_cases hx : e.ty = Ty.«description»
      · simp [hx, hcall]
      · simp [hx, hcall]
    rw [hst]
    simp only [if_true]
    intro h' hh
    simp only [Outcome.ok.injEq] at hh
    rw [← hh]; exact hst
  | true =>
    simp only
    by_cases hdesc : e.ty = Ty.«description»
    · -- a description
      rw [if_pos hdesc]
      have hk : ({ h with nesting := h.nesting + 1, chars := [] :: h.chars } : Handler σ).startKnown [w.watch] e =
          { h with
                nesting := h.nesting + 1, chars := [] :: h.chars, stack := e :: h.stack, skip := 1, inDesc := 1, obs := s } := by
        unfold Handler.startKnown
        simp [hdesc, hcall, hsk, hid, hinc0]
      rw [hk]
      simp only [hs]
      have hq := skip_allW n w ks { h with
                nesting := h.nesting + 1, chars := [] :: h.chars, stack := e :: h.stack, skip := 1, inDesc := 1, obs := s, stopped := false } [] h.chars rfl
        ⟨rfl, hn, Nat.one_pos, by show 1 + (100 - (h.nesting + 1)) + 1 < uintSize; omega,
          .inr ⟨Nat.one_pos, by show 1 + (100 - (h.nesting + 1)) + 1 < uintSize; omega⟩⟩
      have hb := Follows.bind_runW (b := [.stop name]) hq rfl (fun _ => rfl)
      simp only [List.nil_append] at hb
      by_cases hx : h.nesting + 1 + depthOf ks > 100
      · simp only [hx, if_true] at hb ⊢
        exact hb
      · simp only [hx, if_false] at hb ⊢
        rw [show (if false = true then
          Outcome.ok ({ h with
                nesting := h.nesting + 1, chars := [] :: h.chars, stack := e :: h.stack, skip := 1, inDesc := 1, obs := s, stopped := false } : Handler σ) else
          Handler.runW n w ({ h with
                nesting := h.nesting + 1, chars := [] :: h.chars, stack := e :: h.stack, skip := 1, inDesc := 1, obs := s, stopped := false } : Handler σ)
            (eventsOf ks ++ [.stop name])) = _ from hb]
        simp (config := { failIfUnchanged := false }) only [run_singleW]
        have hend : Handler.stepW n w ({ h with
                nesting := h.nesting + 1, chars := renderAll ks :: h.chars, stack := e :: h.stack, skip := 1, inDesc := 1, obs := s, stopped := false } : Handler σ)
            (.stop name) =
            Handler.endPlainW n w ({ h with
                chars := renderAll ks :: h.chars, stack := e :: h.stack, obs := s, stopped := false } : Handler σ) name := by
          simp only [Handler.stepW, Handler.endElementW, Handler.leaveDescription,
            dec_succ (show h.nesting < uintSize by omega), hd.1 hdesc, if_true,
            dec_succ (show 0 < uintSize by omega)]
          rw [if_neg (by decide)]
          cases h; simp_all
        simp (config := { failIfUnchanged := false }) only
        rw [hend, end_knownW n w ({ h with
                chars := renderAll ks :: h.chars, stack := e :: h.stack, obs := s, stopped := false } : Handler σ)
            name e (renderAll ks) h.stack h.chars
          ⟨rfl, hsk, hid, hio, hon, by show h.nesting ≤ 100; omega⟩ rfl rfl]
        cases finishElement n e (renderAll ks) with
        | ok e' =>
          simp only [Outcome.ok_bind, Leads]
          cases h.stack <;> rfl
        | throws => rfl
        | ub => rfl
    · rw [if_neg hdesc]
      have hndesc : name ≠ chars! "description" := fun hx => hdesc (hd.2 hx)
      have hk : ({ h with nesting := h.nesting + 1, chars := [] :: h.chars } : Handler σ).startKnown [w.watch] e =
          { h with nesting := h.nesting + 1, chars := [] :: h.chars, stack := e :: h.stack, obs := s } := by
        unfold Handler.startKnown
        simp [hdesc, hcall]
      rw [hk]
      simp only [hs]
      have hq := ih hndesc { h with
                nesting := h.nesting + 1, chars := [] :: h.chars, stack := e :: h.stack, obs := s, stopped := false } e h.stack [] h.chars
          ⟨rfl, hsk, hid, hio, hon, hn⟩ rfl rfl
      have hb := Follows.bind_runW (b := [.stop name]) hq rfl (fun _ => rfl)
      simp only at hb
      cases hbuild : buildKidsW n w (h.nesting + 1) e [] s ks with
      | ok o =>
        cases o with
        | some r =>
          obtain ⟨e1, text, s1⟩ := r
          simp only [hbuild] at hb
          simp only [Outcome.ok_bind]
          rw [show (if false = true then
            Outcome.ok ({ h with
                nesting := h.nesting + 1, chars := [] :: h.chars, stack := e :: h.stack, obs := s, stopped := false } : Handler σ) else
            Handler.runW n w ({ h with
                nesting := h.nesting + 1, chars := [] :: h.chars, stack := e :: h.stack, obs := s, stopped := false } : Handler σ)
              (eventsOf ks ++ [.stop name])) = _ from hb]
          simp (config := { failIfUnchanged := false }) only [run_singleW]
          have hend : Handler.stepW n w ({ h with
                nesting := h.nesting + 1, chars := text :: h.chars, stack := e1 :: h.stack, obs := s1, stopped := false } : Handler σ)
              (.stop name) =
              Handler.endPlainW n w ({ h with
                chars := text :: h.chars, stack := e1 :: h.stack, obs := s1, stopped := false } : Handler σ) name := by
            simp only [Handler.stepW, Handler.endElementW, Handler.leaveDescription,
              dec_succ (show h.nesting < uintSize by omega)]
            rw [if_neg hndesc, if_neg (by rw [show h.skip = 0 from hsk]; decide)]
          simp (config := { failIfUnchanged := false }) only
          rw [hend, end_knownW n w ({ h with
                chars := text :: h.chars, stack := e1 :: h.stack, obs := s1, stopped := false } : Handler σ)
            name e1 text h.stack h.chars
            ⟨rfl, hsk, hid, hio, hon, by show h.nesting ≤ 100; omega⟩ rfl rfl]
          cases finishElement n e1 text with
          | ok e' =>
            simp only [Outcome.ok_bind]
            simp only [Leads]
            cases h.stack <;> rfl
          | throws => rfl
          | ub => rfl
        | none =>
          simp only [hbuild] at hb
          exact hb
      | throws => simp only [hbuild] at hb; exact hb
      | ub => simp only [hbuild] at hb; exact hb

/-- One child element of a known element. -/
theorem run_childW (n : NumLib) (w : Meddler σ) (name : Str) (attrs : List (Str × Str))
    (ks : List Xml) (h : Handler σ) (cur : Elem) (rest : List Elem) (text : Str) (crest : List Str)
    (hi : Idle h) (hst : h.stack = cur :: rest) (hc : h.chars = text :: crest)
    (hold : NotOldSchema name attrs)
    (htame : (Xml.elem name attrs ks).Tame)
    (ih : TameAll ks →
      ∀ (h : Handler σ) (cur : Elem) (rest : List Elem) (text : Str) (crest : List Str), Idle h →
      h.stack = cur :: rest → h.chars = text :: crest →
      Follows (buildKidsW n w h.nesting cur text h.obs ks) (h.runW n w (eventsOf ks))
        (fun r => { h with stack := r.1 :: rest, chars := r.2.1 :: crest, obs := r.2.2 })) :
    Follows (buildChildW n w h.nesting cur text h.obs name attrs (Xml.elem name attrs ks).render
        (renderAll ks) (depthOf ks) (fun e s => buildKidsW n w (h.nesting + 1) e [] s ks))
      (h.runW n w (.start name attrs :: eventsOf ks ++ [.stop name]))
      (fun r => { h with stack := r.1 :: rest, chars := r.2.1 :: crest, obs := r.2.2 }) := by
  have hu := uintSize_val
  have hs := hi.1
  unfold buildChildW
  by_cases hn : h.nesting + 1 > 100
  · rw [if_pos hn]
    have hinc : inc h.nesting = h.nesting + 1 := inc_eq (by have := hi.2.2.2.2.2; omega)
    show Stops _
    intro h' hh
    rw [List.cons_append] at hh
    simp only [Handler.runW, Handler.stepW, Handler.startElement, hinc, maxNestingDepth] at hh
    rw [if_pos hn] at hh
    simp only [Outcome.ok_bind, if_true, Outcome.ok.injEq] at hh
    rw [← hh]
  · rw [if_neg hn]
    have hhead : h.stack.head?.map Elem.ty = some cur.ty := by rw [hst]; rfl
    cases hmake : makeElement n (some cur.ty) (Xsd.elementId name) attrs with
    | none =>
      have hstart := start_unknown n [w.watch] name attrs h hi (by omega) hold (by rw [hhead]; exact hmake)
      have hunk : isKnown name = false := by
        have := makeElement_isSome n (some cur.ty) name attrs
        rw [hmake] at this; exact this.symm
      have hndesc : name ≠ chars! "description" := by
        intro hx
        rw [hx] at hunk
        have : isKnown (chars! "description") = true := by
          unfold isKnown
          rw [description_id, description_simple]
        rw [this] at hunk
        cases hunk
      have hkids : NoDesc ks := by
        have := htame
        simp only [Xml.Tame] at this
        rw [if_neg hndesc, if_neg (by rw [hunk]; decide)] at this
        exact this
      obtain ⟨hs', hsk, hid, hio, hon, hle⟩ := hi
      have hinc0 : inc 0 = 1 := inc_eq (by omega)
      simp only [Handler.startUnknown, hst, appendTop, Outcome.ok_bind, hsk, hinc0,
        List.nil_append] at hstart
      rw [List.cons_append]
      simp only [Handler.runW, Handler.stepW, hstart, Outcome.ok_bind, hs]
      have hq := skip_allW n w ks { h with
          nesting := h.nesting + 1, chars := startText name attrs :: h.chars, stack := cur :: rest,
          skip := 1, stopped := false } (startText name attrs) h.chars rfl
        ⟨rfl, by show h.nesting + 1 ≤ 100; omega, Nat.one_pos, by
          show 1 + (100 - (h.nesting + 1)) + 1 < uintSize; omega, .inl ⟨hid, hkids⟩⟩
      have hb := Follows.bind_runW (b := [.stop name]) hq rfl (fun _ => rfl)
      by_cases hx : h.nesting + 1 + depthOf ks > 100
      · simp only [hx, if_true] at hb ⊢
        exact hb
      · simp only [hx, if_false] at hb ⊢
        have hb' : Handler.runW n w ({ h with
              nesting := h.nesting + 1, chars := startText name attrs :: h.chars, stack := cur :: rest,
              skip := 1, stopped := false } : Handler σ) (eventsOf ks ++ [.stop name]) =
            Handler.runW n w ({ h with
              nesting := h.nesting + 1, chars := (startText name attrs ++ renderAll ks) :: h.chars,
              stack := cur :: rest, skip := 1, stopped := false } : Handler σ) [.stop name] := hb
        have hend : Handler.stepW n w ({ h with
              nesting := h.nesting + 1, chars := (startText name attrs ++ renderAll ks) :: h.chars,
              stack := cur :: rest, skip := 1, stopped := false } : Handler σ) (.stop name) =
            .ok { h with
              stack := addUnknownElement cur ((Xml.elem name attrs ks).render ++ ['\n']) :: rest,
              chars := h.chars, stopped := false } := by
          simp only [Handler.stepW, Handler.endElementW, Handler.leaveDescription,
            dec_succ (show h.nesting < uintSize by omega)]
          rw [if_neg hndesc, if_pos Nat.one_pos]
          simp only [Handler.endUnknown, appendTop, Outcome.ok_bind,
            dec_succ (show 0 < uintSize by omega), if_true, whole_eq, hsk]
        rw [run_singleW, hend] at hb'
        rw [hc] at hb'
        show (if false = true then _ else Handler.runW n w _ _) = _
        rw [if_neg (by decide)]
        simp only [hc]
        rw [hb']
    | some e =>
      simp only
      have hk := run_knownW n w name attrs ks h hi e (by omega) hold (by rw [hhead]; exact hmake) (by
        intro hndesc
        apply ih
        have := htame
        simp only [Xml.Tame] at this
        have hkn : isKnown name = true := by
          have := makeElement_isSome n (some cur.ty) name attrs
          rw [hmake] at this; exact this.symm
        rw [if_neg hndesc, if_pos hkn] at this
        exact this)
      cases hb : buildKnown n [w.watch] (h.nesting + 1) e h.obs (renderAll ks) (depthOf ks)
        (fun e s => buildKidsW n w (h.nesting + 1) e [] s ks) with
      | ok o =>
        rw [hb] at hk
        cases o with
        | none => exact hk
        | some r =>
          obtain ⟨child, s⟩ := r
          have hk' : h.runW n w (.start name attrs :: eventsOf ks ++ [.stop name]) =
            ({ h with stack := child :: h.stack, obs := s } : Handler σ).attachW n w child := hk
          rw [hk']
          simp only [Outcome.ok_bind, Handler.attachW, handOverW, hst]
          cases hw : w.finish s cur child with
          | ok q =>
            simp only [Outcome.ok_bind]
            cases hg : giveChild n q.1 q.2.1 child with
            | ok p => simp [Follows, hc]
            | throws => rfl
            | ub => rfl
          | throws => rfl
          | ub => rfl
      | throws => rw [hb] at hk; exact hk
      | ub => rw [hb] at hk; exact hk

/-- Character data of a known element. -/
theorem run_textW (n : NumLib) (w : Meddler σ) (s : Str) (h : Handler σ) (cur : Elem)
    (rest : List Elem) (text : Str) (crest : List Str) (hi : Idle h) (hst : h.stack = cur :: rest)
    (hc : h.chars = text :: crest) :
    Follows (buildKidW n w h.nesting cur text h.obs (.text s)) (h.runW n w (Xml.text s).events)
      (fun r => { h with stack := r.1 :: rest, chars := r.2.1 :: crest, obs := r.2.2 }) := by
  have := run_charsW n w s h text crest hi.1 hc
  cases h
  simp_all [Follows, buildKidW, Xml.events]

theorem kids_nilW (n : NumLib) (w : Meddler σ) (h : Handler σ) (cur : Elem)
    (rest : List Elem) (text : Str) (crest : List Str) (hst : h.stack = cur :: rest)
    (hc : h.chars = text :: crest) :
    Follows (buildKidsW n w h.nesting cur text h.obs []) (h.runW n w (eventsOf []))
      (fun r => { h with stack := r.1 :: rest, chars := r.2.1 :: crest, obs := r.2.2 }) := by
  cases h
  simp_all [Follows, buildKidsW, eventsOf, Handler.runW]

mutual

theorem run_kidW (n : NumLib) (w : Meddler σ) : ∀ (x : Xml), x.All NotOldSchema → x.Tame →
    ∀ (h : Handler σ) (cur : Elem) (rest : List Elem) (text : Str) (crest : List Str), Idle h →
      h.stack = cur :: rest → h.chars = text :: crest →
      Follows (buildKidW n w h.nesting cur text h.obs x) (h.runW n w x.events)
        (fun r => { h with stack := r.1 :: rest, chars := r.2.1 :: crest, obs := r.2.2 })
  | .text s, _, _, h, cur, rest, text, crest, hi, hst, hc => run_textW n w s h cur rest text crest hi hst hc
  | .empty name attrs, ho, _, h, cur, rest, text, crest, hi, hst, hc => by
    have htame : (Xml.elem name attrs []).Tame := by
      simp only [Xml.Tame]
      split
      · trivial
      · split <;> simp [TameAll, AllOf]
    have := run_childW n w name attrs [] h cur rest text crest hi hst hc ho htame
      (fun _ h cur rest text crest _ hst hc => kids_nilW n w h cur rest text crest hst hc)
    rw [show Ev.start name attrs :: eventsOf [] ++ [Ev.stop name] = [.start name attrs, .stop name] from
      rfl] at this
    have h2 := Follows.emptyW this (fun _ => hi.1)
    have he : (Xml.elem name attrs []).render = (Xml.empty name attrs).render := by
      simp [Xml.render, renderAll]
    rw [he] at h2
    exact h2
  | .elem name attrs ks, ho, ht, h, cur, rest, text, crest, hi, hst, hc =>
    run_childW n w name attrs ks h cur rest text crest hi hst hc ho.1 ht
      (fun htk => run_kidsW n w ks ho.2 htk)

theorem run_kidsW (n : NumLib) (w : Meddler σ) : ∀ (xs : List Xml), AllOf NotOldSchema xs →
    TameAll xs → ∀ (h : Handler σ) (cur : Elem) (rest : List Elem) (text : Str) (crest : List Str), Idle h →
      h.stack = cur :: rest → h.chars = text :: crest →
      Follows (buildKidsW n w h.nesting cur text h.obs xs) (h.runW n w (eventsOf xs))
        (fun r => { h with stack := r.1 :: rest, chars := r.2.1 :: crest, obs := r.2.2 })
  | [], _, _, h, cur, rest, text, crest, _, hst, hc => kids_nilW n w h cur rest text crest hst hc
  | x :: xs, ho, ht, h, cur, rest, text, crest, hi, hst, hc => by
    have h1 := run_kidW n w x ho.1 ht.1 h cur rest text crest hi hst hc
    have h2 := Follows.appendW (b := eventsOf xs) h1 hi.1 (fun _ => hi.1)
      (g := fun r => buildKidsW n w h.nesting r.1 r.2.1 r.2.2 xs)
      (f' := fun r => { h with stack := r.1 :: rest, chars := r.2.1 :: crest, obs := r.2.2 })
      (fun r => run_kidsW n w xs ho.2 ht.2
        { h with stack := r.1 :: rest, chars := r.2.1 :: crest, obs := r.2.2 } r.1 rest r.2.1 crest hi rfl rfl)
    rw [buildKidsW, show eventsOf (x :: xs) = x.events ++ eventsOf xs from rfl]
    cases hb : buildKidW n w h.nesting cur text h.obs x with
    | ok o => cases o <;> (rw [hb] at h2; exact h2)
    | throws => rw [hb] at h2; exact h2
    | ub => rw [hb] at h2; exact h2

end

/-- A whole document. -/
theorem run_rootW (n : NumLib) (w : Meddler σ) (s : σ) (name : Str) (attrs : List (Str × Str))
    (ks : List Xml) (hold : (Xml.elem name attrs ks).All NotOldSchema) (htame : (Xml.elem name attrs ks).Tame) :
    match buildRootW n w s name attrs ks with
    | .ok (some (e, s')) => parseWith n w s (Xml.elem name attrs ks).events = .ok (some e, s')
    | .ok none => ∀ r, parseWith n w s (Xml.elem name attrs ks).events = .ok r → r.1 = none
    | .throws => parseWith n w s (Xml.elem name attrs ks).events = .throws
    | .ub => parseWith n w s (Xml.elem name attrs ks).events = .ub := by
  have hi : Idle (Handler.init s) := ⟨rfl, rfl, rfl, rfl, rfl, Nat.zero_le _⟩
  unfold buildRootW parseWith
  cases hmake : makeElement n none (Xsd.elementId name) attrs with
  | none =>
    have hstart := start_unknown n [w.watch] name attrs (Handler.init s) hi (Nat.succ_le_of_lt (by decide : 0 < 100)) hold.1 hmake
    intro r hr
    simp only [Xml.events, List.cons_append, Handler.runW, Handler.stepW, hstart] at hr
    simp only [Handler.startUnknown, Handler.init, Outcome.ok_bind, if_true, Outcome.ok.injEq] at hr
    rw [← hr]
  | some e =>
    simp only
    have hk := run_knownW n w name attrs ks (Handler.init s) hi e (Nat.succ_le_of_lt (by decide : 0 < 100)) hold.1 hmake (by
      intro hndesc
      apply run_kidsW n w ks hold.2
      have := htame
      simp only [Xml.Tame] at this
      have hkn : isKnown name = true := by
        have := makeElement_isSome n none name attrs
        rw [hmake] at this; exact this.symm
      rw [if_neg hndesc, if_pos hkn] at this
      exact this)
    have hz : (Handler.init s).nesting + 1 = 1 := rfl
    rw [hz] at hk
    show match buildKnown n [w.watch] 1 e s _ _ _ with
      | .ok (some (e, s')) => _
      | .ok none => _
      | .throws => _
      | .ub => _
    cases hb : buildKnown n [w.watch] 1 e s (renderAll ks) (depthOf ks)
      (fun e s => buildKidsW n w 1 e [] s ks) with
    | ok o =>
      rw [show (Handler.init s).obs = s from rfl, hb] at hk
      cases o with
      | none =>
        intro r hr
        have hk' : Stops ((Handler.init s).runW n w (Xml.elem name attrs ks).events) := hk
        cases hrun : (Handler.init s).runW n w (Xml.elem name attrs ks).events with
        | ok h1 =>
          rw [hrun] at hr
          simp only [Outcome.ok_bind, hk' _ hrun, if_true, Outcome.ok.injEq] at hr
          rw [← hr]
        | throws => rw [hrun] at hr; cases hr
        | ub => rw [hrun] at hr; cases hr
      | some r =>
        obtain ⟨e', s'⟩ := r
        have hk' : (Handler.init s).runW n w (Xml.elem name attrs ks).events = _ := hk
        simp only [hk']
        rfl
    | throws =>
      rw [show (Handler.init s).obs = s from rfl, hb] at hk
      have hk' : (Handler.init s).runW n w (Xml.elem name attrs ks).events = _ := hk
      simp only [hk']; rfl
    | ub =>
      rw [show (Handler.init s).obs = s from rfl, hb] at hk
      have hk' : (Handler.init s).runW n w (Xml.elem name attrs ks).events = _ := hk
      simp only [hk']; rfl


end Kml.Dom
