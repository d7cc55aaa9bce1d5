import Verif.Spec.Build
import Verif.Lemmas.Xsd
import Verif.Lemmas.StdMap

/-! The parser follows the recursive description of `Verif/Spec/Build.lean`. -/

namespace Kml.Dom

open Kml

variable {σ : Type}

attribute [local irreducible] kml22Elements Xsd.tagToId classes

theorem inc_eq {n : Nat} (h : n + 1 < uintSize) : inc n = n + 1 := if_neg (Nat.ne_of_lt h)

theorem dec_succ {n : Nat} (_ : n < uintSize) : dec (n + 1) = n := by
  rw [dec, if_neg (by omega)]; rfl

theorem uintSize_val : uintSize = 4294967296 := rfl

attribute [local irreducible] inc dec uintSize

/-- Whatever comes out, the parse was stopped. -/
def Stops (r : Outcome (Handler σ)) : Prop := ∀ h', r = .ok h' → h'.stopped = true

/-- A run of the parser does what a description says. -/
def Follows {α : Type} (r : Outcome (Option α)) (run : Outcome (Handler σ)) (f : α → Handler σ) : Prop :=
  match r with
  | .ok (some a) => run = .ok (f a)
  | .ok none => Stops run
  | .throws => run = .throws
  | .ub => run = .ub

theorem run_append (n : NumLib) (os : List (Observer σ)) (a b : List Ev) :
    ∀ h : Handler σ, h.stopped = false →
      h.run n os (a ++ b) = (h.run n os a >>= fun h => if h.stopped then .ok h else h.run n os b) := by
  induction a with
  | nil => intro h hs; simp [Handler.run, hs]
  | cons ev evs ih =>
    intro h hs
    simp only [List.cons_append, Handler.run]
    cases h.step n os ev with
    | ok h1 =>
      simp only [Outcome.ok_bind]
      cases h1s : h1.stopped with
      | true => simp [h1s]
      | false => simpa using ih h1 h1s
    | throws => rfl
    | ub => rfl

theorem Follows.append {α β : Type} {n : NumLib} {os : List (Observer σ)} {r : Outcome (Option α)}
    {a b : List Ev} {h : Handler σ} {f : α → Handler σ} {g : α → Outcome (Option β)} {f' : β → Handler σ}
    (hr : Follows r (h.run n os a) f) (hs : h.stopped = false) (hf : ∀ x, (f x).stopped = false)
    (hg : ∀ x, Follows (g x) ((f x).run n os b) f') :
    Follows (r >>= fun o => match o with
      | none => .ok none
      | some x => g x) (h.run n os (a ++ b)) f' := by
  rw [run_append n os a b h hs]
  cases r with
  | ok o =>
    cases o with
    | some x =>
      have hr' : h.run n os a = .ok (f x) := hr
      rw [hr']
      simpa [hf] using hg x
    | none =>
      have hr' : Stops (h.run n os a) := hr
      show Stops _
      intro h' hh
      cases hrun : h.run n os a with
      | ok h1 =>
        have := hr' _ hrun
        rw [hrun] at hh
        simp only [Outcome.ok_bind, this, if_true, Outcome.ok.injEq] at hh
        exact hh ▸ this
      | throws => rw [hrun] at hh; cases hh
      | ub => rw [hrun] at hh; cases hh
  | throws =>
    have hr' : h.run n os a = .throws := hr
    rw [hr']; rfl
  | ub =>
    have hr' : h.run n os a = .ub := hr
    rw [hr']; rfl

/-- Nothing takes a stop back. -/
theorem leaveDescription_stopped (h : Handler σ) (name : Str) :
    (h.leaveDescription name).stopped = h.stopped := by
  unfold Handler.leaveDescription
  split
  · split <;> rfl
  · rfl

theorem endElement_stopped (n : NumLib) (os : List (Observer σ)) (h : Handler σ) (name : Str)
    (hs : h.stopped = true) : Stops (h.endElement n os name) := by
  intro h' hh
  unfold Handler.endElement at hh
  have h1 : ({ h with nesting := dec h.nesting }.leaveDescription name).stopped = true := by
    rw [leaveDescription_stopped]; exact hs
  generalize ({ h with nesting := dec h.nesting }.leaveDescription name) = k at h1 hh
  simp only at hh
  split at hh
  · unfold Handler.endUnknown at hh
    cases hc : appendTop (endText name) k.chars with
    | ok c =>
      rw [hc] at hh
      simp only [Outcome.ok_bind] at hh
      split at hh
      · split at hh
        · cases hh; exact h1
        · cases hh
      · cases hh; exact h1
    | throws => rw [hc] at hh; cases hh
    | ub => rw [hc] at hh; cases hh
  · unfold Handler.endPlain at hh
    split at hh
    · cases hh; exact h1
    · split at hh
      · cases hh
      · split at hh
        · cases hh; exact h1
        · rename_i top _ _ _ s chars _ _ _
          cases hf : finishElement n top s with
          | ok e =>
            rw [hf] at hh
            simp only [Outcome.ok_bind] at hh
            cases ho : { k with chars := chars }.endOldSchema name e with
            | ok r =>
              rw [ho] at hh
              simp only [Outcome.ok_bind] at hh
              have hr : r.2.stopped = true := by
                unfold Handler.endOldSchema at ho
                split at ho
                · cases ho; exact h1
                · split at ho
                  · cases hx : oldSchemaEnd e k.oldName with
                    | ok v => simp only [hx, Outcome.ok_bind] at ho; cases ho; exact h1
                    | throws => simp only [hx] at ho; cases ho
                    | ub => simp only [hx] at ho; cases ho
                  · split at ho
                    · cases hx : oldSchemaParentEnd e k.oldName (k.simpleData.drop k.taken) with
                      | ok v => simp only [hx, Outcome.ok_bind] at ho; cases ho; exact h1
                      | throws => simp only [hx] at ho; cases ho
                      | ub => simp only [hx] at ho; cases ho
                    · cases ho; exact h1
              unfold Handler.attach at hh
              split at hh
              · rename_i p rest _
                cases hq : giveChild n (callAll (fun o s => o.endElement s p r.1) os r.2.obs).1 p r.1 with
                | ok v => simp only [hq, Outcome.ok_bind] at hh; cases hh; simp [hr]
                | throws => simp only [hq] at hh; cases hh
                | ub => simp only [hq] at hh; cases hh
              · cases hh; exact hr
              · cases hh; exact hr
            | throws => rw [ho] at hh; cases hh
            | ub => rw [ho] at hh; cases hh
          | throws => rw [hf] at hh; cases hh
          | ub => rw [hf] at hh; cases hh

/-- An empty-element tag does what a start tag and an end tag do. -/
theorem Follows.empty {α : Type} {n : NumLib} {os : List (Observer σ)} {r : Outcome (Option α)} {h : Handler σ}
    {f : α → Handler σ} {name : Str} {attrs : List (Str × Str)}     (hr : Follows r (h.run n os [.start name attrs, .stop name]) f) (hf : ∀ x, (f x).stopped = false) :
    Follows r (h.run n os [.empty name attrs]) f := by
  cases hst : h.startElement n os name attrs with
  | ok h1 =>
    cases h1s : h1.stopped with
    | true =>
      have hrun : h.run n os [.start name attrs, .stop name] = .ok h1 := by
        simp [Handler.run, Handler.step, hst, h1s]
      have hstop : Stops (h.run n os [.empty name attrs]) := by
        intro h' hh
        cases he : h1.endElement n os name with
        | ok h2 =>
          have h2s := endElement_stopped n os h1 name h1s h2 he
          simp [Handler.run, Handler.step, hst, he] at hh
          exact hh ▸ h2s
        | throws => simp [Handler.run, Handler.step, hst, he] at hh
        | ub => simp [Handler.run, Handler.step, hst, he] at hh
      rw [hrun] at hr
      cases r with
      | ok o =>
        cases o with
        | none => exact hstop
        | some x =>
          have : Outcome.ok h1 = .ok (f x) := hr
          cases this
          rw [hf] at h1s
          cases h1s
      | throws => cases (hr : Outcome.ok h1 = .throws)
      | ub => cases (hr : Outcome.ok h1 = .ub)
    | false =>
      have : h.run n os [.empty name attrs] = h.run n os [.start name attrs, .stop name] := by
        simp only [Handler.run, Handler.step, hst, Outcome.ok_bind, h1s]
        rfl
      rw [this]; exact hr
  | throws =>
    have : h.run n os [.empty name attrs] = h.run n os [.start name attrs, .stop name] := by
      simp [Handler.run, Handler.step, hst]
    rw [this]; exact hr
  | ub =>
    have : h.run n os [.empty name attrs] = h.run n os [.start name attrs, .stop name] := by
      simp [Handler.run, Handler.step, hst]
    rw [this]; exact hr

/-! ## Text -/

theorem attrText_eq : ∀ a : List (Str × Str), attrText a = attrsText a
  | [] => rfl
  | (k, v) :: r => by simp [attrText, attrText_eq r, attrsText]

theorem whole_eq (name : Str) (attrs : List (Str × Str)) (ks : List Xml) :
    startText name attrs ++ renderAll ks ++ endText name = (Xml.elem name attrs ks).render := by
  simp [startText, endText, Xml.render, attrText_eq]

theorem run_chars (n : NumLib) (os : List (Observer σ)) (s : Str) : ∀ (h : Handler σ) (t : Str)
    (crest : List Str), h.stopped = false → h.chars = t :: crest →
    h.run n os (charEvents s) = .ok { h with chars := (t ++ s) :: crest } := by
  induction s with
  | nil => intro h t crest hs hc; cases h; simp_all [charEvents, Handler.run]
  | cons c s ih =>
    intro h t crest hs hc
    simp only [charEvents, List.map_cons, Handler.run, Handler.step, Handler.charData, hc, appendTop,
      Outcome.ok_bind, hs]
    have := ih { h with chars := (t ++ [c]) :: crest } (t ++ [c]) crest hs rfl
    simpa [charEvents, hs] using this

/-! ## Unknown elements and descriptions -/

/-- The counters on entry to something that is kept as text. -/
def Quiet (h : Handler σ) (noDesc : Prop) : Prop :=
  h.stopped = false ∧ h.nesting ≤ 100 ∧ 0 < h.skip ∧ h.skip + (100 - h.nesting) + 1 < uintSize ∧
    ((h.inDesc = 0 ∧ noDesc) ∨ (0 < h.inDesc ∧ h.inDesc + (100 - h.nesting) + 1 < uintSize))

abbrev NoDesc : List Xml → Prop := AllOf (fun m _ => m ≠ chars! "description")

/-- What one unknown element leaves behind, if its content leaves its text. -/
theorem skip_elem (n : NumLib) (os : List (Observer σ)) (name : Str) (attrs : List (Str × Str))
    (ks : List Xml)
    (ih : ∀ (h : Handler σ) (t : Str) (crest : List Str), h.chars = t :: crest →
      Quiet h (NoDesc ks) →
      Follows (if h.nesting + depthOf ks > 100 then .ok none else .ok (some ()))
        (h.run n os (eventsOf ks)) (fun _ => { h with chars := (t ++ renderAll ks) :: crest }))
    (h : Handler σ) (t : Str) (crest : List Str) (hc : h.chars = t :: crest)
    (hq : Quiet h ((Xml.elem name attrs ks).All (fun m _ => m ≠ chars! "description"))) :
    Follows (if h.nesting + (depthOf ks + 1) > 100 then .ok none else .ok (some ()))
      (h.run n os (.start name attrs :: eventsOf ks ++ [.stop name]))
      (fun _ => { h with chars := (t ++ (Xml.elem name attrs ks).render) :: crest }) := by
  obtain ⟨hs, hn, hk, hk', hd⟩ := hq
  have hu := uintSize_val
  have hinc : inc h.nesting = h.nesting + 1 := inc_eq (by omega)
  rw [List.cons_append]
  by_cases hdeep : h.nesting + 1 > 100
  · rw [if_pos (by omega)]
    show Stops _
    intro h' hh
    simp only [Handler.run, Handler.step, Handler.startElement, hinc, maxNestingDepth] at hh
    rw [if_pos (by omega)] at hh
    simp only [Outcome.ok_bind, if_true, Outcome.ok.injEq] at hh
    rw [← hh]
  · -- the start tag
    obtain ⟨j, hj⟩ : ∃ j, j = if h.inDesc > 0 ∧ name = chars! "description" then h.inDesc + 1
        else h.inDesc := ⟨_, rfl⟩
    have hstart : h.startElement n os name attrs = .ok { h with
        nesting := h.nesting + 1, skip := h.skip + 1, inDesc := j,
        chars := (t ++ startText name attrs) :: crest } := by
      simp only [Handler.startElement, hinc, maxNestingDepth]
      rw [if_neg (by omega)]
      have hinc2 : h.inDesc > 0 → inc h.inDesc = h.inDesc + 1 := fun h0 => inc_eq (by
        rcases hd with ⟨h1, _⟩ | ⟨_, h2⟩ <;> omega)
      have hinc3 : inc h.skip = h.skip + 1 := inc_eq (by omega)
      by_cases hx : h.inDesc > 0 ∧ name = chars! "description"
      · rw [if_pos hx] at hj
        rw [if_pos hx]
        simp only [hk, if_true, hc, appendTop, Outcome.ok_bind, hinc3, hinc2 hx.1, hj]
      · rw [if_neg hx] at hj
        rw [if_neg hx]
        subst hj
        simp only [hk, if_true, hc, appendTop, Outcome.ok_bind, hinc3]
    have h2 := ih { h with
        nesting := h.nesting + 1, skip := h.skip + 1, inDesc := j,
        chars := (t ++ startText name attrs) :: crest } (t ++ startText name attrs) crest rfl (by
      refine ⟨hs, by show h.nesting + 1 ≤ 100; omega, by show 0 < h.skip + 1; omega, by
        show h.skip + 1 + (100 - (h.nesting + 1)) + 1 < uintSize; omega, ?_⟩
      rcases hd with ⟨h1, h2⟩ | ⟨h1, h2⟩
      · left
        refine ⟨?_, h2.2⟩
        show j = 0
        rw [hj, if_neg (by omega)]; exact h1
      · right
        show 0 < j ∧ j + (100 - (h.nesting + 1)) + 1 < uintSize
        rw [hj]
        split <;> omega)
    have hdepth : h.nesting + (depthOf ks + 1) = h.nesting + 1 + depthOf ks := by omega
    rw [hdepth]
    have h3 := Follows.append (b := [.stop name])
      (g := fun _ => (Outcome.ok (some ()) : Outcome (Option Unit)))
      (f' := fun _ => { h with chars := (t ++ (Xml.elem name attrs ks).render) :: crest }) h2 hs (fun _ => hs) (by
        intro _
        have hend : Handler.endElement n os ({ h with
            nesting := h.nesting + 1, skip := h.skip + 1, inDesc := j,
            chars := (t ++ startText name attrs ++ renderAll ks) :: crest }) name =
            .ok { h with chars := (t ++ (Xml.elem name attrs ks).render) :: crest } := by
          have hleave : Handler.leaveDescription ({ h with
              nesting := h.nesting, skip := h.skip + 1, inDesc := j,
              chars := (t ++ startText name attrs ++ renderAll ks) :: crest }) name = { h with
              skip := h.skip + 1,
              chars := (t ++ startText name attrs ++ renderAll ks) :: crest } := by
            unfold Handler.leaveDescription
            by_cases hname : name = chars! "description"
            · rw [if_pos hname]
              rcases hd with ⟨h1, h2⟩ | ⟨h1, h2⟩
              · exact absurd hname h2.1
              · rw [if_pos ⟨h1, hname⟩] at hj
                simp only [hj]
                rw [dec_succ (by omega), if_neg (by omega)]
            · rw [if_neg hname]
              rw [if_neg (fun hx => hname hx.2)] at hj
              rw [hj]
          unfold Handler.endElement
          simp only [dec_succ (show h.nesting < uintSize by omega)]
          rw [hleave]
          simp only
          rw [if_pos (by omega)]
          simp only [Handler.endUnknown, appendTop, Outcome.ok_bind,
            dec_succ (show h.skip < uintSize by omega)]
          rw [if_neg (by omega)]
          simp only [← whole_eq, List.append_assoc]
        show Handler.run n os _ _ = _
        simp only [Handler.run, Handler.step, hend, Outcome.ok_bind]
        simp [hs])
    have heq : Handler.run n os h (.start name attrs :: (eventsOf ks ++ [.stop name])) =
        Handler.run n os { h with
          nesting := h.nesting + 1, skip := h.skip + 1, inDesc := j,
          chars := (t ++ startText name attrs) :: crest } (eventsOf ks ++ [.stop name]) := by
      simp [Handler.run, Handler.step, hstart, hs]
    rw [heq]
    by_cases hx : h.nesting + 1 + depthOf ks > 100
    · simpa [hx] using h3
    · simpa [hx] using h3

theorem skip_nil (n : NumLib) (os : List (Observer σ)) (h : Handler σ) (t : Str) (crest : List Str)
    (hc : h.chars = t :: crest) (hq : Quiet h (NoDesc [])) :
    Follows (if h.nesting + depthOf [] > 100 then .ok none else .ok (some ()))
      (h.run n os (eventsOf [])) (fun _ => { h with chars := (t ++ renderAll []) :: crest }) := by
  rw [if_neg (by have := hq.2.1; simp only [depthOf]; omega)]
  cases h
  simp_all [Follows, eventsOf, Handler.run, renderAll]

mutual

theorem skip_one (n : NumLib) (os : List (Observer σ)) : ∀ (x : Xml) (h : Handler σ) (t : Str)
    (crest : List Str), h.chars = t :: crest →
    Quiet h (x.All (fun m _ => m ≠ chars! "description")) →
    Follows (if h.nesting + x.depth > 100 then .ok none else .ok (some ()))
      (h.run n os x.events) (fun _ => { h with chars := (t ++ x.render) :: crest })
  | .text s, h, t, crest, hc, hq => by
    rw [if_neg (by have := hq.2.1; simp only [Xml.depth]; omega)]
    exact run_chars n os s h t crest hq.1 hc
  | .empty name attrs, h, t, crest, hc, hq => by
    have := skip_elem n os name attrs [] (skip_nil n os) h t crest hc (by
      simpa [Xml.All, AllOf] using hq)
    rw [show Ev.start name attrs :: eventsOf [] ++ [Ev.stop name] = [.start name attrs, .stop name] from
      rfl] at this
    have h2 := Follows.empty this (fun _ => hq.1)
    simpa [Xml.depth, depthOf, Xml.events, Xml.render, renderAll] using h2
  | .elem name attrs ks, h, t, crest, hc, hq => by
    exact skip_elem n os name attrs ks (skip_all n os ks) h t crest hc hq

theorem skip_all (n : NumLib) (os : List (Observer σ)) : ∀ (xs : List Xml) (h : Handler σ) (t : Str)
    (crest : List Str), h.chars = t :: crest → Quiet h (NoDesc xs) →
    Follows (if h.nesting + depthOf xs > 100 then .ok none else .ok (some ()))
      (h.run n os (eventsOf xs)) (fun _ => { h with chars := (t ++ renderAll xs) :: crest })
  | [], h, t, crest, hc, hq => skip_nil n os h t crest hc hq
  | x :: xs, h, t, crest, hc, hq => by
    have h1 := skip_one n os x h t crest hc (by
      obtain ⟨a, b, c, d, e⟩ := hq
      exact ⟨a, b, c, d, e.imp (fun e => ⟨e.1, e.2.1⟩) id⟩)
    have h2 := skip_all n os xs { h with chars := (t ++ x.render) :: crest } (t ++ x.render) crest rfl (by
      obtain ⟨a, b, c, d, e⟩ := hq
      exact ⟨a, b, c, d, e.imp (fun e => ⟨e.1, e.2.2⟩) id⟩)
    have h3 := Follows.append h1 hq.1 (fun _ => hq.1) (fun _ => h2)
    have hr : (t ++ x.render ++ renderAll xs) = t ++ renderAll (x :: xs) := by
      simp [renderAll]
    simp only [hr] at h3
    have hd : depthOf (x :: xs) = max x.depth (depthOf xs) := rfl
    rw [show eventsOf (x :: xs) = x.events ++ eventsOf xs from rfl, hd]
    by_cases ha : h.nesting + x.depth > 100
    · rw [if_pos (by omega)]
      simpa [ha] using h3
    · by_cases hb : h.nesting + depthOf xs > 100
      · rw [if_pos (by omega)]
        simpa [ha, hb] using h3
      · rw [if_neg (by omega)]
        simpa [ha, hb] using h3

end

end Kml.Dom
