import Verif.Spec.Print
import Verif.Lemmas.Escape
import Verif.Lemmas.Xsd

/-! Lemmas about what the serializer writes. -/

set_option linter.unusedSectionVars false

namespace Kml.Dom

open Kml
open Kml.Attributes (Attributes)

theorem attrsText_eq (a : Attributes) : Attributes.serialize a = attrsText a := by
  induction a with
  | nil => rfl
  | cons e a ih =>
    rw [Attributes.serialize, ih]
    simp [attrsText]

theorem serialize_size (a : Attributes) :
    (if Attributes.getSize a > 0 then Attributes.serialize a else []) = attrsText a := by
  cases a with
  | nil => rfl
  | cons e a => rw [if_pos (by simp [Attributes.getSize]), attrsText_eq]

/-! ### The calls of a tree -/

mutual

/-- The calls for a tree. -/
def Doc.calls : Doc → List Call
  | .field t s => [.field t s]
  | .color t s => [.color t s]
  | .text s => [.content s true]
  | .point s => [.vec3 s]
  | .raw s => [.indent, .content s false]
  | .elem t a ks => .beginElem t a :: docsCalls ks ++ [.endElem]

/-- The calls for a sequence of trees. -/
def docsCalls : List Doc → List Call
  | [] => []
  | k :: ks => k.calls ++ docsCalls ks

end

theorem docsCalls_append (a b : List Doc) : docsCalls (a ++ b) = docsCalls a ++ docsCalls b := by
  induction a with
  | nil => rfl
  | cons k a ih => rw [List.cons_append, docsCalls, docsCalls, ih, List.append_assoc]

/-- Calls that are made for a value. -/
def Call.simple : Call → Bool
  | .field _ _ | .color _ _ | .content _ true | .vec3 _ => true
  | _ => false

theorem docsCalls_simple {cs : List Call} (h : ∀ c ∈ cs, c.simple = true) : docsCalls (cs.map Call.doc) = cs := by
  induction cs with
  | nil => rfl
  | cons c cs ih =>
    rw [List.map_cons, docsCalls, ih (fun d hd => h d (by simp [hd]))]
    have := h c (by simp)
    cases c with
    | field => rfl
    | color => rfl
    | vec3 => rfl
    | content s q =>
      cases q
      · exact absurd this (by simp [Call.simple])
      · rfl
    | beginElem => exact absurd this (by simp [Call.simple])
    | endElem => exact absurd this (by simp [Call.simple])
    | indent => exact absurd this (by simp [Call.simple])

theorem valueCalls_simple {slots : Mem → List Elem} {w : Write} {cs : List Call}
    (h : w.valueCalls slots = some cs) : ∀ c ∈ cs, c.simple = true := by
  cases w with
  | field m t =>
    simp only [Write.valueCalls, Option.some.injEq] at h
    subst h
    intro c hc
    obtain ⟨s, _, rfl⟩ := List.mem_map.1 hc
    rfl
  | enum m t =>
    simp only [Write.valueCalls, Option.some.injEq] at h
    subst h
    intro c hc
    obtain ⟨s, _, rfl⟩ := List.mem_map.1 hc
    rfl
  | color m t =>
    simp only [Write.valueCalls, Option.some.injEq] at h
    subst h
    intro c hc
    obtain ⟨s, _, rfl⟩ := List.mem_map.1 hc
    rfl
  | vec3 m t =>
    simp only [Write.valueCalls, Option.some.injEq] at h
    subst h
    intro c hc
    obtain ⟨s, _, rfl⟩ := List.mem_map.1 hc
    rfl
  | points m =>
    simp only [Write.valueCalls, Option.some.injEq] at h
    subst h
    intro c hc
    obtain ⟨s, _, rfl⟩ := List.mem_map.1 hc
    rfl
  | content m always =>
    simp only [Write.valueCalls, Option.some.injEq] at h
    subst h
    split
    · simp [Call.simple]
    · intro c hc
      obtain ⟨s, _, rfl⟩ := List.mem_map.1 hc
      rfl
  | elem m => exact absurd h (by simp [Write.valueCalls])
  | group m t => exact absurd h (by simp [Write.valueCalls])
  | array m => exact absurd h (by simp [Write.valueCalls])
  | groupArray m t => exact absurd h (by simp [Write.valueCalls])

theorem docsCalls_raw (unk : List Str) : docsCalls (unk.map Doc.raw) = unknownCalls unk := by
  induction unk with
  | nil => rfl
  | cons s unk ih =>
    rw [List.map_cons, docsCalls, ih]
    rfl

theorem docsCalls_flatMap {α : Type} (l : List α) (f : α → List Doc) (g : α → List Call)
    (h : ∀ x ∈ l, docsCalls (f x) = g x) : docsCalls (l.flatMap f) = l.flatMap g := by
  induction l with
  | nil => rfl
  | cons x l ih =>
    rw [List.flatMap_cons, List.flatMap_cons, docsCalls_append, h x (by simp), ih (fun y hy => h y (by simp [hy]))]

theorem docsCalls_each {es : List Elem} (h : ∀ e ∈ es, (docOf e).calls = calls e) :
    docsCalls (docsEach es) = (callsEach es).flatten := by
  induction es with
  | nil => rfl
  | cons e es ih =>
    rw [docsEach, docsCalls, callsEach, List.flatten_cons, h e (by simp), ih (fun x hx => h x (by simp [hx]))]

/-- The tree of an element makes the calls the element makes. -/
theorem docOf_calls (e : Elem) : (docOf e).calls = calls e := by
  refine Elem.rec (motive_1 := fun e => (docOf e).calls = calls e)
    (motive_2 := fun l => ∀ e ∈ l, (docOf e).calls = calls e) ?_ ?_ ?_ ?_ e
  · intro t s
    rfl
  · intro t a slots mis unk ihs ihm
    have hw : ∀ ws : List Write, docsCalls (ws.flatMap fun w =>
        match w.valueCalls slots with
        | some cs => cs.map Call.doc
        | none => docsEach (slots w.mem)) = ws.flatMap fun w =>
        match w.valueCalls slots with
        | some cs => cs
        | none => (callsEach (slots w.mem)).flatten := by
      intro ws
      apply docsCalls_flatMap
      intro w _
      rcases Option.eq_none_or_eq_some (w.valueCalls slots) with h | ⟨cs, h⟩
      · rw [h]
        exact docsCalls_each (ihs w.mem)
      · rw [h]
        exact docsCalls_simple (valueCalls_simple h)
    rw [docOf, calls]
    by_cases ht : t = Ty.«coordinates»
    · rw [if_pos ht, if_pos ht, Doc.calls]
      congr 1
      congr 1
      exact hw _
    · rw [if_neg ht, if_neg ht, Doc.calls, docsCalls_append, docsCalls_append, docsCalls_raw,
        docsCalls_each ihm]
      have := hw (classAt t).writes
      rw [List.cons_append, List.append_assoc, List.append_assoc, List.append_assoc, List.append_assoc]
      congr 1
      congr 1
  · simp
  · intro x l hx hl e he
    rcases List.mem_cons.1 he with rfl | he
    · exact hx
    · exact hl e he

/-! ### Running the calls -/

/-- The state after the pending start tag is written. -/
def Ser.emitted (s : Ser) (t : Ty) : Ser :=
  { s with
    pending := false
    attrs := []
    out := s.out ++ ('<' :: Xsd.elementName t ++ s.attrs ++ ['>'] ++ s.newline) }

theorem call_pending {s : Ser} {t : Ty} {ts : List Ty} {c : Call} (hp : s.pending = true) (ht : s.tags = t :: ts)
    (h1 : c ≠ .endElem) (h2 : c ≠ .indent) : s.call c = (s.emitted t).call c := by
  have he : s.emitStart false = .ok (true, s.emitted t) := by
    simp [Ser.emitStart, hp, ht, Ser.emitted, Ser.put]
  have he' : (s.emitted t).emitStart false = .ok (false, s.emitted t) := rfl
  cases c with
  | beginElem => simp [Ser.call, Ser.beginById, he, he']
  | endElem => exact absurd rfl h1
  | field => simp only [Ser.call, Ser.saveField, he, he', Outcome.ok_bind]; rfl
  | color =>
    simp only [Ser.call, Ser.saveColor, he, he', Outcome.ok_bind]
  | content => simp only [Ser.call, Ser.saveContent, he, he', Outcome.ok_bind]
  | vec3 => simp only [Ser.call, Ser.saveVec3, he, he', Outcome.ok_bind]; rfl
  | indent => exact absurd rfl h2

theorem ser_cons {s s' : Ser} {c : Call} {cs : List Call} (h : s.call c = .ok s') : s.run (c :: cs) = s'.run cs := by
  rw [Ser.run, h]
  rfl

theorem ser_append (s : Ser) (a b : List Call) : s.run (a ++ b) = (s.run a).bind fun s' => s'.run b := by
  induction a generalizing s with
  | nil => rfl
  | cons c a ih =>
    rw [List.cons_append, Ser.run, Ser.run]
    cases s.call c with
    | ok s' => exact ih s'
    | throws => rfl
    | ub => rfl

/-- No start tag is pending. -/
def Ser.Idle (s : Ser) : Prop := s.pending = false ∧ s.attrs = []

theorem field_idle {s : Ser} (h : s.Idle) (t : Ty) (x : Str) :
    s.saveField t x = .ok (s.put (pad s.indent s.tags.length ++ fieldText t x ++ s.newline)) := by
  have he : s.emitStart false = .ok (false, s) := by simp [Ser.emitStart, h.1]
  simp only [Ser.saveField, he, Outcome.ok_bind, Ser.doIndent, Ser.put, pad, fieldText]
  congr 1
  congr 1
  by_cases hx : x = [] <;> simp [hx]

mutual

theorem ser_doc (s : Ser) (h : s.Idle) : (k : Doc) →
    s.run k.calls = .ok (s.put (k.print s.newline s.indent s.tags.length false))
  | .field t x => by
    rw [Doc.calls, ser_cons (s := s) (c := .field t x) (field_idle h t x)]
    rfl
  | .color t x => by
    have he : s.emitStart false = .ok (false, s) := by simp [Ser.emitStart, h.1]
    have hc : s.call (.color t x) = .ok (s.put (pad s.indent s.tags.length ++ fieldText t x ++ s.newline)) := by
      simp only [Ser.call, Ser.saveColor, he, Outcome.ok_bind]
      exact field_idle h t x
    rw [Doc.calls, ser_cons hc]
    rfl
  | .text x => by
    have he : s.emitStart false = .ok (false, s) := by simp [Ser.emitStart, h.1]
    have hc : s.call (.content x true) = .ok (s.put (maybeQuote x)) := by
      simp only [Ser.call, Ser.saveContent, he, Outcome.ok_bind]
      rfl
    rw [Doc.calls, ser_cons hc]
    rfl
  | .point x => by
    have he : s.emitStart false = .ok (false, s) := by simp [Ser.emitStart, h.1]
    have hc : s.call (.vec3 x) = .ok (s.put (pad s.indent s.tags.length ++ x ++
        (if s.newline = [] then ['\n'] else s.newline))) := by
      simp only [Ser.call, Ser.saveVec3, he, Outcome.ok_bind, Ser.doIndent, Ser.put, pad, List.append_assoc]
    rw [Doc.calls, ser_cons hc]
    rfl
  | .raw x => by
    have hc : s.call .indent = .ok (s.put (pad s.indent s.tags.length)) := rfl
    have he : (s.put (pad s.indent s.tags.length)).emitStart false
        = .ok (false, s.put (pad s.indent s.tags.length)) := by simp [Ser.emitStart, Ser.put, h.1]
    have hc' : (s.put (pad s.indent s.tags.length)).call (.content x false)
        = .ok (s.put (pad s.indent s.tags.length ++ x)) := by
      simp only [Ser.call, Ser.saveContent, he, Outcome.ok_bind]
      simp [Ser.put]
    rw [Doc.calls, ser_cons hc, ser_cons hc']
    rfl
  | .elem t a ks => by
    have he : s.emitStart false = .ok (false, s) := by simp [Ser.emitStart, h.1]
    have hc : s.call (.beginElem t a) = .ok { s with
        tags := t :: s.tags
        attrs := attrsText a
        pending := true
        out := s.out ++ pad s.indent s.tags.length } := by
      simp only [Ser.call, Ser.beginById, he, Outcome.ok_bind, Ser.doIndent, Ser.put, h.2, List.nil_append,
        serialize_size]
      rfl
    rw [Doc.calls, List.cons_append, ser_cons hc]
    cases ks with
    | nil =>
      rw [docsCalls, List.nil_append]
      simp [Ser.run, Ser.call, Ser.endTag, Ser.emitStart, Ser.put, Doc.print, lead, h.1, h.2]
    | cons k ks =>
      rw [ser_append, ser_kids _ t s.tags rfl rfl (k :: ks) (by simp)]
      simp only [Outcome.bind]
      simp [Ser.run, Ser.call, Ser.endTag, Ser.emitStart, Ser.put, Doc.print, Ser.doIndent, pad]
      exact h

/-- The content of an element whose start tag is pending. -/
theorem ser_kids (s : Ser) (t : Ty) (ts : List Ty) (hp : s.pending = true) (ht : s.tags = t :: ts) :
    (ks : List Doc) → ks ≠ [] →
    s.run (docsCalls ks) = .ok { s with
      pending := false
      attrs := []
      out := s.out ++ lead s.indent s.tags.length ks ++ '<' :: Xsd.elementName t ++ s.attrs ++ '>' :: s.newline ++
        printAll s.newline s.indent s.tags.length true ks }
  | [], h => absurd rfl h
  | k :: ks, _ => by
    have hid : (s.emitted t).Idle := ⟨rfl, rfl⟩
    have hfirst : (∀ x, k ≠ .raw x) → s.run k.calls = (s.emitted t).run k.calls := by
      intro hk
      cases k with
      | field =>
        rw [Doc.calls, Ser.run, Ser.run, call_pending hp ht (by simp) (by simp)]
      | color => rw [Doc.calls, Ser.run, Ser.run, call_pending hp ht (by simp) (by simp)]
      | text => rw [Doc.calls, Ser.run, Ser.run, call_pending hp ht (by simp) (by simp)]
      | point => rw [Doc.calls, Ser.run, Ser.run, call_pending hp ht (by simp) (by simp)]
      | raw x => exact absurd rfl (hk x)
      | elem =>
        rw [Doc.calls, List.cons_append, Ser.run, Ser.run, call_pending hp ht (by simp) (by simp)]
    rw [docsCalls, ser_append]
    by_cases hk : ∃ x, k = .raw x
    · obtain ⟨x, rfl⟩ := hk
      have hc : s.call .indent = .ok (s.put (pad s.indent s.tags.length)) := rfl
      have hc2 : (s.put (pad s.indent s.tags.length)).call (.content x false)
          = .ok ((((s.put (pad s.indent s.tags.length)).emitted t)).put x) := by
        rw [call_pending (s := s.put (pad s.indent s.tags.length)) (t := t) (ts := ts) hp ht (by simp) (by simp)]
        rfl
      have h1 : s.run (Doc.raw x).calls = .ok ((((s.put (pad s.indent s.tags.length)).emitted t)).put x) := by
        rw [Doc.calls, ser_cons hc, ser_cons hc2]
        rfl
      rw [h1]
      simp only [Outcome.bind]
      rw [ser_docs _ ⟨rfl, rfl⟩ ks]
      simp [Ser.put, Ser.emitted, printAll, Doc.print, lead]
    · have hk' : ∀ x, k ≠ .raw x := fun x hx => hk ⟨x, hx⟩
      have hl : lead s.indent s.tags.length (k :: ks) = [] := by
        cases k with
        | raw x => exact absurd rfl (hk' x)
        | _ => rfl
      have hpr : ∀ b, k.print s.newline s.indent s.tags.length b = k.print s.newline s.indent s.tags.length false := by
        intro b
        cases k with
        | raw x => exact absurd rfl (hk' x)
        | _ => rw [Doc.print, Doc.print]
      rw [hfirst hk', ser_doc _ hid k]
      simp only [Outcome.bind]
      rw [ser_docs _ ⟨rfl, rfl⟩ ks, hl]
      simp [Ser.put, Ser.emitted, printAll, hpr true]

theorem ser_docs (s : Ser) (h : s.Idle) : (ks : List Doc) →
    s.run (docsCalls ks) = .ok (s.put (printAll s.newline s.indent s.tags.length false ks))
  | [] => by simp [docsCalls, Ser.run, Ser.put, printAll]
  | k :: ks => by
    rw [docsCalls, ser_append, ser_doc s h k]
    simp only [Outcome.bind]
    rw [ser_docs (s.put _) h ks]
    simp [Ser.put, printAll]

end

/-- The text written for an element. -/
theorem serialize_eq (nl ind : Str) (e : Elem) : serialize nl ind e = .ok ((docOf e).print nl ind 0 false) := by
  unfold serialize
  rw [← docOf_calls, ser_doc _ ⟨rfl, rfl⟩]
  rfl

/-! ### Reading what was written -/

theorem eventsOf_append' (a b : List Xml) : eventsOf (a ++ b) = eventsOf a ++ eventsOf b := by
  induction a with
  | nil => rfl
  | cons x a ih => rw [List.cons_append, eventsOf, eventsOf, ih, List.append_assoc]

theorem names_xml : ∀ t < Ty.Invalid, Xsd.isValid t = true →
    (match Xsd.elementName t with
      | c :: r => nameStart c && r.all nameChar
      | [] => false) = true := by decide +kernel

theorem name_xml {t : Ty} (h : Xsd.isValid t = true) : XmlName (Xsd.elementName t) := by
  have hlt : t < Ty.Invalid := by
    unfold Xsd.isValid at h
    rw [Bool.and_eq_true] at h
    exact of_decide_eq_true h.2
  have := names_xml t hlt h
  revert this
  cases Xsd.elementName t with
  | nil => simp
  | cons c r =>
    intro h
    rw [Bool.and_eq_true] at h
    exact ⟨c, r, rfl, h.1, h.2⟩

theorem reads_quoted {s : Str} (h : Quotable s) (k : Nat) :
    ∃ k', Reads (.content k) (maybeQuote s) (.content k') (charEvents s) := by
  obtain ⟨hl, h1, h2⟩ := h
  unfold maybeQuote
  by_cases hc : (chars! "<![CDATA[") <:+: s
  · rw [if_pos (findFrom_isSome_iff_infix.2 hc)]
    have : entityEscape s = s.flatMap escapeChar := by
      rcases h2 hc with ⟨h3, h4⟩ | ⟨a, b, rfl, h3, h4, h5⟩
      · exact entityEscape_plain h3 h4
      · exact entityEscape_amp h3 h4 h5
    rw [this]
    exact reads_escaped k hl
  · rw [if_neg (fun h => hc (findFrom_isSome_iff_infix.1 h))]
    by_cases hm : s.any (fun c => c ∈ chars! "&'<>\"") = true
    · rw [if_pos hm]
      exact ⟨0, reads_cdata k hl (h1 hc)⟩
    · rw [if_neg hm]
      apply reads_plain
      intro c hs
      refine ⟨hl c hs, ?_, ?_, ?_⟩ <;>
      · rintro rfl
        exact hm (List.any_eq_true.2 ⟨_, hs, by decide⟩)

theorem noAttrs : PlainAttrs [] := ⟨List.nodup_nil, by simp⟩

theorem reads_field {t : Ty} {s : Str} (ht : Xsd.isValid t = true) (hs : Quotable s) (k : Nat) :
    Reads (.content k) (fieldText t s) (.content 0)
      (if s = [] then Xml.empty (Xsd.elementName t) [] else .elem (Xsd.elementName t) [] [.text s]).events := by
  have hn := name_xml ht
  unfold fieldText
  by_cases h : s = []
  · rw [if_pos h, if_pos h]
    have := reads_empty k hn noAttrs
    simpa [attrsText, Xml.events] using this
  · rw [if_neg h, if_neg h]
    obtain ⟨k', h2⟩ := reads_quoted hs 0
    have h1 := reads_start k hn noAttrs
    have h3 := reads_stop k' hn
    have := reads_append h1 (reads_append h2 h3)
    simpa [attrsText, Xml.events, eventsOf] using this

theorem pad_space {ind : Str} (h : ∀ c ∈ ind, xmlSpace c = true) (d : Nat) : ∀ c ∈ pad ind d, xmlSpace c = true := by
  intro c hc
  unfold pad at hc
  obtain ⟨l, hl, hcl⟩ := List.mem_flatten.1 hc
  rw [(List.mem_replicate.1 hl).2] at hcl
  exact h c hcl

theorem lead_space {ind : Str} (h : ∀ c ∈ ind, xmlSpace c = true) (d : Nat) (ks : List Doc) :
    ∀ c ∈ lead ind d ks, xmlSpace c = true := by
  unfold lead
  split
  · exact pad_space h d
  · simp

theorem reads_raw {s : Str} {xs : List Xml} (h : ReadsAs s xs) (k : Nat) :
    ∃ k', Reads (.content k) s (.content k') (eventsOf xs) := by
  obtain ⟨h1, h2, h3⟩ := h
  obtain ⟨k', h4⟩ := reads_of_readXml h2 h3
  refine ⟨k', ?_⟩
  cases s with
  | nil => exact absurd h1 (by simp)
  | cons c s =>
    simp only [List.head?_cons, Option.some.injEq] at h1
    subst h1
    exact h4

section
variable {f : Str → List Xml} {nl ind : Str} (hnl : ∀ c ∈ nl, xmlSpace c = true) (hind : ∀ c ∈ ind, xmlSpace c = true)
include hnl

theorem reads_framed {s : Str} {x : Xml} {p : Str} (hp : ∀ c ∈ p, xmlSpace c = true)
    (h : ∀ k, ∃ k', Reads (.content k) s (.content k') x.events) (k : Nat) :
    ∃ k', Reads (.content k) (p ++ s ++ nl) (.content k') (eventsOf [.text p, x, .text nl]) := by
  obtain ⟨k1, h1⟩ := reads_space k hp
  obtain ⟨k2, h2⟩ := h k1
  obtain ⟨k3, h3⟩ := reads_space k2 hnl
  refine ⟨k3, ?_⟩
  have := reads_append h1 (reads_append h2 h3)
  simpa [eventsOf, Xml.events] using this

include hind

mutual

theorem reads_doc : (q : Doc) → q.Ok f → ∀ (d : Nat) (first : Bool) (k : Nat),
    ∃ k', Reads (.content k) (q.print nl ind d first) (.content k') (eventsOf (q.xml f nl ind d first))
  | .field t s, h, d, first, k => by
    rw [Doc.print, Doc.xml]
    rw [Doc.Ok] at h
    exact reads_framed hnl (pad_space hind d) (fun k => ⟨0, reads_field h.1 h.2 k⟩) k
  | .color t s, h, d, first, k => by
    rw [Doc.print, Doc.xml]
    rw [Doc.Ok] at h
    exact reads_framed hnl (pad_space hind d) (fun k => ⟨0, reads_field h.1 h.2 k⟩) k
  | .text s, h, d, first, k => by
    rw [Doc.print, Doc.xml]
    rw [Doc.Ok] at h
    obtain ⟨k', h'⟩ := reads_quoted h k
    exact ⟨k', by simpa [eventsOf, Xml.events] using h'⟩
  | .point s, h, d, first, k => by
    rw [Doc.print, Doc.xml]
    rw [Doc.Ok] at h
    obtain ⟨k1, h1⟩ := reads_space k (pad_space hind d)
    obtain ⟨k2, h2⟩ := reads_plain k1 h
    obtain ⟨k3, h3⟩ := reads_space (s := if nl = [] then ['\n'] else nl) k2 (by
      by_cases hn : nl = []
      · rw [if_pos hn]
        decide
      · rw [if_neg hn]
        exact hnl)
    refine ⟨k3, ?_⟩
    have := reads_append (reads_append h1 h2) h3
    simpa [eventsOf, Xml.events, charEvents_append] using this
  | .raw s, h, d, first, k => by
    rw [Doc.print, Doc.xml]
    rw [Doc.Ok] at h
    obtain ⟨k1, h1⟩ := reads_space (s := if first = true then [] else pad ind d) k (by
      cases first
      · exact pad_space hind d
      · simp)
    obtain ⟨k2, h2⟩ := reads_raw h k1
    refine ⟨k2, ?_⟩
    have := reads_append h1 h2
    simpa [eventsOf, Xml.events] using this
  | .elem t a ks, h, d, first, k => by
    rw [Doc.Ok] at h
    obtain ⟨ht, ha, hk⟩ := h
    have hn := name_xml ht
    rw [Doc.print, Doc.xml]
    refine reads_framed hnl (p := pad ind d ++ lead ind (d + 1) ks) ?_ ?_ k
    · intro c hc
      rcases List.mem_append.1 hc with hc | hc
      · exact pad_space hind d c hc
      · exact lead_space hind _ ks c hc
    · intro k
      by_cases he : ks.isEmpty = true
      · rw [if_pos he, if_pos he]
        exact ⟨0, by simpa [Xml.events] using reads_empty k hn ha⟩
      · rw [if_neg he, if_neg he]
        have h1 := reads_start k hn ha
        obtain ⟨k2, h2⟩ := reads_space 0 hnl
        obtain ⟨k3, h3⟩ := reads_docs ks hk (d + 1) true k2
        obtain ⟨k4, h4⟩ := reads_space k3 (pad_space hind d)
        have h5 := reads_stop k4 hn
        refine ⟨0, ?_⟩
        have := reads_append h1 (reads_append h2 (reads_append h3 (reads_append h4 h5)))
        simpa [eventsOf, Xml.events, eventsOf_append'] using this

theorem reads_docs : (qs : List Doc) → OkAll f qs → ∀ (d : Nat) (first : Bool) (k : Nat),
    ∃ k', Reads (.content k) (printAll nl ind d first qs) (.content k') (eventsOf (docsXml f nl ind d first qs))
  | [], _, _, _, k => ⟨k, rfl⟩
  | q :: qs, h, d, first, k => by
    rw [OkAll] at h
    rw [printAll, docsXml, eventsOf_append']
    obtain ⟨k1, h1⟩ := reads_doc q h.1 d first k
    obtain ⟨k2, h2⟩ := reads_docs qs h.2 d false k1
    exact ⟨k2, reads_append h1 h2⟩

end

end

theorem rawPieces_reads {s : Str} (h : ∃ xs, ReadsAs s xs) : ReadsAs s (rawPieces s) := by
  unfold rawPieces
  rw [dif_pos h]
  exact h.choose_spec

mutual

theorem ok_of_fine : (q : Doc) → (∀ c ∈ q.calls, c.Fine) → q.Ok rawPieces
  | .field t s, h => h (.field t s) (by simp [Doc.calls])
  | .color t s, h => h (.color t s) (by simp [Doc.calls])
  | .text s, h => h (.content s true) (by simp [Doc.calls])
  | .point s, h => h (.vec3 s) (by simp [Doc.calls])
  | .raw s, h => rawPieces_reads (h (.content s false) (by simp [Doc.calls]))
  | .elem t a ks, h => by
    rw [Doc.Ok]
    have := h (.beginElem t a) (by simp [Doc.calls])
    exact ⟨this.1, this.2, okAll_of_fine ks (fun c hc => h c (by simp [Doc.calls, hc]))⟩

theorem okAll_of_fine : (qs : List Doc) → (∀ c ∈ docsCalls qs, c.Fine) → OkAll rawPieces qs
  | [], _ => trivial
  | q :: qs, h => ⟨ok_of_fine q (fun c hc => h c (by simp [docsCalls, hc])),
      okAll_of_fine qs (fun c hc => h c (by simp [docsCalls, hc]))⟩

end

/-! ### White space -/

theorem Spaced.refl : ∀ a : Str, Spaced a a
  | [] => .nil
  | c :: a => .same c (Spaced.refl a)

theorem Spaced.append {a b a' b' : Str} (h : Spaced a b) (h' : Spaced a' b') : Spaced (a ++ a') (b ++ b') := by
  induction h with
  | nil => exact h'
  | same c _ ih => exact .same c ih
  | space c hc _ ih => exact .space c hc ih

theorem Spaced.blank : ∀ {b : Str}, (∀ c ∈ b, xmlSpace c = true) → Spaced [] b
  | [], _ => .nil
  | c :: b, h => .space c (h c (by simp)) (Spaced.blank (fun d hd => h d (by simp [hd])))

theorem pad_nil (d : Nat) : pad [] d = [] := by
  unfold pad
  induction d with
  | zero => rfl
  | succ d ih => rw [List.replicate_succ, List.flatten_cons, ih]; rfl

theorem lead_nil (d : Nat) (ks : List Doc) : lead [] d ks = [] := by
  unfold lead
  split
  · exact pad_nil d
  · rfl

mutual

theorem spaced_doc {ind : Str} (hind : ∀ c ∈ ind, xmlSpace c = true) : (q : Doc) → ∀ (d : Nat) (first : Bool),
    Spaced (q.print [] [] d first) (q.print ['\n'] ind d first)
  | .field t s, d, first => by
    rw [Doc.print, Doc.print, pad_nil]
    exact ((Spaced.blank (pad_space hind d)).append (.refl _)).append (Spaced.blank (by decide))
  | .color t s, d, first => by
    rw [Doc.print, Doc.print, pad_nil]
    exact ((Spaced.blank (pad_space hind d)).append (.refl _)).append (Spaced.blank (by decide))
  | .text s, d, first => by
    rw [Doc.print, Doc.print]
    exact .refl _
  | .point s, d, first => by
    rw [Doc.print, Doc.print, pad_nil, if_pos rfl, if_neg (by decide)]
    exact ((Spaced.blank (pad_space hind d)).append (.refl _)).append (.refl _)
  | .raw s, d, first => by
    rw [Doc.print, Doc.print, pad_nil, ite_self]
    refine Spaced.append (Spaced.blank ?_) (.refl _)
    cases first
    · exact pad_space hind d
    · simp
  | .elem t a ks, d, first => by
    rw [Doc.print, Doc.print, pad_nil, lead_nil]
    refine Spaced.append (Spaced.append (Spaced.append (Spaced.blank (pad_space hind d))
      (Spaced.blank (lead_space hind _ ks))) ?_) (Spaced.blank (by decide))
    by_cases he : ks.isEmpty = true
    · rw [if_pos he, if_pos he]
      exact .refl _
    · rw [if_neg he, if_neg he]
      have h3 := spaced_docs hind ks (d + 1) true
      have hn : Spaced [] ['\n'] := Spaced.blank (by decide)
      have h1 : Spaced ('<' :: Xsd.elementName t ++ attrsText a ++ '>' :: [])
          ('<' :: Xsd.elementName t ++ attrsText a ++ '>' :: ['\n']) :=
        (Spaced.refl _).append (.same _ hn)
      have h4 : Spaced [] (pad ind d) := Spaced.blank (pad_space hind d)
      have := (((h1.append h3).append h4).append (Spaced.refl (chars! "</"))).append
        (Spaced.refl (Xsd.elementName t)) |>.append (Spaced.refl ['>'])
      simpa using this

theorem spaced_docs {ind : Str} (hind : ∀ c ∈ ind, xmlSpace c = true) : (qs : List Doc) → ∀ (d : Nat) (first : Bool),
    Spaced (printAll [] [] d first qs) (printAll ['\n'] ind d first qs)
  | [], _, _ => .nil
  | q :: qs, d, first => by
    rw [printAll, printAll]
    exact (spaced_doc hind q d first).append (spaced_docs hind qs d false)

end

end Kml.Dom
