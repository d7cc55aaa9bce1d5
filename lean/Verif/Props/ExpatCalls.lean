import Verif.Spec.ExpatCalls
import Verif.Spec.Numbers
import Verif.Model.Style

/-!
# C114: texts that declare entities are refused, and failures are told
-/

namespace Kml.Dom

open Kml

variable {σ : Type}

section

attribute [local irreducible] Handler.step Handler.popRoot

theorem declares_iff (calls : List (XmlCall × Nat × Nat)) : Declares calls ↔ (firstDeclaration calls).isSome = true := by
  induction calls with
  | nil => exact ⟨(fun ⟨_, h, _⟩ => nomatch h), (fun h => nomatch h)⟩
  | cons q r ih =>
    obtain ⟨c, at_⟩ := q
    cases c with
    | entity => exact ⟨(fun _ => rfl), (fun _ => ⟨_, List.mem_cons_self, rfl⟩)⟩
    | ev e =>
      show _ ↔ (firstDeclaration r).isSome = true
      rw [← ih]
      constructor
      · rintro ⟨q, h, hq⟩
        rcases List.mem_cons.1 h with rfl | h
        · cases hq
        · exact ⟨q, h, hq⟩
      · rintro ⟨q, h, hq⟩
        exact ⟨q, List.mem_cons_of_mem _ h, hq⟩

/-- Running the calls is running the events in front of the first declaration. -/
theorem runCalls_eq (n : NumLib) (os : List (Observer σ)) (calls : List (XmlCall × Nat × Nat)) :
    ∀ h : Handler σ, h.stopped = false →
      h.runCalls n os calls = h.run n os (eventsBefore calls) >>= fun h' =>
        .ok (h', if h'.stopped then some .suspended else
          (firstDeclaration calls).map fun a => .error ⟨chars! "parsing aborted", a.1, a.2⟩) := by
  induction calls with
  | nil =>
    intro h hs
    show Outcome.ok (h, none) = Outcome.ok (h, _)
    rw [hs]
    rfl
  | cons q r ih =>
    intro h hs
    obtain ⟨c, line, column⟩ := q
    cases c with
    | entity =>
      show Outcome.ok (h, _) = Outcome.ok (h, _)
      rw [hs]
      rfl
    | ev e =>
      show (h.step n os e >>= fun h => if h.stopped then .ok (h, some .suspended) else h.runCalls n os r) =
        (h.step n os e >>= fun h => if h.stopped then .ok h else h.run n os (eventsBefore r)) >>= _
      cases h.step n os e with
      | ub => rfl
      | throws => rfl
      | ok h' =>
        show (if h'.stopped = true then _ else _) = (if h'.stopped = true then Outcome.ok h' else _) >>= _
        cases hs' : h'.stopped with
        | true =>
          show Outcome.ok (h', _) = Outcome.ok (h', _)
          rw [hs']
          rfl
        | false =>
          rw [if_neg Bool.false_ne_true, if_neg Bool.false_ne_true]
          exact ih h' hs'

theorem xmlParse_eq (n : NumLib) (os : List (Observer σ)) (x : FullExpat) (h : Handler σ) (hs : h.stopped = false)
    (p : x.State) (s : Str) (final : Bool) :
    xmlParse n os x h p s final = h.run n os (eventsBefore (x.feed p s final).1) >>= fun h' =>
      .ok (h', if h'.stopped then .error .suspended else
        match firstDeclaration (x.feed p s final).1 with
        | some a => .error (.error ⟨chars! "parsing aborted", a.1, a.2⟩)
        | none => (x.feed p s final).2.mapError .error) := by
  unfold xmlParse
  rw [runCalls_eq n os _ h hs]
  cases h.run n os (eventsBefore (x.feed p s final).1) with
  | ub => rfl
  | throws => rfl
  | ok h' =>
    show Outcome.ok (h', _) = Outcome.ok (h', _)
    cases h'.stopped with
    | true => rfl
    | false => cases firstDeclaration (x.feed p s final).1 <;> rfl

theorem buffer_plain (n : NumLib) (os : List (Observer σ)) (x : FullExpat) (h : Handler σ) (hs : h.stopped = false)
    (p : x.State) (s : Str) (final : Bool) :
    parseBuffer n os x.plain h p s final = xmlParse n os x h p s final >>= fun r => .ok (r.1, r.2.toOption) := by
  rw [xmlParse_eq n os x h hs]
  show (h.run n os (eventsBefore (x.feed p s final).1) >>= fun h' => .ok (h', if h'.stopped then none else
    if (firstDeclaration (x.feed p s final).1).isSome then none else (x.feed p s final).2.toOption)) = _
  generalize x.feed p s final = f
  cases h.run n os (eventsBefore f.1) with
  | ub => rfl
  | throws => rfl
  | ok h' =>
    show Outcome.ok (h', _) = Outcome.ok (h', _)
    cases h'.stopped with
    | true => rfl
    | false =>
      cases firstDeclaration f.1 with
      | some a => rfl
      | none => cases f.2 <;> rfl

/-- **C114, one text.** `Parse` gives the root and leaves the observers as the parser of Stream.lean does for which a
declaration of an entity is an error; whether the caller wants to be told of errors makes no difference. -/
theorem C114_same (n : NumLib) (os : List (Observer σ)) (s : σ) (global : Locale.Loc) (wants : Bool) (x : FullExpat) (kml : Str) :
    (parseE n os s global wants x kml >>= fun r => .ok (r.1, r.2.2)) = parseText n os s x.plain kml := by
  unfold parseText
  rw [show x.plain.init = x.init from rfl, buffer_plain n os x _ rfl]
  unfold parseE parseStringE
  cases xmlParse n os x (Handler.init s) x.init kml (decide (kml.length ≠ 0)) with
  | ub => rfl
  | throws => rfl
  | ok r =>
    obtain ⟨h, f⟩ := r
    cases f with
    | ok p => rfl
    | error f => cases f <;> cases wants <;> rfl

/-- What ends a parse of one piece. -/
theorem xmlParse_ok {n : NumLib} {os : List (Observer σ)} {x : FullExpat} {h h' : Handler σ} (hs : h.stopped = false)
    {p p' : x.State} {s : Str} {final : Bool} (hp : xmlParse n os x h p s final = .ok (h', .ok p')) :
    h'.stopped = false ∧ ¬ Declares (x.feed p s final).1 ∧ (x.feed p s final).2 = .ok p' := by
  rw [xmlParse_eq n os x h hs] at hp
  rw [declares_iff]
  revert hp
  generalize x.feed p s final = f
  cases h.run n os (eventsBefore f.1) with
  | ub => exact fun h => nomatch h
  | throws => exact fun h => nomatch h
  | ok k =>
    intro hp
    have hp : (k, if k.stopped = true then Except.error Failure.suspended else _) = (h', Except.ok p') := Outcome.ok.inj hp
    obtain ⟨rfl, hp⟩ := Prod.mk.inj hp
    cases hk : k.stopped with
    | true => rw [hk, if_pos rfl] at hp; cases hp
    | false =>
      rw [hk, if_neg Bool.false_ne_true] at hp
      cases hd : firstDeclaration f.1 with
      | some a => rw [hd] at hp; cases hp
      | none =>
        rw [hd] at hp
        refine ⟨rfl, by simp, ?_⟩
        cases hf : f.2 with
        | ok q => rw [hf] at hp; cases hp; rfl
        | error e => rw [hf] at hp; cases hp

/-- **C114, entities in one text.** A text that declares an entity gives no element, and the observers have seen nothing
but what stands in front of the declaration.  If the caller wants to be told, they are told where the declaration is,
unless the parse was stopped before. -/
theorem C114_entities (n : NumLib) (os : List (Observer σ)) (s s' : σ) (wants : Bool) (x : FullExpat) (kml : Str)
    (root : Option Elem) (m : Option Str) (hk : kml ≠ []) (hd : Declares (x.feed x.init kml true).1)
    (h : parseE n os s Locale.classic wants x kml = .ok (root, m, s')) :
    root = none ∧ ∃ h a, (Handler.init s).run n os (eventsBefore (x.feed x.init kml true).1) = .ok h ∧ s' = h.obs ∧
      firstDeclaration (x.feed x.init kml true).1 = some a ∧
      m = if wants then some (if h.stopped then chars! "Invalid root element" else
        (XmlError.mk (chars! "parsing aborted") a.1 a.2).message) else none := by
  rw [declares_iff] at hd
  obtain ⟨a, ha⟩ := Option.isSome_iff_exists.1 hd
  unfold parseE parseStringE at h
  have hl : decide (kml.length ≠ 0) = true := by
    cases kml with
    | nil => exact absurd rfl hk
    | cons c r => rfl
  rw [hl, xmlParse_eq n os x _ rfl] at h
  revert h
  cases hr : (Handler.init s).run n os (eventsBefore (x.feed x.init kml true).1) with
  | ub => exact fun h => nomatch h
  | throws => exact fun h => nomatch h
  | ok k =>
    intro h
    rw [ha] at h
    cases hs : k.stopped with
    | true =>
      cases wants <;> (simp [bind, Outcome.bind, hs] at h; obtain ⟨rfl, rfl, rfl⟩ := h; exact ⟨rfl, k, a, rfl, rfl, ha, by simp [hs]⟩)
    | false =>
      cases wants <;> (simp [bind, Outcome.bind, hs, reportFailure] at h; obtain ⟨rfl, rfl, rfl⟩ := h; refine ⟨rfl, k, a, rfl, rfl, ha, ?_⟩)
      · rfl
      · simp [hs]
        rfl

/-- **C114, failures of one text.** `ParseString` tells of a failure just if it fails, if the caller wants to be told: that
the root is invalid if the handler stopped the parse, and otherwise the error, in words and with its line and column;
that is the one the XML parser found, if the text declares no entity. -/
theorem C114_reported (n : NumLib) (os : List (Observer σ)) (x : FullExpat) (h h' : Handler σ) (xml : Str) (b : Bool)
    (m : Option Str) (hs : h.stopped = false) (hp : parseStringE n os Locale.classic true x h xml = .ok (h', b, m)) :
    (b = true ∧ m = none ∧ h'.stopped = false) ∨
    (b = false ∧ h'.stopped = true ∧ m = some (chars! "Invalid root element")) ∨
    (b = false ∧ h'.stopped = false ∧ ∃ e : XmlError, m = some e.message ∧
      (¬ Declares (x.feed x.init xml (decide (xml.length ≠ 0))).1 → (x.feed x.init xml (decide (xml.length ≠ 0))).2 = .error e)) := by
  unfold parseStringE at hp
  rw [xmlParse_eq n os x h hs] at hp
  rw [declares_iff]
  revert hp
  generalize x.feed x.init xml (decide (xml.length ≠ 0)) = f
  cases h.run n os (eventsBefore f.1) with
  | ub => exact fun h => nomatch h
  | throws => exact fun h => nomatch h
  | ok k =>
    intro hp
    cases hk : k.stopped with
    | true =>
      simp [bind, Outcome.bind, hk] at hp
      obtain ⟨rfl, rfl, rfl⟩ := hp
      exact Or.inr (Or.inl ⟨rfl, hk, rfl⟩)
    | false =>
      cases hd : firstDeclaration f.1 with
      | some a =>
        simp [bind, Outcome.bind, hk, hd, reportFailure] at hp
        obtain ⟨rfl, rfl, rfl⟩ := hp
        exact Or.inr (Or.inr ⟨rfl, hk, ⟨chars! "parsing aborted", a.1, a.2⟩, rfl, fun h => absurd rfl h⟩)
      | none =>
        cases hf : f.2 with
        | ok q =>
          simp [bind, Outcome.bind, hk, hd, hf, Except.mapError] at hp
          obtain ⟨rfl, rfl, rfl⟩ := hp
          exact Or.inl ⟨rfl, rfl, hk⟩
        | error e =>
          simp [bind, Outcome.bind, hk, hd, hf, Except.mapError, reportFailure] at hp
          obtain ⟨rfl, rfl, rfl⟩ := hp
          exact Or.inr (Or.inr ⟨rfl, hk, e, rfl, fun _ => rfl⟩)

theorem bufferE_cases {n : NumLib} {os : List (Observer σ)} {g : Locale.Loc} {wants : Bool} {x : FullExpat} {h h' : Handler σ}
    {p : x.State} {s : Str} {final : Bool} {q : Option x.State} {m : Option Str}
    (hp : parseBufferE n os g wants x h p s final = .ok (h', q, m)) :
    (∃ p', q = some p' ∧ m = none ∧ xmlParse n os x h p s final = .ok (h', .ok p')) ∨
      q = none ∧ (wants = true → ∃ t, m = some t) := by
  unfold parseBufferE at hp
  cases hx : xmlParse n os x h p s final with
  | ub => rw [hx] at hp; cases hp
  | throws => rw [hx] at hp; cases hp
  | ok r =>
    rw [hx] at hp
    obtain ⟨k, f⟩ := r
    cases f with
    | ok p' => cases hp; exact Or.inl ⟨p', rfl, rfl, rfl⟩
    | error f => cases f <;> cases wants <;> cases hp <;> exact Or.inr ⟨rfl, by simp⟩

theorem loopE_clean (n : NumLib) (os : List (Observer σ)) (g : Locale.Loc) (wants : Bool) (x : FullExpat) (k : Nat) :
    ∀ (rest : Str) (h h' : Handler σ) (p : x.State) (m : Option Str), h.stopped = false →
      streamLoopE n os g wants x k ⟨true, rest, false⟩ h p = .ok (h', true, m) →
      ∃ cs last, cs.flatten ++ last = rest ∧ x.Clean p cs last := by
  induction k with
  | zero => intro _ _ _ _ _ _ h; cases h
  | succ k ih =>
    intro rest h h' p m hs hl
    unfold streamLoopE at hl
    rw [if_pos rfl] at hl
    unfold Istream.read at hl
    by_cases hlen : 4096 ≤ rest.length
    · rw [if_pos hlen] at hl
      dsimp only at hl
      cases hb : parseBufferE n os g wants x h p (rest.take 4096) false with
      | ub => rw [hb] at hl; cases hl
      | throws => rw [hb] at hl; cases hl
      | ok r =>
        obtain ⟨h1, q, m1⟩ := r
        rw [hb] at hl
        rcases bufferE_cases hb with ⟨p', rfl, rfl, hx⟩ | ⟨rfl, -⟩
        · obtain ⟨k1, k2, k3⟩ := xmlParse_ok hs hx
          obtain ⟨cs, last, e, hc⟩ := ih _ _ _ _ _ k1 hl
          exact ⟨rest.take 4096 :: cs, last, by rw [List.flatten_cons, List.append_assoc, e, List.take_append_drop], k2, p', k3, hc⟩
        · cases hl
    · rw [if_neg hlen, if_neg Bool.false_ne_true] at hl
      dsimp only at hl
      cases hb : parseBufferE n os g wants x h p rest true with
      | ub => rw [hb] at hl; cases hl
      | throws => rw [hb] at hl; cases hl
      | ok r =>
        obtain ⟨h1, q, m1⟩ := r
        rw [hb] at hl
        rcases bufferE_cases hb with ⟨p', rfl, rfl, hx⟩ | ⟨rfl, -⟩
        · obtain ⟨k1, k2, k3⟩ := xmlParse_ok hs hx
          exact ⟨[], rest, rfl, k2, p', k3⟩
        · cases hl

/-- **C114, entities in streams.** A stream of any length is only accepted if the XML parser found no declaration of an
entity, and no error, in all of the pieces of it. -/
theorem C114_stream (n : NumLib) (os : List (Observer σ)) (s s' : σ) (g : Locale.Loc) (wants : Bool) (x : FullExpat)
    (text : Str) (root : Option Elem) (m : Option Str)
    (h : parseFromIstreamE n os s g wants x (some ⟨true, text, false⟩) = .ok (some root, m, s')) :
    ∃ cs last, cs.flatten ++ last = text ∧ x.Clean x.init cs last := by
  unfold parseFromIstreamE at h
  dsimp only at h
  cases hl : streamLoopE n os g wants x (text.length + 2) ⟨true, text, false⟩ (Handler.init s) x.init with
  | ub => rw [hl] at h; cases h
  | throws => rw [hl] at h; cases h
  | ok r =>
    obtain ⟨h', b, m'⟩ := r
    rw [hl] at h
    cases b with
    | true => exact loopE_clean n os g wants x _ _ _ _ _ _ rfl hl
    | false => cases h

theorem streamLoop_succ (n : NumLib) (os : List (Observer σ)) (x : Expat) (k : Nat) (i : Istream) (h : Handler σ) (p : x.State) :
    streamLoop n os x (k + 1) i h p = if i.good = true then
        parseBuffer n os x h p (i.read 4096).1 (i.read 4096).2.1 >>= fun r =>
          match r.2 with
          | none => .ok (r.1, false)
          | some p' => streamLoop n os x k (i.read 4096).2.2 r.1 p'
      else .ok (h, true) := by
  rw [streamLoop]
  split
  · congr 1
  · rfl

theorem loopE_plain (n : NumLib) (os : List (Observer σ)) (g : Locale.Loc) (x : FullExpat) (k : Nat) :
    ∀ (i : Istream) (h : Handler σ) (p : x.State), h.stopped = false →
      (streamLoopE n os g false x k i h p >>= fun r => .ok (r.1, r.2.1)) = streamLoop n os x.plain k i h p := by
  induction k with
  | zero => intro _ _ _ _; rfl
  | succ k ih =>
    intro i h p hs
    unfold streamLoopE
    refine Eq.trans ?_ (streamLoop_succ n os x.plain k i h p).symm
    cases i.good with
    | false => rfl
    | true =>
      rw [if_pos rfl, if_pos rfl, buffer_plain n os x h hs]
      unfold parseBufferE
      cases hx : xmlParse n os x h p (i.read 4096).1 (i.read 4096).2.1 with
      | ub => rfl
      | throws => rfl
      | ok r =>
        obtain ⟨h', f⟩ := r
        cases f with
        | ok p' => exact ih _ _ _ (xmlParse_ok hs hx).1
        | error f => rfl

/-- **C114, streams.** If the caller does not want to be told of errors, `ParseFromIstream` gives the root and leaves the
observers as it does with the parser of Stream.lean for which a declaration of an entity is an error. -/
theorem C114_stream_same (n : NumLib) (os : List (Observer σ)) (s : σ) (g : Locale.Loc) (x : FullExpat) (i : Option Istream) :
    (parseFromIstreamE n os s g false x i >>= fun r => .ok (r.1, r.2.2)) = parseFromIstream n os s x.plain i := by
  cases i with
  | none => rfl
  | some i =>
    unfold parseFromIstreamE parseFromIstream
    dsimp only
    rw [show x.plain.init = x.init from rfl, ← loopE_plain n os g x _ i (Handler.init s) x.init rfl]
    cases streamLoopE n os g false x (i.rest.length + 2) i (Handler.init s) x.init with
    | ub => rfl
    | throws => rfl
    | ok r => rfl

theorem loopE_told (n : NumLib) (os : List (Observer σ)) (g : Locale.Loc) (wants : Bool) (x : FullExpat) (k : Nat) :
    ∀ (i : Istream) (h h' : Handler σ) (p : x.State) (b : Bool) (m : Option Str),
      streamLoopE n os g wants x k i h p = .ok (h', b, m) → (b = true → m = none) ∧ (b = false → wants = true → ∃ t, m = some t) := by
  induction k with
  | zero => intro _ _ _ _ _ _ h; cases h
  | succ k ih =>
    intro i h h' p b m hl
    unfold streamLoopE at hl
    split at hl
    · cases hb : parseBufferE n os g wants x h p (i.read 4096).1 (i.read 4096).2.1 with
      | ub => rw [hb] at hl; cases hl
      | throws => rw [hb] at hl; cases hl
      | ok r =>
        obtain ⟨h1, q, m1⟩ := r
        rw [hb] at hl
        rcases bufferE_cases hb with ⟨p', rfl, rfl, hx⟩ | ⟨rfl, ht⟩
        · exact ih _ _ _ _ _ _ hl
        · cases hl
          exact ⟨(fun h => nomatch h), fun _ => ht⟩
    · cases hl
      exact ⟨fun _ => rfl, (fun h => nomatch h)⟩

/-- **C114, failures of streams.** Where a parse of a stream is defined, a failure is told of just if there is one, if
the caller wants to be told.  Missing from the full property: parses the handler stops, for which telling of the failure
is undefined (`C114_stream_violated`). -/
theorem C114_stream_reported_partial (n : NumLib) (os : List (Observer σ)) (s s' : σ) (g : Locale.Loc) (x : FullExpat)
    (i : Istream) (root : Option (Option Elem)) (m : Option Str)
    (h : parseFromIstreamE n os s g true x (some i) = .ok (root, m, s')) : root = none ↔ ∃ t, m = some t := by
  unfold parseFromIstreamE at h
  dsimp only at h
  cases hl : streamLoopE n os g true x (i.rest.length + 2) i (Handler.init s) x.init with
  | ub => rw [hl] at h; cases h
  | throws => rw [hl] at h; cases h
  | ok r =>
    obtain ⟨h', b, m'⟩ := r
    rw [hl] at h
    obtain ⟨k1, k2⟩ := loopE_told n os g true x _ _ _ _ _ _ _ hl
    cases b with
    | true => cases h; rw [k1 rfl]; exact ⟨(fun h => nomatch h), (fun ⟨_, h⟩ => nomatch h)⟩
    | false => cases h; exact ⟨fun _ => k2 rfl rfl, fun _ => rfl⟩

/-- **C114 fails: nothing.** For the empty text `Parse` gives no element and tells of no failure, if the XML parser, told
that this is not the last piece, waits for more. -/
theorem C114_empty_violated (n : NumLib) (os : List (Observer σ)) (s : σ) (g : Locale.Loc) (x : FullExpat) (p : x.State)
    (hx : x.feed x.init [] false = ([], .ok p)) : parseE n os s g true x [] = .ok (none, none, s) := by
  have hp : xmlParse n os x (Handler.init s) x.init [] (decide (([] : Str).length ≠ 0)) = .ok (Handler.init s, .ok p) := by
    show xmlParse n os x (Handler.init s) x.init [] false = _
    unfold xmlParse
    rw [hx]
    rfl
  unfold parseE parseStringE
  rw [hp]
  unfold Handler.popRoot
  rfl

end

/-- A parser that knows one document, whatever text it is given. -/
def knowsCalls (calls : List (XmlCall × Nat × Nat)) : FullExpat where
  State := Unit
  init := ()
  feed _ s _ := (if s = [] then [] else calls, .ok ())

/-- A document of a type with an entity: `<!DOCTYPE x [<!ENTITY a "b">]><Placemark/>`. -/
def withEntity : List (XmlCall × Nat × Nat) := [(.entity, 1, 13), (.ev (.empty (chars! "Placemark") []), 1, 32)]

example : Declares ((knowsCalls withEntity).feed () (chars! "<!DOCTYPE") true).1 := ⟨_, List.mem_cons_self, rfl⟩

example : (match parseE NumLib.integers ([] : List (Observer Unit)) () Locale.classic true (knowsCalls withEntity) (chars! "<!DOCTYPE") with
    | .ok (none, m, _) => m
    | _ => none) = some (chars! "parsing aborted on line 1 at offset 13") := by decide +kernel

/-- Without the declaration it is parsed. -/
example : (match parseE NumLib.integers ([] : List (Observer Unit)) () Locale.classic true (knowsCalls (withEntity.drop 1)) (chars! "<Placemark/>") with
    | .ok (some e, none, _) => some e.ty
    | _ => none) = some Ty.«Placemark» := by decide +kernel

/-- The XML parser of the example waits for more when it is given nothing. -/
example : (knowsCalls withEntity).feed () [] false = ([], .ok ()) := rfl

/-- **C114 fails: streams that are stopped.** For a stream whose root is not known the caller who wants to be told of
errors gets undefined behaviour: the text of no error is a NULL pointer, which is written to a stream. -/
theorem C114_stream_violated :
    parseFromIstreamE NumLib.integers ([] : List (Observer Unit)) () Locale.classic true
      (knowsCalls [(.ev (.empty (chars! "html") []), 1, 0)]) (some ⟨true, chars! "<html/>", false⟩) = .ub ∧
    (match parseFromIstreamE NumLib.integers ([] : List (Observer Unit)) () Locale.classic false
      (knowsCalls [(.ev (.empty (chars! "html") []), 1, 0)]) (some ⟨true, chars! "<html/>", false⟩) with
    | .ok (none, none, _) => true
    | _ => false) = true := by
  refine ⟨?_, by decide +kernel⟩
  have h : (match parseFromIstreamE NumLib.integers ([] : List (Observer Unit)) () Locale.classic true
      (knowsCalls [(.ev (.empty (chars! "html") []), 1, 0)]) (some ⟨true, chars! "<html/>", false⟩) with
    | .ub => true
    | _ => false) = true := by decide +kernel
  revert h
  generalize parseFromIstreamE NumLib.integers ([] : List (Observer Unit)) () Locale.classic true
      (knowsCalls [(.ev (.empty (chars! "html") []), 1, 0)]) (some ⟨true, chars! "<html/>", false⟩) = r
  cases r with
  | ub => exact fun _ => rfl
  | ok a => exact fun h => nomatch h
  | throws => exact fun h => nomatch h

/-- **C114 fails: what is told.** Of a document nested more than 100 deep, whose root is known, it is told that its root is
invalid. -/
theorem C114_reason_violated :
    (match parseE NumLib.integers ([] : List (Observer Unit)) () Locale.classic true
      (knowsCalls (List.replicate 101 (.ev (.start (chars! "Folder") []), 1, 0))) (chars! "<Folder>") with
    | .ok (none, m, _) => m
    | _ => none) = some (chars! "Invalid root element") ∧
    (match parseE NumLib.integers ([] : List (Observer Unit)) () Locale.classic true
      (knowsCalls [(.ev (.empty (chars! "Folder") []), 1, 0)]) (chars! "<Folder/>") with
    | .ok (some e, none, _) => some e.ty
    | _ => none) = some Ty.«Folder» := by
  constructor <;> decide +kernel

end Kml.Dom
