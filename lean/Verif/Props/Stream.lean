import Verif.Lemmas.Handler
import Verif.Spec.Stream
import Verif.Spec.Numbers

/-!
# C85: a KML text gives the same elements however it is cut into pieces
-/

namespace Kml.Dom

open Kml

variable {σ : Type}

theorem appendTop_twice (s t : Str) (l : List Str) :
    (appendTop s l >>= fun l => appendTop t l) = appendTop (s ++ t) l := by
  cases l with
  | nil => rfl
  | cons a l => simp [appendTop, List.append_assoc]

theorem run_chars_cons (n : NumLib) (os : List (Observer σ)) (h : Handler σ) (hs : h.stopped = false) (s : Str)
    (evs : List Ev) :
    h.run n os (.chars s :: evs) = appendTop s h.chars >>= fun c => ({ h with chars := c } : Handler σ).run n os evs := by
  show (h.charData s >>= fun h => if h.stopped then .ok h else h.run n os evs) = _
  unfold Handler.charData
  cases h.chars with
  | nil => rfl
  | cons a l => simp [appendTop, hs]

theorem run_glue (n : NumLib) (os : List (Observer σ)) (evs : List Ev) :
    ∀ h : Handler σ, h.stopped = false → h.run n os (glue evs) = h.run n os evs := by
  induction evs with
  | nil => intro h _; rfl
  | cons ev evs ih =>
    intro h hs
    have other : ∀ e : Ev, h.run n os (e :: glue evs) = h.run n os (e :: evs) := by
      intro e
      show (h.step n os e >>= fun h => if h.stopped then .ok h else h.run n os (glue evs)) =
        (h.step n os e >>= fun h => if h.stopped then .ok h else h.run n os evs)
      congr 1
      funext h'
      cases hs' : h'.stopped with
      | true => rfl
      | false => simpa using ih h' hs'
    cases ev with
    | start name attrs => exact other _
    | stop name => exact other _
    | empty name attrs => exact other _
    | chars s =>
      unfold glue
      split
      · next t r hg =>
        rw [run_chars_cons _ _ _ hs, run_chars_cons _ _ _ hs, ← appendTop_twice]
        cases hc : h.chars with
        | nil => rfl
        | cons a l =>
          show ({ h with chars := _ } : Handler σ).run n os r = ({ h with chars := _ } : Handler σ).run n os evs
          rw [← ih _ (by exact hs), hg, run_chars_cons _ _ _ (by exact hs)]
          rfl
      · exact other _

/-- **C85, text.** How the XML parser cuts character data into pieces makes no difference: two sequences of events that
differ only in that give the same root and leave the observers in the same state, and if one of them does not go well
then nor does the other, whatever the observers do. -/
theorem C85_text (n : NumLib) (os : List (Observer σ)) (s : σ) (evs evs' : List Ev) (h : glue evs = glue evs') :
    parseEvents n os s evs = parseEvents n os s evs' := by
  unfold parseEvents
  rw [← run_glue n os evs _ rfl, ← run_glue n os evs' _ rfl, h]

example : glue [.start (chars! "name") [], .chars (chars! "a"), .chars (chars! "bc"), .stop (chars! "name")] =
    glue [.start (chars! "name") [], .chars (chars! "ab"), .chars (chars! "c"), .stop (chars! "name")] := by
  decide

/-- The handler and the XML parser on a text in pieces. -/
def feedAll (n : NumLib) (os : List (Observer σ)) (x : Expat) (h : Handler σ) (p : x.State) :
    List Str → Str → Outcome (Handler σ × Bool)
  | [], last => parseBuffer n os x h p last true >>= fun r => .ok (r.1, r.2.isSome)
  | c :: cs, last =>
    parseBuffer n os x h p c false >>= fun r =>
      match r.2 with
      | none => .ok (r.1, false)
      | some p' => feedAll n os x r.1 p' cs last

theorem loop_follows (n : NumLib) (os : List (Observer σ)) (x : Expat) (k : Nat) :
    ∀ rest : Str, rest.length + 2 ≤ k → ∃ cs last, cs.flatten ++ last = rest ∧ ∀ (h : Handler σ) (p : x.State),
      streamLoop n os x k ⟨true, rest, false⟩ h p = feedAll n os x h p cs last := by
  induction k with
  | zero => intro rest hk; omega
  | succ k ih =>
    intro rest hk
    by_cases hl : 4096 ≤ rest.length
    · obtain ⟨cs, last, hcut, hfol⟩ := ih (rest.drop 4096) (by rw [List.length_drop]; omega)
      refine ⟨rest.take 4096 :: cs, last, ?_, ?_⟩
      · rw [List.flatten_cons, List.append_assoc, hcut, List.take_append_drop]
      · intro h p
        have hr : Istream.read ⟨true, rest, false⟩ 4096 = (rest.take 4096, false, ⟨true, rest.drop 4096, false⟩) := by
          unfold Istream.read
          rw [if_pos hl]
        unfold streamLoop feedAll
        rw [if_pos rfl, hr]
        congr 1
        funext r
        cases r.2 with
        | none => rfl
        | some p' => exact hfol _ _
    · refine ⟨[], rest, rfl, ?_⟩
      intro h p
      have hr : Istream.read ⟨true, rest, false⟩ 4096 = (rest, true, ⟨false, [], false⟩) := by
        unfold Istream.read
        rw [if_neg hl, if_neg Bool.false_ne_true]
      unfold streamLoop feedAll
      rw [if_pos rfl, hr]
      congr 1
      funext r
      cases hr2 : r.2 with
      | none => rfl
      | some p' =>
        have hk' : ∃ k', k = k' + 1 := ⟨k - 1, by omega⟩
        obtain ⟨k', rfl⟩ := hk'
        rfl

theorem follow_accepts (n : NumLib) (os : List (Observer σ)) (x : Expat) (cs : List Str) (last : Str) :
    ∀ (h : Handler σ) (p : x.State), h.stopped = false → (x.pieces p cs last).2 = true →
      feedAll n os x h p cs last =
        h.run n os (x.pieces p cs last).1 >>= fun h' => .ok (h', !h'.stopped) := by
  induction cs with
  | nil =>
    intro h p _ ha
    unfold feedAll parseBuffer Expat.pieces
    unfold Expat.pieces at ha
    cases h.run n os (x.feed p last true).1 with
    | ub => rfl
    | throws => rfl
    | ok h' =>
      show Outcome.ok _ = Outcome.ok _
      cases hs : h'.stopped with
      | true => simp
      | false => simpa [hs] using ha
  | cons c cs ih =>
    intro h p hs ha
    unfold feedAll parseBuffer
    unfold Expat.pieces at ha ⊢
    rcases hf : x.feed p c false with ⟨evs, _ | p'⟩
    · rw [hf] at ha
      cases ha
    · rw [hf] at ha
      dsimp only at ha ⊢
      rw [run_append _ _ _ _ _ hs]
      cases h.run n os evs with
      | ub => rfl
      | throws => rfl
      | ok h' =>
        cases hs' : h'.stopped with
        | true => simp [hs']
        | false =>
          have := ih h' p' hs' ha
          simpa [hs'] using this

theorem follow_rejects (n : NumLib) (os : List (Observer σ)) (x : Expat) (cs : List Str) (last : Str) :
    ∀ (h : Handler σ) (p : x.State) (r : Handler σ × Bool), (x.pieces p cs last).2 = false →
      feedAll n os x h p cs last = .ok r → r.2 = false := by
  induction cs with
  | nil =>
    intro h p r ha hr
    unfold feedAll parseBuffer at hr
    unfold Expat.pieces at ha
    cases hq : h.run n os (x.feed p last true).1 with
    | ub => rw [hq] at hr; cases hr
    | throws => rw [hq] at hr; cases hr
    | ok h' =>
      rw [hq] at hr
      cases hr
      show (if h'.stopped then none else (x.feed p last true).2).isSome = false
      split
      · rfl
      · exact ha
  | cons c cs ih =>
    intro h p r ha hr
    unfold feedAll parseBuffer at hr
    unfold Expat.pieces at ha
    rcases hf : x.feed p c false with ⟨evs, _ | p'⟩
    · rw [hf] at hr
      cases hq : h.run n os evs with
      | ub => simp only [hq] at hr; cases hr
      | throws => simp only [hq] at hr; cases hr
      | ok h' =>
        simp only [hq, ite_self] at hr
        cases hr
        rfl
    · rw [hf] at hr ha
      cases hq : h.run n os evs with
      | ub => simp only [hq] at hr; cases hr
      | throws => simp only [hq] at hr; cases hr
      | ok h' =>
        simp only [hq] at hr
        cases hs' : h'.stopped with
        | true => 
          simp only [Outcome.ok_bind, hs'] at hr
          cases hr
          rfl
        | false =>
          simp only [Outcome.ok_bind, hs'] at hr
          exact ih _ _ _ ha hr

/-- **C85, streams.** Parsing the text of an input stream, which is read 4096 characters at a time, gives what parsing
it as a string gives.  If the XML parser accepts the text, the root of the stream object, or NULL if there is no such
object, is the root the string gives, the observers end in the same state, and one goes wrong only if the other does. -/
theorem C85_stream (n : NumLib) (os : List (Observer σ)) (s : σ) (x : Expat) (hx : x.Steady) (kml : Str)
    (hkml : kml ≠ []) (haccept : (x.pieces x.init [] kml).2 = true) :
    (parseFromIstream n os s x (some ⟨true, kml, false⟩) >>= fun r => .ok (r.1.join, r.2)) =
      parseText n os s x kml := by
  have hfeed : (x.feed x.init kml true).2.isSome = true := haccept
  obtain ⟨cs, last, hcut, hfol⟩ := loop_follows n os x (kml.length + 2) kml (Nat.le_refl _)
  have ha : (x.pieces x.init cs last).2 = true := by
    rw [hx.accepts, hcut, haccept]
  have he : glue (x.pieces x.init cs last).1 = glue (x.feed x.init kml true).1 := by
    rw [hx.events _ _ ha, hcut]
    rfl
  unfold parseFromIstream parseText parseBuffer
  dsimp only
  rw [show decide (kml.length ≠ 0) = true from by
      rw [decide_eq_true_iff]; intro h; exact hkml (List.eq_nil_of_length_eq_zero h),
    hfol, follow_accepts n os x cs last _ _ rfl ha, ← run_glue n os (x.pieces x.init cs last).1 _ rfl, he,
    run_glue n os _ _ rfl]
  cases (Handler.init s).run n os (x.feed x.init kml true).1 with
  | ub => rfl
  | throws => rfl
  | ok h' =>
    cases hs : h'.stopped with
    | true => simp [hs]
    | false => simp [hs, hfeed]

/-- **C85, strings.** Parsing a string that is not empty hands over all its events: it gives what `parseEvents` gives
for them if the XML parser accepts it. -/
theorem C85_string (n : NumLib) (os : List (Observer σ)) (s : σ) (x : Expat) (kml : Str) (hkml : kml ≠ [])
    (evs : List Ev) (haccept : x.pieces x.init [] kml = (evs, true)) :
    parseText n os s x kml = parseEvents n os s evs := by
  have hfeed : (x.feed x.init kml true).1 = evs ∧ (x.feed x.init kml true).2.isSome = true := by
    have := haccept
    unfold Expat.pieces at this
    exact ⟨congrArg (·.1) this, congrArg (·.2) this⟩
  unfold parseText parseBuffer parseEvents
  rw [show decide (kml.length ≠ 0) = true from by
    rw [decide_eq_true_iff]; intro h; exact hkml (List.eq_nil_of_length_eq_zero h), hfeed.1]
  cases (Handler.init s).run n os evs with
  | ub => rfl
  | throws => rfl
  | ok h' =>
    cases hs : h'.stopped with
    | true => simp [hs]
    | false => simp [hs, hfeed.2]

/-- **C85, rejected.** If the XML parser does not accept the text of the stream, there is no stream object. -/
theorem C85_rejected (n : NumLib) (os : List (Observer σ)) (s : σ) (x : Expat) (hx : x.Steady) (kml : Str)
    (hreject : (x.pieces x.init [] kml).2 = false) (r : Option (Option Elem)) (s' : σ)
    (h : parseFromIstream n os s x (some ⟨true, kml, false⟩) = .ok (r, s')) : r = none := by
  obtain ⟨cs, last, hcut, hfol⟩ := loop_follows n os x (kml.length + 2) kml (Nat.le_refl _)
  unfold parseFromIstream at h
  dsimp only at h
  rw [hfol] at h
  cases hf : feedAll n os x (Handler.init s) x.init cs last with
  | ub => rw [hf] at h; cases h
  | throws => rw [hf] at h; cases h
  | ok q =>
    have := follow_rejects n os x cs last _ _ q (by rw [hx.accepts, hcut]; exact hreject) hf
    rw [hf] at h
    simp only [Outcome.ok_bind, this] at h
    cases h
    rfl

/-- An XML parser that reads character by character: `next` takes a character, or finds an error, and `whole` says
whether the text may end. -/
def machine {S : Type} (init : S) (next : S → Char → List Ev × Option S) (whole : S → Bool) : Expat where
  State := S
  init := init
  feed p s final := go p s final
where
  /-- The characters of one piece. -/
  go (p : S) : Str → Bool → List Ev × Option S
    | [], final => ([], if final && !whole p then none else some p)
    | c :: s, final =>
      match next p c with
      | (evs, none) => (evs, none)
      | (evs, some p') => (evs ++ (go p' s final).1, (go p' s final).2)

theorem machine_go {S : Type} (next : S → Char → List Ev × Option S) (whole : S → Bool) (s t : Str) (final : Bool) :
    ∀ p, machine.go next whole p (s ++ t) final =
      match machine.go next whole p s false with
      | (evs, none) => (evs, none)
      | (evs, some p') => (evs ++ (machine.go next whole p' t final).1, (machine.go next whole p' t final).2) := by
  induction s with
  | nil => intro p; simp [machine.go]
  | cons c s ih =>
    intro p
    have hc : ∀ (l : Str) (f : Bool), machine.go next whole p (c :: l) f =
        match next p c with
        | (evs, none) => (evs, none)
        | (evs, some p') => (evs ++ (machine.go next whole p' l f).1, (machine.go next whole p' l f).2) := fun _ _ => rfl
    rw [List.cons_append, hc, hc]
    rcases next p c with ⟨evs, _ | p'⟩
    · rfl
    · dsimp only
      rw [ih]
      rcases machine.go next whole p' s false with ⟨evs', _ | p''⟩
      · rfl
      · simp [List.append_assoc]

theorem pieces_none (x : Expat) (p : x.State) (c : Str) (cs : List Str) (last : Str) (evs : List Ev)
    (h : x.feed p c false = (evs, none)) : x.pieces p (c :: cs) last = (evs, false) := by
  rw [Expat.pieces, h]

theorem pieces_some (x : Expat) (p p' : x.State) (c : Str) (cs : List Str) (last : Str) (evs : List Ev)
    (h : x.feed p c false = (evs, some p')) :
    x.pieces p (c :: cs) last = (evs ++ (x.pieces p' cs last).1, (x.pieces p' cs last).2) := by
  rw [Expat.pieces, h]

theorem machine_pieces {S : Type} (init : S) (next : S → Char → List Ev × Option S) (whole : S → Bool) (cs : List Str)
    (last : Str) : ∀ p : (machine init next whole).State, (machine init next whole).pieces p cs last =
      (machine init next whole).pieces p [] (cs.flatten ++ last) := by
  induction cs with
  | nil => intro p; rfl
  | cons c cs ih =>
    intro p
    have hgo := machine_go next whole c (cs.flatten ++ last) true p
    rw [← List.append_assoc, ← List.flatten_cons] at hgo
    rcases hg : machine.go next whole p c false with ⟨evs, _ | p'⟩
    · refine (pieces_none (machine init next whole) p c cs last evs hg).trans ?_
      rw [hg] at hgo
      exact (Prod.ext (congrArg (·.1) hgo) (congrArg (·.2.isSome) hgo)).symm
    · refine (pieces_some (machine init next whole) p p' c cs last evs hg).trans ?_
      rw [hg] at hgo
      rw [ih p']
      exact (Prod.ext (congrArg (·.1) hgo) (congrArg (·.2.isSome) hgo)).symm

theorem machine_steady {S : Type} (init : S) (next : S → Char → List Ev × Option S) (whole : S → Bool) :
    (machine init next whole).Steady :=
  ⟨fun cs last => congrArg (·.2) (machine_pieces init next whole cs last _),
    fun cs last _ => congrArg (fun r => glue r.1) (machine_pieces init next whole cs last _)⟩

/-- A language for the examples: the outermost `(` starts a `Folder`, any other one a `Placemark`, `)` ends it, blanks are
skipped, and any other character is the text of a `name`.  The state is the number of elements open, and `none` once the
last is closed. -/
def brackets : Expat :=
  machine (some 0)
    (fun p c =>
      match p with
      | none => if c = ' ' then ([], some none) else ([], none)
      | some d =>
        if c = '(' then ([.start (if d = 0 then chars! "Folder" else chars! "Placemark") []], some (some (d + 1)))
        else if c = ')' then
          match d with
          | 0 => ([], none)
          | 1 => ([.stop (chars! "Folder")], some none)
          | d + 2 => ([.stop (chars! "Placemark")], some (some (d + 1)))
        else if c = ' ' then ([], some (some d))
        else ([.start (chars! "name") [], .chars [c], .stop (chars! "name")], some (some d)))
    (fun p => p.isNone)

example : brackets.Steady ∧ (brackets.pieces brackets.init [] (chars! "(7 (8)(9))")).2 = true ∧
    (match parseFromIstream NumLib.integers [] () brackets (some ⟨true, chars! "(7 (8)(9))", false⟩) with
      | .ok (some (some e), _) => some e.ty
      | _ => none) = some Ty.«Folder» :=
  ⟨machine_steady _ _ _, by decide +kernel, by decide +kernel⟩

/-- **C85, violated for a device that fails.** A read error is not reported: the XML parser is never told that the text
ended, and what was read so far is given out as a whole document, here a `Folder` that ought to have held a
`Placemark` and was never closed. -/
theorem C85_failing_violated :
    ∃ (x : Expat) (i : Istream), x.Steady ∧ i.good = true ∧ i.fails = true ∧
      (x.pieces x.init [] i.rest).2 = false ∧
      (match parseFromIstream NumLib.integers [] () x (some i) with
      | .ok (some (some e), _) => some e.ty
      | _ => none) = some Ty.«Folder» :=
  ⟨brackets, ⟨true, '(' :: List.replicate 4095 ' ' ++ chars! "(8)", true⟩, machine_steady _ _ _, rfl, rfl,
    by decide +kernel, by decide +kernel⟩

/-- **C85, violated for a stream that cannot be read.** A stream that is not good to begin with, such as one for a file
that could not be opened, gives a stream object that has no root, not NULL. -/
theorem C85_unreadable_violated (n : NumLib) (os : List (Observer σ)) (s : σ) (x : Expat) (rest : Str) (fails : Bool) :
    parseFromIstream n os s x (some ⟨false, rest, fails⟩) = .ok (some none, s) := rfl

end Kml.Dom
