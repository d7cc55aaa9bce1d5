import Verif.Lemmas.Handler

/-! The parser follows the recursive description of `Verif/Spec/Build.lean`: known elements. -/

namespace Kml.Dom

open Kml

variable {σ : Type}

theorem description_row :
    kml22Elements[Ty.«description»]? = some (chars! "description", .simple) := by decide +kernel

theorem description_id : Xsd.elementId (chars! "description") = Ty.«description» := by decide +kernel

theorem description_simple : Xsd.elementType Ty.«description» = .simple := by decide +kernel

theorem description_valid : Ty.«description» ≠ Ty.Unknown ∧ Ty.«description» ≠ Ty.«IconStyleIcon» := by
  decide

attribute [local irreducible] kml22Elements Xsd.tagToId classes inc dec uintSize

theorem description_name {name : Str} (h : Xsd.elementId name = Ty.«description») :
    name = chars! "description" := by
  obtain ⟨_, x, hx⟩ := Xsd.row_of_elementId (n := name) (by rw [h]; exact description_valid.1)
  rw [h, description_row] at hx
  simpa using (congrArg (Option.map Prod.fst) hx).symm

theorem makeElement_isSome (n : NumLib) (p : Option Ty) (name : Str) (attrs : List (Str × Str)) :
    (makeElement n p (Xsd.elementId name) attrs).isSome = isKnown name := by
  unfold makeElement isKnown
  cases Xsd.elementType (Xsd.elementId name) with
  | complex => cases classOf (Xsd.elementId name) <;> simp
  | simple => rfl
  | unknown => rfl

theorem makeElement_ty {n : NumLib} {p : Option Ty} {t : Ty} {attrs : List (Str × Str)} {e : Elem}
    (h : makeElement n p t attrs = some e) : e.ty = t ∨ e.ty = Ty.«IconStyleIcon» := by
  unfold makeElement at h
  split at h
  · split at h
    · cases h
    · simp only [Option.some.injEq] at h
      subst h
      show (if _ then _ else _) = _ ∨ _
      split
      · exact .inr rfl
      · exact .inl rfl
  · cases h; exact .inl rfl
  · cases h

theorem makeElement_description {n : NumLib} {p : Option Ty} {name : Str} {attrs : List (Str × Str)} {e : Elem}
    (h : makeElement n p (Xsd.elementId name) attrs = some e) :
    e.ty = Ty.«description» ↔ name = chars! "description" := by
  constructor
  · intro he
    rcases makeElement_ty h with h1 | h1
    · exact description_name (by rw [← h1, he])
    · rw [he] at h1; exact absurd h1 description_valid.2
  · intro hn
    rw [hn, description_id] at h
    unfold makeElement at h
    rw [description_simple] at h
    cases h; rfl

theorem get_attrMap_none {k : Str} (attrs : List (Str × Str)) (h : k ∉ attrs.map (·.1)) :
    (attrMap attrs).get k = none := by
  suffices ∀ (m : Attributes.Attributes), m.get k = none →
      (attrs.foldl (fun (m : Attributes.Attributes) e => m.set e.1 e.2) m).get k = none from this [] rfl
  induction attrs with
  | nil => intro m hm; exact hm
  | cons e r ih =>
    intro m hm
    simp only [List.map_cons, List.mem_cons, not_or] at h
    refine ih h.2 _ ?_
    rw [StdMap.get_set, if_neg (fun hx => h.1 hx.symm)]
    exact hm

theorem findOldSchemaName_nil {attrs : List (Str × Str)}
    (h : chars! "parent" ∈ attrs.map (·.1) → chars! "name" ∈ attrs.map (·.1) → False) :
    findOldSchemaName attrs [] = [] := by
  unfold findOldSchemaName
  split
  · rename_i hp
    have hp' : chars! "parent" ∈ attrs.map (·.1) := by
      apply Classical.byContradiction
      intro hx
      rw [get_attrMap_none attrs hx] at hp
      cases hp
    rw [get_attrMap_none attrs (h hp')]
    rfl
  · rfl

/-- The counters outside unknown elements and descriptions, with no old-style schema in force. -/
def Idle (h : Handler σ) : Prop :=
  h.stopped = false ∧ h.skip = 0 ∧ h.inDesc = 0 ∧ h.inOld = false ∧ h.oldName = [] ∧ h.nesting ≤ 100

theorem run_single (n : NumLib) (os : List (Observer σ)) (h : Handler σ) (ev : Ev) :
    h.run n os [ev] = h.step n os ev := by
  simp only [Handler.run]
  cases h.step n os ev <;> simp

/-- A run goes on as a description says. -/
def Leads {α : Type} (r : Outcome (Option α)) (run : Outcome (Handler σ)) (k : α → Outcome (Handler σ)) :
    Prop :=
  match r with
  | .ok (some a) => run = k a
  | .ok none => Stops run
  | .throws => run = .throws
  | .ub => run = .ub

/-- Joining with an arbitrary continuation. -/
theorem Follows.bind_run {α : Type} {n : NumLib} {os : List (Observer σ)} {r : Outcome (Option α)}
    {a b : List Ev} {h : Handler σ} {f : α → Handler σ} (hr : Follows r (h.run n os a) f)
    (hs : h.stopped = false) (hf : ∀ x, (f x).stopped = false) :
    Leads r (h.run n os (a ++ b)) (fun x => (f x).run n os b) := by
  unfold Leads
  rw [run_append n os a b h hs]
  cases r with
  | ok o =>
    cases o with
    | some x =>
      have hr' : h.run n os a = .ok (f x) := hr
      simp [hr', hf]
    | none =>
      have hr' : Stops (h.run n os a) := hr
      intro h' hh
      cases hrun : h.run n os a with
      | ok h1 =>
        have := hr' _ hrun
        rw [hrun] at hh
        simp only [Outcome.ok_bind, this, if_true, Outcome.ok.injEq] at hh
        exact hh ▸ this
      | throws => rw [hrun] at hh; cases hh
      | ub => rw [hrun] at hh; cases hh
  | throws =>
    have hr' : h.run n os a = .throws := hr
    simp [hr']
  | ub =>
    have hr' : h.run n os a = .ub := hr
    simp [hr']

theorem attach_top (n : NumLib) (os : List (Observer σ)) (h : Handler σ) (x y : Elem) (rest : List Elem)
    (child : Elem) : ({ h with stack := x :: rest } : Handler σ).attach n os child =
      ({ h with stack := y :: rest } : Handler σ).attach n os child := by
  cases rest <;> rfl

/-- The end tag of a known element, once its content is read. -/
theorem end_known (n : NumLib) (os : List (Observer σ)) (h : Handler σ) (name : Str) (e : Elem)
    (text : Str) (rest : List Elem) (crest : List Str) (hi : Idle h)
    (hst : h.stack = e :: rest) (hc : h.chars = text :: crest) :
    h.endPlain n os name = (finishElement n e text >>= fun e' =>
      ({ h with chars := crest } : Handler σ).attach n os e') := by
  obtain ⟨_, _, _, ho, hold, _⟩ := hi
  unfold Handler.endPlain
  simp only [hst, hc, ho, Bool.false_and]
  cases finishElement n e text with
  | ok e' =>
    simp only [Outcome.ok_bind, Handler.endOldSchema, hold, if_true]
  | throws => rfl
  | ub => rfl

/-- What the parser does with the text of a known element `e`. -/
theorem run_known (n : NumLib) (os : List (Observer σ)) (name : Str) (attrs : List (Str × Str))
    (ks : List Xml) (h : Handler σ) (hi : Idle h) (e : Elem) (hn : h.nesting + 1 ≤ 100)
    (hold : NotOldSchema name attrs)
    (hmake : makeElement n (h.stack.head?.map Elem.ty) (Xsd.elementId name) attrs = some e)
    (ih : name ≠ chars! "description" →
      ∀ (h : Handler σ) (cur : Elem) (rest : List Elem) (text : Str) (crest : List Str), Idle h →
      h.stack = cur :: rest → h.chars = text :: crest →
      Follows (buildKids n os h.nesting cur text h.obs ks) (h.run n os (eventsOf ks))
        (fun r => { h with stack := r.1 :: rest, chars := r.2.1 :: crest, obs := r.2.2 })) :
    Leads (buildKnown n os (h.nesting + 1) e h.obs (renderAll ks) (depthOf ks)
        (fun e s => buildKids n os (h.nesting + 1) e [] s ks))
      (h.run n os (.start name attrs :: eventsOf ks ++ [.stop name]))
      (fun r => ({ h with stack := r.1 :: h.stack, obs := r.2 } : Handler σ).attach n os r.1) := by
  obtain ⟨hs, hsk, hid, hio, hon, _⟩ := hi
  have hu := uintSize_val
  have hinc : inc h.nesting = h.nesting + 1 := inc_eq (by omega)
  have hinc0 : inc 0 = 1 := inc_eq (by omega)
  have hstart : h.startElement n os name attrs = .ok
      (({ h with nesting := h.nesting + 1, chars := [] :: h.chars } : Handler σ).startKnown os e) := by
    simp only [Handler.startElement, hinc, maxNestingDepth]
    rw [if_neg (by omega)]
    simp only [hid, hsk, Nat.lt_irrefl, gt_iff_lt, if_false, false_and]
    unfold Handler.startPlain
    have hname : (if name = chars! "Schema" then
        ({ h with nesting := h.nesting + 1, oldName := findOldSchemaName attrs h.oldName } : Handler σ)
        else { h with nesting := h.nesting + 1 }) = { h with nesting := h.nesting + 1 } := by
      split
      · rename_i hx
        rw [hon, findOldSchemaName_nil (hold hx)]
      · rfl
    simp only [hid, hsk] at hname
    simp only [hname]
    simp only [typeOfName, hon, ne_eq, not_true_eq_false, false_and, if_false]
    rw [hmake]
  rw [List.cons_append]
  simp only [Handler.run, Handler.step, hstart, Outcome.ok_bind]
  have hd := makeElement_description hmake
  unfold buildKnown
  cases hcall : callAll (fun o s => o.new s e) os h.obs with
  | mk agreed s =>
  cases agreed with
  | false =>
    simp only
    have hst : (({ h with nesting := h.nesting + 1, chars := [] :: h.chars } : Handler σ).startKnown
        os e).stopped = true := by
      unfold Handler.startKnown
      by_cases hx : e.ty = Ty.«description»
      · simp [hx, hcall]
      · simp [hx, hcall]
    rw [hst]
    simp only [if_true]
    intro h' hh
    simp only [Outcome.ok.injEq] at hh
    rw [← hh]; exact hst
  | true =>
    simp only
    by_cases hdesc : e.ty = Ty.«description»
    · -- a description
      rw [if_pos hdesc]
      have hk : ({ h with nesting := h.nesting + 1, chars := [] :: h.chars } : Handler σ).startKnown os e =
          { h with
                nesting := h.nesting + 1, chars := [] :: h.chars, stack := e :: h.stack, skip := 1, inDesc := 1, obs := s } := by
        unfold Handler.startKnown
        simp [hdesc, hcall, hsk, hid, hinc0]
      rw [hk]
      simp only [hs]
      have hq := skip_all n os ks { h with
                nesting := h.nesting + 1, chars := [] :: h.chars, stack := e :: h.stack, skip := 1, inDesc := 1, obs := s, stopped := false } [] h.chars rfl
        ⟨rfl, hn, Nat.one_pos, by show 1 + (100 - (h.nesting + 1)) + 1 < uintSize; omega,
          .inr ⟨Nat.one_pos, by show 1 + (100 - (h.nesting + 1)) + 1 < uintSize; omega⟩⟩
      have hb := Follows.bind_run (b := [.stop name]) hq rfl (fun _ => rfl)
      simp only [List.nil_append] at hb
      by_cases hx : h.nesting + 1 + depthOf ks > 100
      · simp only [hx, if_true] at hb ⊢
        exact hb
      · simp only [hx, if_false] at hb ⊢
        rw [show (if false = true then
          Outcome.ok ({ h with
                nesting := h.nesting + 1, chars := [] :: h.chars, stack := e :: h.stack, skip := 1, inDesc := 1, obs := s, stopped := false } : Handler σ) else
          Handler.run n os ({ h with
                nesting := h.nesting + 1, chars := [] :: h.chars, stack := e :: h.stack, skip := 1, inDesc := 1, obs := s, stopped := false } : Handler σ)
            (eventsOf ks ++ [.stop name])) = _ from hb]
        simp (config := { failIfUnchanged := false }) only [run_single]
        have hend : Handler.step n os ({ h with
                nesting := h.nesting + 1, chars := renderAll ks :: h.chars, stack := e :: h.stack, skip := 1, inDesc := 1, obs := s, stopped := false } : Handler σ)
            (.stop name) =
            Handler.endPlain n os ({ h with
                chars := renderAll ks :: h.chars, stack := e :: h.stack, obs := s, stopped := false } : Handler σ) name := by
          simp only [Handler.step, Handler.endElement, Handler.leaveDescription,
            dec_succ (show h.nesting < uintSize by omega), hd.1 hdesc, if_true,
            dec_succ (show 0 < uintSize by omega)]
          rw [if_neg (by decide)]
          cases h; simp_all
        simp (config := { failIfUnchanged := false }) only
        rw [hend, end_known n os ({ h with
                chars := renderAll ks :: h.chars, stack := e :: h.stack, obs := s, stopped := false } : Handler σ)
            name e (renderAll ks) h.stack h.chars
          ⟨rfl, hsk, hid, hio, hon, by show h.nesting ≤ 100; omega⟩ rfl rfl]
        cases finishElement n e (renderAll ks) with
        | ok e' =>
          simp only [Outcome.ok_bind, Leads]
          cases h.stack <;> rfl
        | throws => rfl
        | ub => rfl
    · rw [if_neg hdesc]
      have hndesc : name ≠ chars! "description" := fun hx => hdesc (hd.2 hx)
      have hk : ({ h with nesting := h.nesting + 1, chars := [] :: h.chars } : Handler σ).startKnown os e =
          { h with nesting := h.nesting + 1, chars := [] :: h.chars, stack := e :: h.stack, obs := s } := by
        unfold Handler.startKnown
        simp [hdesc, hcall]
      rw [hk]
      simp only [hs]
      have hq := ih hndesc { h with
                nesting := h.nesting + 1, chars := [] :: h.chars, stack := e :: h.stack, obs := s, stopped := false } e h.stack [] h.chars
          ⟨rfl, hsk, hid, hio, hon, hn⟩ rfl rfl
      have hb := Follows.bind_run (b := [.stop name]) hq rfl (fun _ => rfl)
      simp only at hb
      cases hbuild : buildKids n os (h.nesting + 1) e [] s ks with
      | ok o =>
        cases o with
        | some r =>
          obtain ⟨e1, text, s1⟩ := r
          simp only [hbuild] at hb
          simp only [Outcome.ok_bind]
          rw [show (if false = true then
            Outcome.ok ({ h with
                nesting := h.nesting + 1, chars := [] :: h.chars, stack := e :: h.stack, obs := s, stopped := false } : Handler σ) else
            Handler.run n os ({ h with
                nesting := h.nesting + 1, chars := [] :: h.chars, stack := e :: h.stack, obs := s, stopped := false } : Handler σ)
              (eventsOf ks ++ [.stop name])) = _ from hb]
          simp (config := { failIfUnchanged := false }) only [run_single]
          have hend : Handler.step n os ({ h with
                nesting := h.nesting + 1, chars := text :: h.chars, stack := e1 :: h.stack, obs := s1, stopped := false } : Handler σ)
              (.stop name) =
              Handler.endPlain n os ({ h with
                chars := text :: h.chars, stack := e1 :: h.stack, obs := s1, stopped := false } : Handler σ) name := by
            simp only [Handler.step, Handler.endElement, Handler.leaveDescription,
              dec_succ (show h.nesting < uintSize by omega)]
            rw [if_neg hndesc, if_neg (by rw [show h.skip = 0 from hsk]; decide)]
          simp (config := { failIfUnchanged := false }) only
          rw [hend, end_known n os ({ h with
                chars := text :: h.chars, stack := e1 :: h.stack, obs := s1, stopped := false } : Handler σ)
            name e1 text h.stack h.chars
            ⟨rfl, hsk, hid, hio, hon, by show h.nesting ≤ 100; omega⟩ rfl rfl]
          cases finishElement n e1 text with
          | ok e' =>
            simp only [Outcome.ok_bind]
            simp only [Leads]
            cases h.stack <;> rfl
          | throws => rfl
          | ub => rfl
        | none =>
          simp only [hbuild] at hb
          exact hb
      | throws => simp only [hbuild] at hb; exact hb
      | ub => simp only [hbuild] at hb; exact hb

/-- Start tags of unknown elements. -/
theorem start_unknown (n : NumLib) (os : List (Observer σ)) (name : Str) (attrs : List (Str × Str))
    (h : Handler σ) (hi : Idle h) (hn : h.nesting + 1 ≤ 100) (hold : NotOldSchema name attrs)
    (hmake : makeElement n (h.stack.head?.map Elem.ty) (Xsd.elementId name) attrs = none) :
    h.startElement n os name attrs =
      ({ h with
          nesting := h.nesting + 1, chars := [] :: h.chars } : Handler σ).startUnknown name attrs := by
  obtain ⟨hs, hsk, hid, hio, hon, _⟩ := hi
  have hu := uintSize_val
  have hinc : inc h.nesting = h.nesting + 1 := inc_eq (by omega)
  simp only [Handler.startElement, hinc, maxNestingDepth]
  rw [if_neg (by omega)]
  simp only [hid, hsk, Nat.lt_irrefl, gt_iff_lt, if_false, false_and]
  unfold Handler.startPlain
  have hname : (if name = chars! "Schema" then
      ({ h with
          nesting := h.nesting + 1, oldName := findOldSchemaName attrs h.oldName } : Handler σ)
      else { h with nesting := h.nesting + 1 }) = { h with nesting := h.nesting + 1 } := by
    split
    · rename_i hx
      rw [hon, findOldSchemaName_nil (hold hx)]
    · rfl
  simp only [hid, hsk] at hname
  simp only [hname]
  simp only [typeOfName, hon, ne_eq, not_true_eq_false, false_and, if_false, and_false]
  rw [hmake]

/-- One child element of a known element. -/
theorem run_child (n : NumLib) (os : List (Observer σ)) (name : Str) (attrs : List (Str × Str))
    (ks : List Xml) (h : Handler σ) (cur : Elem) (rest : List Elem) (text : Str) (crest : List Str)
    (hi : Idle h) (hst : h.stack = cur :: rest) (hc : h.chars = text :: crest)
    (hold : NotOldSchema name attrs)
    (htame : (Xml.elem name attrs ks).Tame)
    (ih : TameAll ks →
      ∀ (h : Handler σ) (cur : Elem) (rest : List Elem) (text : Str) (crest : List Str), Idle h →
      h.stack = cur :: rest → h.chars = text :: crest →
      Follows (buildKids n os h.nesting cur text h.obs ks) (h.run n os (eventsOf ks))
        (fun r => { h with stack := r.1 :: rest, chars := r.2.1 :: crest, obs := r.2.2 })) :
    Follows (buildChild n os h.nesting cur text h.obs name attrs (Xml.elem name attrs ks).render
        (renderAll ks) (depthOf ks) (fun e s => buildKids n os (h.nesting + 1) e [] s ks))
      (h.run n os (.start name attrs :: eventsOf ks ++ [.stop name]))
      (fun r => { h with stack := r.1 :: rest, chars := r.2.1 :: crest, obs := r.2.2 }) := by
  have hu := uintSize_val
  have hs := hi.1
  unfold buildChild
  by_cases hn : h.nesting + 1 > 100
  · rw [if_pos hn]
    have hinc : inc h.nesting = h.nesting + 1 := inc_eq (by have := hi.2.2.2.2.2; omega)
    show Stops _
    intro h' hh
    rw [List.cons_append] at hh
    simp only [Handler.run, Handler.step, Handler.startElement, hinc, maxNestingDepth] at hh
    rw [if_pos hn] at hh
    simp only [Outcome.ok_bind, if_true, Outcome.ok.injEq] at hh
    rw [← hh]
  · rw [if_neg hn]
    have hhead : h.stack.head?.map Elem.ty = some cur.ty := by rw [hst]; rfl
    cases hmake : makeElement n (some cur.ty) (Xsd.elementId name) attrs with
    | none =>
      have hstart := start_unknown n os name attrs h hi (by omega) hold (by rw [hhead]; exact hmake)
      have hunk : isKnown name = false := by
        have := makeElement_isSome n (some cur.ty) name attrs
        rw [hmake] at this; exact this.symm
      have hndesc : name ≠ chars! "description" := by
        intro hx
        rw [hx] at hunk
        have : isKnown (chars! "description") = true := by
          unfold isKnown
          rw [description_id, description_simple]
        rw [this] at hunk
        cases hunk
      have hkids : NoDesc ks := by
        have := htame
        simp only [Xml.Tame] at this
        rw [if_neg hndesc, if_neg (by rw [hunk]; decide)] at this
        exact this
      obtain ⟨hs', hsk, hid, hio, hon, hle⟩ := hi
      have hinc0 : inc 0 = 1 := inc_eq (by omega)
      simp only [Handler.startUnknown, hst, appendTop, Outcome.ok_bind, hsk, hinc0,
        List.nil_append] at hstart
      rw [List.cons_append]
      simp only [Handler.run, Handler.step, hstart, Outcome.ok_bind, hs]
      have hq := skip_all n os ks { h with
          nesting := h.nesting + 1, chars := startText name attrs :: h.chars, stack := cur :: rest,
          skip := 1, stopped := false } (startText name attrs) h.chars rfl
        ⟨rfl, by show h.nesting + 1 ≤ 100; omega, Nat.one_pos, by
          show 1 + (100 - (h.nesting + 1)) + 1 < uintSize; omega, .inl ⟨hid, hkids⟩⟩
      have hb := Follows.bind_run (b := [.stop name]) hq rfl (fun _ => rfl)
      by_cases hx : h.nesting + 1 + depthOf ks > 100
      · simp only [hx, if_true] at hb ⊢
        exact hb
      · simp only [hx, if_false] at hb ⊢
        have hb' : Handler.run n os ({ h with
              nesting := h.nesting + 1, chars := startText name attrs :: h.chars, stack := cur :: rest,
              skip := 1, stopped := false } : Handler σ) (eventsOf ks ++ [.stop name]) =
            Handler.run n os ({ h with
              nesting := h.nesting + 1, chars := (startText name attrs ++ renderAll ks) :: h.chars,
              stack := cur :: rest, skip := 1, stopped := false } : Handler σ) [.stop name] := hb
        have hend : Handler.step n os ({ h with
              nesting := h.nesting + 1, chars := (startText name attrs ++ renderAll ks) :: h.chars,
              stack := cur :: rest, skip := 1, stopped := false } : Handler σ) (.stop name) =
            .ok { h with
              stack := addUnknownElement cur ((Xml.elem name attrs ks).render ++ ['\n']) :: rest,
              chars := h.chars, stopped := false } := by
          simp only [Handler.step, Handler.endElement, Handler.leaveDescription,
            dec_succ (show h.nesting < uintSize by omega)]
          rw [if_neg hndesc, if_pos Nat.one_pos]
          simp only [Handler.endUnknown, appendTop, Outcome.ok_bind,
            dec_succ (show 0 < uintSize by omega), if_true, whole_eq, hsk]
        rw [run_single, hend] at hb'
        rw [hc] at hb'
        show (if false = true then _ else Handler.run n os _ _) = _
        rw [if_neg (by decide)]
        simp only [hc]
        rw [hb']
    | some e =>
      simp only
      have hk := run_known n os name attrs ks h hi e (by omega) hold (by rw [hhead]; exact hmake) (by
        intro hndesc
        apply ih
        have := htame
        simp only [Xml.Tame] at this
        have hkn : isKnown name = true := by
          have := makeElement_isSome n (some cur.ty) name attrs
          rw [hmake] at this; exact this.symm
        rw [if_neg hndesc, if_pos hkn] at this
        exact this)
      cases hb : buildKnown n os (h.nesting + 1) e h.obs (renderAll ks) (depthOf ks)
        (fun e s => buildKids n os (h.nesting + 1) e [] s ks) with
      | ok o =>
        rw [hb] at hk
        cases o with
        | none => exact hk
        | some r =>
          obtain ⟨child, s⟩ := r
          have hk' : h.run n os (.start name attrs :: eventsOf ks ++ [.stop name]) =
            ({ h with stack := child :: h.stack, obs := s } : Handler σ).attach n os child := hk
          rw [hk']
          simp only [Outcome.ok_bind, Handler.attach, handOver, hst]
          cases hg : giveChild n (callAll (fun o s => o.endElement s cur child) os s).1 cur child with
          | ok p =>
            simp only [Outcome.ok_bind]
            cases hr : callAll (fun o s => o.addChild s p child) os
                (callAll (fun o s => o.endElement s cur child) os s).2 with
            | mk agreed s2 =>
              cases agreed with
              | true => simp [Follows, hs, hc]
              | false =>
                simp only
                show Stops _
                intro h' hh
                simp only [Outcome.ok.injEq] at hh
                rw [← hh]
                simp
          | throws => rfl
          | ub => rfl
      | throws => rw [hb] at hk; exact hk
      | ub => rw [hb] at hk; exact hk

/-- Character data of a known element. -/
theorem run_text (n : NumLib) (os : List (Observer σ)) (s : Str) (h : Handler σ) (cur : Elem)
    (rest : List Elem) (text : Str) (crest : List Str) (hi : Idle h) (hst : h.stack = cur :: rest)
    (hc : h.chars = text :: crest) :
    Follows (buildKid n os h.nesting cur text h.obs (.text s)) (h.run n os (Xml.text s).events)
      (fun r => { h with stack := r.1 :: rest, chars := r.2.1 :: crest, obs := r.2.2 }) := by
  have := run_chars n os s h text crest hi.1 hc
  cases h
  simp_all [Follows, buildKid, Xml.events]

theorem kids_nil (n : NumLib) (os : List (Observer σ)) (h : Handler σ) (cur : Elem)
    (rest : List Elem) (text : Str) (crest : List Str) (hst : h.stack = cur :: rest)
    (hc : h.chars = text :: crest) :
    Follows (buildKids n os h.nesting cur text h.obs []) (h.run n os (eventsOf []))
      (fun r => { h with stack := r.1 :: rest, chars := r.2.1 :: crest, obs := r.2.2 }) := by
  cases h
  simp_all [Follows, buildKids, eventsOf, Handler.run]

mutual

theorem run_kid (n : NumLib) (os : List (Observer σ)) : ∀ (x : Xml), x.All NotOldSchema → x.Tame →
    ∀ (h : Handler σ) (cur : Elem) (rest : List Elem) (text : Str) (crest : List Str), Idle h →
      h.stack = cur :: rest → h.chars = text :: crest →
      Follows (buildKid n os h.nesting cur text h.obs x) (h.run n os x.events)
        (fun r => { h with stack := r.1 :: rest, chars := r.2.1 :: crest, obs := r.2.2 })
  | .text s, _, _, h, cur, rest, text, crest, hi, hst, hc => run_text n os s h cur rest text crest hi hst hc
  | .empty name attrs, ho, _, h, cur, rest, text, crest, hi, hst, hc => by
    have htame : (Xml.elem name attrs []).Tame := by
      simp only [Xml.Tame]
      split
      · trivial
      · split <;> simp [TameAll, AllOf]
    have := run_child n os name attrs [] h cur rest text crest hi hst hc ho htame
      (fun _ h cur rest text crest _ hst hc => kids_nil n os h cur rest text crest hst hc)
    rw [show Ev.start name attrs :: eventsOf [] ++ [Ev.stop name] = [.start name attrs, .stop name] from
      rfl] at this
    have h2 := Follows.empty this (fun _ => hi.1)
    have he : (Xml.elem name attrs []).render = (Xml.empty name attrs).render := by
      simp [Xml.render, renderAll]
    rw [he] at h2
    exact h2
  | .elem name attrs ks, ho, ht, h, cur, rest, text, crest, hi, hst, hc =>
    run_child n os name attrs ks h cur rest text crest hi hst hc ho.1 ht
      (fun htk => run_kids n os ks ho.2 htk)

theorem run_kids (n : NumLib) (os : List (Observer σ)) : ∀ (xs : List Xml), AllOf NotOldSchema xs →
    TameAll xs → ∀ (h : Handler σ) (cur : Elem) (rest : List Elem) (text : Str) (crest : List Str), Idle h →
      h.stack = cur :: rest → h.chars = text :: crest →
      Follows (buildKids n os h.nesting cur text h.obs xs) (h.run n os (eventsOf xs))
        (fun r => { h with stack := r.1 :: rest, chars := r.2.1 :: crest, obs := r.2.2 })
  | [], _, _, h, cur, rest, text, crest, _, hst, hc => kids_nil n os h cur rest text crest hst hc
  | x :: xs, ho, ht, h, cur, rest, text, crest, hi, hst, hc => by
    have h1 := run_kid n os x ho.1 ht.1 h cur rest text crest hi hst hc
    have h2 := Follows.append (b := eventsOf xs) h1 hi.1 (fun _ => hi.1)
      (g := fun r => buildKids n os h.nesting r.1 r.2.1 r.2.2 xs)
      (f' := fun r => { h with stack := r.1 :: rest, chars := r.2.1 :: crest, obs := r.2.2 })
      (fun r => run_kids n os xs ho.2 ht.2
        { h with stack := r.1 :: rest, chars := r.2.1 :: crest, obs := r.2.2 } r.1 rest r.2.1 crest hi rfl rfl)
    rw [buildKids, show eventsOf (x :: xs) = x.events ++ eventsOf xs from rfl]
    cases hb : buildKid n os h.nesting cur text h.obs x with
    | ok o => cases o <;> (rw [hb] at h2; exact h2)
    | throws => rw [hb] at h2; exact h2
    | ub => rw [hb] at h2; exact h2

end

/-- A whole document. -/
theorem run_root (n : NumLib) (os : List (Observer σ)) (s : σ) (name : Str) (attrs : List (Str × Str))
    (ks : List Xml) (hold : (Xml.elem name attrs ks).All NotOldSchema) (htame : (Xml.elem name attrs ks).Tame) :
    match buildRoot n os s name attrs ks with
    | .ok (some (e, s')) => parseEvents n os s (Xml.elem name attrs ks).events = .ok (some e, s')
    | .ok none => ∀ r, parseEvents n os s (Xml.elem name attrs ks).events = .ok r → r.1 = none
    | .throws => parseEvents n os s (Xml.elem name attrs ks).events = .throws
    | .ub => parseEvents n os s (Xml.elem name attrs ks).events = .ub := by
  have hi : Idle (Handler.init s) := ⟨rfl, rfl, rfl, rfl, rfl, Nat.zero_le _⟩
  unfold buildRoot parseEvents
  cases hmake : makeElement n none (Xsd.elementId name) attrs with
  | none =>
    have hstart := start_unknown n os name attrs (Handler.init s) hi (Nat.succ_le_of_lt (by decide : 0 < 100)) hold.1 hmake
    intro r hr
    simp only [Xml.events, List.cons_append, Handler.run, Handler.step, hstart] at hr
    simp only [Handler.startUnknown, Handler.init, Outcome.ok_bind, if_true, Outcome.ok.injEq] at hr
    rw [← hr]
  | some e =>
    simp only
    have hk := run_known n os name attrs ks (Handler.init s) hi e (Nat.succ_le_of_lt (by decide : 0 < 100)) hold.1 hmake (by
      intro hndesc
      apply run_kids n os ks hold.2
      have := htame
      simp only [Xml.Tame] at this
      have hkn : isKnown name = true := by
        have := makeElement_isSome n none name attrs
        rw [hmake] at this; exact this.symm
      rw [if_neg hndesc, if_pos hkn] at this
      exact this)
    have hz : (Handler.init s).nesting + 1 = 1 := rfl
    rw [hz] at hk
    show match buildKnown n os 1 e s _ _ _ with
      | .ok (some (e, s')) => _
      | .ok none => _
      | .throws => _
      | .ub => _
    cases hb : buildKnown n os 1 e s (renderAll ks) (depthOf ks)
      (fun e s => buildKids n os 1 e [] s ks) with
    | ok o =>
      rw [show (Handler.init s).obs = s from rfl, hb] at hk
      cases o with
      | none =>
        intro r hr
        have hk' : Stops ((Handler.init s).run n os (Xml.elem name attrs ks).events) := hk
        cases hrun : (Handler.init s).run n os (Xml.elem name attrs ks).events with
        | ok h1 =>
          rw [hrun] at hr
          simp only [Outcome.ok_bind, hk' _ hrun, if_true, Outcome.ok.injEq] at hr
          rw [← hr]
        | throws => rw [hrun] at hr; cases hr
        | ub => rw [hrun] at hr; cases hr
      | some r =>
        obtain ⟨e', s'⟩ := r
        have hk' : (Handler.init s).run n os (Xml.elem name attrs ks).events = _ := hk
        simp only [hk']
        rfl
    | throws =>
      rw [show (Handler.init s).obs = s from rfl, hb] at hk
      have hk' : (Handler.init s).run n os (Xml.elem name attrs ks).events = _ := hk
      simp only [hk']; rfl
    | ub =>
      rw [show (Handler.init s).obs = s from rfl, hb] at hk
      have hk' : (Handler.init s).run n os (Xml.elem name attrs ks).events = _ := hk
      simp only [hk']; rfl

end Kml.Dom
