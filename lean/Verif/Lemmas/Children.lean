import Verif.Lemmas.SafeBuild
import Verif.Spec.Children

/-! # Lemmas on children -/

namespace Kml.Dom

open Kml

/-- Whether a write writes the values of member `m` under the tag `t`. -/
def tagOk (t : Ty) (m : Mem) (k : Kind) : Write → Bool
  | .field m' t' | .color m' t' | .vec3 m' t' => m' = m && t' = t
  | .enum m' t' => m' = m && t' = t && k = .enum && (Xsd.enumId t []).isNone
  | _ => false

/-- Whether a write writes the elements of member `m`. -/
def elemOk (m : Mem) : Write → Bool
  | .elem m' | .array m' | .group m' _ | .groupArray m' _ => m' = m
  | _ => false

/-- Whether what a branch takes is written. -/
def writtenRule (c : Class) (r : Rule) : Bool :=
  match r with
  | (.ty t, .field m k) => c.writes.any (tagOk t m k)
  | (.ty t, .fields m k) => k ≠ .enum && c.writes.any (tagOk t m k)
  | (_, .one m) | (_, .many m) => c.writes.any (elemOk m)
  | (_, .selfText m) => c.writes.any fun w => match w with | .content m' _ => m' = m | _ => false
  | (_, .selfPoints m) => c.writes.any fun w => match w with | .points m' => m' = m | _ => false
  | _ => false

/-- The branches that can be reached: those with no earlier branch with the same test. -/
def reachable : List Rule → List Rule
  | [] => []
  | r :: rs => r :: (reachable rs).filter fun r' => r'.1 ≠ r.1

theorem find_reachable (rules : List Rule) (e : Elem) {r : Rule}
    (h : rules.find? (fun r => r.1.matches e) = some r) : r ∈ reachable rules := by
  induction rules with
  | nil => cases h
  | cons x xs ih =>
    rw [List.find?_cons] at h
    split at h
    · cases h; exact List.mem_cons_self ..
    · rename_i hx
      refine List.mem_cons_of_mem _ (List.mem_filter.2 ⟨ih h, ?_⟩)
      have := List.find?_some h
      simp only [decide_eq_true_eq]
      intro heq
      rw [heq, hx] at this
      cases this

/-- The one branch whose value is not written: the name of a locality (xal.cc). -/
def unwritten (t : Ty) (r : Rule) : Bool :=
  t = Ty.«XalLocality» && r = (.ty Ty.«xalLocalityName», .field M.«localityname» .str)

theorem classes_written : (classes.all fun p => (reachable p.2.rules).all fun r =>
    unwritten p.1 r || writtenRule p.2 r) = true := by decide +kernel

theorem classes_nodup : (classes.all fun p => decide (p.2.writes.map Write.mem).Nodup) = true := by
  decide +kernel

theorem classes_one_act : (classes.all fun p => p.2.rules.all fun r => p.2.rules.all fun r' =>
    r.2.mem != r'.2.mem || r.2 == r'.2) = true := by decide +kernel

theorem classes_self : (classes.all fun p => p.2.rules.all fun r =>
    textual p.1 || match r.2 with | .selfText _ => false | .selfPoints _ => false | _ => true) = true := by
  decide +kernel

theorem classes_simple : (classes.all fun p => Xsd.elementType p.1 != .simple) = true := by decide +kernel

theorem classes_tested : (classes.all fun p => p.2.rules.all fun r =>
    match r with
    | (.ty t, .field _ _) | (.ty t, .fields _ _) => Xsd.elementType t = .simple
    | (_, .field _ _) | (_, .fields _ _) => false
    | _ => true) = true := by
  decide +kernel

theorem classes_reads : (classes.all fun p => decide (p.2.reads.map (·.1)).Nodup &&
    p.2.reads.all fun r => p.2.sets.contains r.1) = true := by decide +kernel

theorem classOf_snippet : classOf Ty.«Snippet» = some Snippet.cls := by rfl
theorem classOf_linkSnippet : classOf Ty.«linkSnippet» = some LinkSnippet.cls := by rfl
theorem classOf_coordinates : classOf Ty.«coordinates» = some Coordinates.cls := by rfl
theorem classOf_simpleData : classOf Ty.«SimpleData» = some SimpleData.cls := by rfl

attribute [local irreducible] kml22Elements Xsd.tagToId classes inc dec uintSize

theorem classOf_pair {t : Ty} {c : Class} (h : classOf t = some c) : (t, c) ∈ classes := by
  unfold classOf at h
  cases hf : classes.find? fun e => e.1 = t with
  | none => rw [hf] at h; cases h
  | some p =>
    rw [hf] at h
    simp only [Option.map_some, Option.some.injEq] at h
    have h1 := List.find?_some hf
    simp only [decide_eq_true_eq] at h1
    have := List.mem_of_find?_eq_some hf
    rw [← h, ← h1]
    exact this

theorem classAt_eq {t : Ty} {c : Class} (h : classOf t = some c) : classAt t = c := by
  simp [classAt, h]

/-- The new content of a member. -/
def Act.value (n : NumLib) (charData : Str) (old : List Elem) (child : Elem) : Act → Outcome (List Elem)
  | .field _ k =>
    match child with
    | .field t text => do
      let v ← readValue n k t (single old) text
      .ok (v.map (Elem.field t)).toList
    | .node .. => .ok []
  | .fields _ k =>
    match child with
    | .field t text => do
      let v ← readValue n k t none text
      .ok (old ++ (v.map (Elem.field t)).toList)
    | .node .. => .ok old
  | .one _ => .ok [child]
  | .many _ => .ok (old ++ [child])
  | .selfText _ => .ok [.field Ty.Unknown charData]
  | .selfPoints _ => do
    let pts ← readPoints n charData
    .ok (old ++ pts)

theorem setSlot_self (slots : Mem → List Elem) (m : Mem) : setSlot slots m (slots m) = slots := by
  funext i
  unfold setSlot
  split
  · rename_i h; rw [h]
  · rfl

theorem apply_eq (n : NumLib) (cd : Str) (slots : Mem → List Elem) (child : Elem) (act : Act) :
    act.apply n cd slots child = (do
      let v ← act.value n cd (slots act.mem) child
      .ok (setSlot slots act.mem v)) := by
  cases act with
  | field m k =>
    cases child with
    | field t text =>
      simp only [Act.apply, Act.value, Act.mem]
      cases readValue n k t (single (slots m)) text <;> rfl
    | node => rfl
  | fields m k =>
    cases child with
    | field t text =>
      simp only [Act.apply, Act.value, Act.mem]
      cases readValue n k t none text <;> rfl
    | node => simp only [Act.apply, Act.value, Act.mem, Outcome.ok_bind, setSlot_self]
  | one m => rfl
  | many m => rfl
  | selfText m => rfl
  | selfPoints m =>
    simp only [Act.apply, Act.value, Act.mem]
    cases readPoints n cd <;> rfl

/-- The new contents of all members. -/
theorem addElement_node {n : NumLib} {cd : Str} {t : Ty} {a : Attrs} {slots : Mem → List Elem}
    {mis : List Elem} {unk : List Str} {child r : Elem}
    (h : addElement n cd (.node t a slots mis unk) child = .ok r) :
    (taker t child = none ∧ r = .node t a slots (mis ++ [child]) unk) ∨
    ∃ act v, taker t child = some act ∧ act.value n cd (slots act.mem) child = .ok v ∧
      r = .node t a (setSlot slots act.mem v) mis unk := by
  unfold addElement at h
  unfold taker
  simp only at h
  cases hc : classOf t with
  | none =>
    rw [hc] at h
    simp only [Outcome.ok.injEq] at h
    exact Or.inl ⟨rfl, h.symm⟩
  | some c =>
    rw [hc] at h
    simp only at h
    cases hf : findRule c.rules child with
    | none =>
      rw [hf] at h
      simp only [Outcome.ok.injEq] at h
      exact Or.inl ⟨hf, h.symm⟩
    | some act =>
      rw [hf] at h
      simp only [apply_eq] at h
      refine Or.inr ⟨act, ?_⟩
      cases hv : act.value n cd (slots act.mem) child with
      | ok v =>
        rw [hv] at h
        simp only [Outcome.ok_bind, Outcome.ok.injEq] at h
        exact ⟨v, hf, rfl, h.symm⟩
      | throws => rw [hv] at h; cases h
      | ub => rw [hv] at h; cases h

/-- The contents of a member after a sequence of children. -/
def foldMem (n : NumLib) (t : Ty) : List Elem → List Elem → Outcome (List Elem)
  | old, [] => .ok old
  | old, c :: cs =>
    match taker t c with
    | none => foldMem n t old cs
    | some act => do
      let v ← act.value n [] old c
      foldMem n t v cs

theorem addAll_node {n : NumLib} {t : Ty} {a : Attrs} {unk : List Str} : ∀ {cs : List Elem}
    {slots : Mem → List Elem} {mis : List Elem} {r : Elem},
    addAll n (.node t a slots mis unk) cs = .ok r →
    ∃ slots', r = .node t a slots' (mis ++ homeless t cs) unk ∧
      ∀ m, foldMem n t (slots m) (goesTo t m cs) = .ok (slots' m)
  | [], slots, mis, r, h => by
    simp only [addAll, Outcome.ok.injEq] at h
    exact ⟨slots, by simp [homeless, ← h], fun m => rfl⟩
  | c :: cs, slots, mis, r, h => by
    rw [addAll] at h
    cases he : addElement n [] (.node t a slots mis unk) c with
    | ok e =>
      rw [he] at h
      simp only [Outcome.ok_bind] at h
      rcases addElement_node he with ⟨ht, rfl⟩ | ⟨act, v, ht, hv, rfl⟩
      · obtain ⟨slots', h1, h2⟩ := addAll_node h
        refine ⟨slots', ?_, fun m => ?_⟩
        · rw [h1, List.append_assoc]
          simp [homeless, ht]
        · have := h2 m
          simpa [goesTo, ht] using this
      · obtain ⟨slots', h1, h2⟩ := addAll_node h
        refine ⟨slots', ?_, fun m => ?_⟩
        · rw [h1]
          simp [homeless, ht]
        · have := h2 m
          unfold setSlot at this
          by_cases hm : m = act.mem
          · subst hm
            rw [if_pos rfl] at this
            have hg : goesTo t act.mem (c :: cs) = c :: goesTo t act.mem cs := by simp [goesTo, ht]
            rw [hg, foldMem, ht]
            simp only [hv, Outcome.ok_bind]
            exact this
          · rw [if_neg hm] at this
            have hg : goesTo t m (c :: cs) = goesTo t m cs := by
              unfold goesTo
              rw [List.filter_cons_of_neg]
              simp only [ht, Option.map_some, Option.some.injEq, decide_eq_true_eq]
              exact fun hx => hm hx.symm
            rw [hg]
            exact this
    | throws => rw [he] at h; cases h
    | ub => rw [he] at h; cases h

theorem taker_rule {t : Ty} {child : Elem} {act : Act} (h : taker t child = some act) :
    ∃ c test, classOf t = some c ∧ (t, c) ∈ classes ∧ (test, act) ∈ reachable c.rules ∧
      (test, act) ∈ c.rules ∧ test.matches child = true := by
  unfold taker at h
  cases hc : classOf t with
  | none => rw [hc] at h; cases h
  | some c =>
    rw [hc] at h
    simp only [findRule, Option.map_eq_some_iff] at h
    obtain ⟨r, hr, rfl⟩ := h
    exact ⟨c, r.1, rfl, classOf_pair hc, find_reachable c.rules child hr, List.mem_of_find?_eq_some hr,
      List.find?_some (p := fun r : Rule => r.1.matches child) hr⟩

/-- All branches into the same member are the same. -/
theorem taker_same {t : Ty} {c c' : Elem} {act act' : Act} (h : taker t c = some act)
    (h' : taker t c' = some act') (hm : act.mem = act'.mem) : act = act' := by
  obtain ⟨k, test, hk, hmem, _, hr, _⟩ := taker_rule h
  obtain ⟨k', test', hk', _, _, hr', _⟩ := taker_rule h'
  rw [hk] at hk'
  cases hk'
  have := List.all_eq_true.1 (List.all_eq_true.1 (List.all_eq_true.1 classes_one_act _ hmem) _ hr) _ hr'
  simp only [Bool.or_eq_true, bne_iff_ne, beq_iff_eq] at this
  rcases this with hx | hx
  · exact absurd hm hx
  · exact hx

theorem foldMem_many {n : NumLib} {t : Ty} {m : Mem} : ∀ {cs old : List Elem},
    (∀ e ∈ cs, taker t e = some (.many m)) → foldMem n t old cs = .ok (old ++ cs)
  | [], old, _ => by simp [foldMem]
  | c :: cs, old, h => by
    rw [foldMem, h c (List.mem_cons_self ..)]
    simp only [Act.value, Outcome.ok_bind]
    rw [foldMem_many fun e he => h e (List.mem_cons_of_mem _ he)]
    simp

theorem foldMem_one {n : NumLib} {t : Ty} {m : Mem} : ∀ {cs old : List Elem} {x : Elem},
    (∀ e ∈ cs ++ [x], taker t e = some (.one m)) → foldMem n t old (cs ++ [x]) = .ok [x]
  | [], old, x, h => by simp [foldMem, h x, Act.value]
  | c :: cs, old, x, h => by
    rw [List.cons_append, foldMem, h c (by simp)]
    simp only [Act.value, Outcome.ok_bind]
    exact foldMem_one fun e he => h e (by simp at he ⊢; right; exact he)

theorem foldMem_append {n : NumLib} {t : Ty} : ∀ {xs ys old : List Elem},
    foldMem n t old (xs ++ ys) = (foldMem n t old xs >>= fun v => foldMem n t v ys)
  | [], ys, old => rfl
  | x :: xs, ys, old => by
    rw [List.cons_append, foldMem, foldMem]
    cases taker t x with
    | none => exact foldMem_append
    | some act =>
      simp only
      cases act.value n [] old x with
      | ok v => simp only [Outcome.ok_bind]; exact foldMem_append
      | throws => rfl
      | ub => rfl

theorem callsEach_append : ∀ (a b : List Elem), callsEach (a ++ b) = callsEach a ++ callsEach b
  | [], b => rfl
  | x :: a, b => by simp [callsEach, callsEach_append a b]

theorem callsEach_eq_map : ∀ (a : List Elem), callsEach a = a.map calls
  | [] => rfl
  | x :: a => by simp [callsEach, callsEach_eq_map a]

theorem flatMap_pieces (slots : Mem → List Elem) (f : Write → List Call)
    (h : ∀ w, f w = (w.pieces slots).flatten) (ws : List Write) :
    ws.flatMap f = (ws.flatMap fun w => w.pieces slots).flatten := by
  induction ws with
  | nil => rfl
  | cons w ws ih => rw [List.flatMap_cons, List.flatMap_cons, List.flatten_append, ih, h]

theorem flatten_singletons {α : Type} : ∀ (cs : List α), (cs.map fun c => [c]).flatten = cs
  | [] => rfl
  | x :: xs => by simp [flatten_singletons xs]

/-- An element writes a start tag, its children and the unknown text in it, and an end tag. -/
theorem calls_node (t : Ty) (a : Attrs) (slots : Mem → List Elem) (mis : List Elem) (unk : List Str)
    (ht : t ≠ Ty.«coordinates») :
    calls (.node t a slots mis unk) =
      .beginElem t (serializeAttributes (classAt t) a) ::
        (Elem.node t a slots mis unk).pieces.flatten ++ unknownCalls unk ++ [.endElem] := by
  rw [calls, if_neg ht, flatMap_pieces slots _ (by
    intro w
    unfold Write.pieces
    cases w.valueCalls slots with
    | none => rfl
    | some cs => exact (flatten_singletons cs).symm), Elem.pieces, List.flatten_append]
  simp

/-- A write depends on its own member only. -/
theorem pieces_congr {s s' : Mem → List Elem} {w : Write} (h : s w.mem = s' w.mem) :
    w.pieces s = w.pieces s' := by
  unfold Write.pieces
  cases w <;> simp_all [Write.valueCalls, Write.mem]

theorem flatMap_perm_replace {s s' : Mem → List Elem} {m : Mem} {x : List Call} : ∀ {ws : List Write},
    (ws.map Write.mem).Nodup → (∃ w ∈ ws, w.mem = m ∧ (w.pieces s').Perm (x :: w.pieces s)) →
    (∀ i, i ≠ m → s' i = s i) →
    (ws.flatMap fun w => w.pieces s').Perm (x :: ws.flatMap fun w => w.pieces s)
  | [], _, h, _ => by obtain ⟨w, hw, _⟩ := h; cases hw
  | v :: ws, hnd, h, hs => by
    obtain ⟨w, hw, hm, hp⟩ := h
    simp only [List.map_cons, List.nodup_cons] at hnd
    rw [List.flatMap_cons, List.flatMap_cons]
    rcases List.mem_cons.1 hw with rfl | hw
    · have hrest : (ws.flatMap fun w => w.pieces s') = ws.flatMap fun w => w.pieces s := by
        apply congrArg List.flatten
        apply List.map_congr_left
        intro u hu
        apply pieces_congr
        apply hs
        intro hx
        apply hnd.1
        rw [hm, ← hx]
        exact List.mem_map_of_mem hu
      rw [hrest]
      exact (hp.append_right _)
    · have hv : v.pieces s' = v.pieces s := by
        apply pieces_congr
        apply hs
        intro hx
        apply hnd.1
        rw [hx, ← hm]
        exact List.mem_map_of_mem hw
      rw [hv]
      have := flatMap_perm_replace hnd.2 ⟨w, hw, hm, hp⟩ hs
      exact (this.append_left _).trans List.perm_middle

theorem nodup_writes {t : Ty} {c : Class} (h : (t, c) ∈ classes) : (c.writes.map Write.mem).Nodup :=
  of_decide_eq_true (List.all_eq_true.1 classes_nodup _ h)

theorem proper_not_simple {t : Ty} {a : Attrs} {slots : Mem → List Elem} {mis : List Elem} {unk : List Str}
    (h : Proper (.node t a slots mis unk)) : Xsd.elementType t ≠ .simple := by
  obtain ⟨c, hc⟩ := Option.isSome_iff_exists.1 h
  have := List.all_eq_true.1 classes_simple _ (classOf_pair hc)
  simpa using this

/-- A child taken into a simple member is a simple element of the type the branch tests for. -/
theorem field_child {t : Ty} {c : Class} {child : Elem} {test : Test} {act : Act} (hp : Proper child)
    (hmem : (t, c) ∈ classes) (hr : (test, act) ∈ c.rules) (hm : test.matches child = true)
    (ha : (∃ m k, act = .field m k) ∨ ∃ m k, act = .fields m k) :
    ∃ ct text, child = .field ct text ∧ test = .ty ct := by
  have h := List.all_eq_true.1 (List.all_eq_true.1 classes_tested _ hmem) _ hr
  have key : ∃ ct, test = .ty ct ∧ Xsd.elementType ct = .simple := by
    cases test with
    | ty ct =>
      refine ⟨ct, rfl, ?_⟩
      rcases ha with ⟨m, k, rfl⟩ | ⟨m, k, rfl⟩ <;> exact of_decide_eq_true h
    | isA ct => rcases ha with ⟨m, k, rfl⟩ | ⟨m, k, rfl⟩ <;> cases h
    | any => rcases ha with ⟨m, k, rfl⟩ | ⟨m, k, rfl⟩ <;> cases h
  obtain ⟨ct, rfl, hs⟩ := key
  have hty : child.ty = ct := of_decide_eq_true hm
  cases child with
  | field ct' text =>
    have : ct' = ct := hty
    subst this
    exact ⟨ct', text, rfl, rfl⟩
  | node ct' a s mi u =>
    have : ct' = ct := hty
    subst this
    exact absurd hs (proper_not_simple hp)

theorem tagOk_pieces {ct : Ty} {m : Mem} {k : Kind} {w : Write} (h : tagOk ct m k w = true) :
    w.mem = m ∧ ∀ (slots : Mem → List Elem), (∀ s ∈ texts (slots m), k = .enum → (Xsd.enumId ct s).isSome = true) →
      (∃ g : Str → Call, (g = Call.field ct ∨ g = Call.color ct) ∧
        w.pieces slots = (texts (slots m)).map fun s => [g s]) := by
  unfold tagOk at h
  split at h
  all_goals (try cases h)
  all_goals simp only [Bool.and_eq_true, decide_eq_true_eq] at h
  · obtain ⟨rfl, rfl⟩ := h
    exact ⟨rfl, fun slots _ => ⟨Call.field _, Or.inl rfl, by simp [Write.pieces, Write.valueCalls, Function.comp_def]⟩⟩
  · obtain ⟨rfl, rfl⟩ := h
    exact ⟨rfl, fun slots _ => ⟨Call.color _, Or.inr rfl, by simp [Write.pieces, Write.valueCalls, Function.comp_def]⟩⟩
  · obtain ⟨rfl, rfl⟩ := h
    exact ⟨rfl, fun slots _ => ⟨Call.field _, Or.inl rfl, by simp [Write.pieces, Write.valueCalls, Function.comp_def]⟩⟩
  · rename_i m' t'
    obtain ⟨⟨⟨hm, ht⟩, hk⟩, hn⟩ := h
    refine ⟨hm, fun slots hs => ⟨Call.field ct, Or.inl rfl, ?_⟩⟩
    have : (texts (slots m)).filter (· ≠ []) = texts (slots m) := by
      rw [List.filter_eq_self]
      intro s hx
      have h1 := hs s hx hk
      simp only [decide_eq_true_eq]
      intro h2
      rw [h2] at h1
      rw [Option.isNone_iff_eq_none] at hn
      rw [hn] at h1
      cases h1
    rw [hm, ht]
    simp only [Write.pieces, Write.valueCalls, this, List.map_map]
    rfl

theorem elemOk_pieces {m : Mem} {w : Write} (h : elemOk m w = true) :
    w.mem = m ∧ ∀ (slots : Mem → List Elem), w.pieces slots = callsEach (slots m) := by
  unfold elemOk at h
  split at h
  all_goals (try cases h)
  all_goals
    have h := of_decide_eq_true h
    subst h
    exact ⟨rfl, fun slots => rfl⟩

theorem readValue_enum {n : NumLib} {k : Kind} {t : Ty} {old : Option Str} {text s : Str}
    (h : readValue n k t old text = .ok (some s)) (hk : k = .enum) : (Xsd.enumId t s).isSome = true := by
  subst hk
  simp only [readValue, Outcome.ok.injEq] at h
  split at h
  · cases h; assumption
  · cases h

theorem readValue_some {n : NumLib} {k : Kind} {t : Ty} {old : Option Str} {text : Str} {v : Option Str}
    (h : readValue n k t old text = .ok v) (hk : k = .enum → (Xsd.enumId t text).isSome = true) :
    ∃ s, v = some s := by
  cases k with
  | str => simp only [readValue, Outcome.ok.injEq] at h; exact ⟨_, h.symm⟩
  | bool => simp only [readValue, Outcome.ok.injEq] at h; exact ⟨_, h.symm⟩
  | enum =>
    simp only [readValue, Outcome.ok.injEq] at h
    rw [if_pos (hk rfl)] at h
    exact ⟨_, h.symm⟩
  | color =>
    simp only [readValue] at h
    cases hc : readColor text with
    | ok c => rw [hc] at h; simp only [Outcome.ok_bind, Outcome.ok.injEq] at h; exact ⟨_, h.symm⟩
    | throws => rw [hc] at h; cases h
    | ub => rw [hc] at h; cases h
  | cdata => simp only [readValue, Outcome.ok.injEq] at h; exact ⟨_, h.symm⟩
  | states => simp only [readValue, Outcome.ok.injEq] at h; exact ⟨_, h.symm⟩
  | vec3 =>
    simp only [readValue] at h
    cases hc : readTriple n text with
    | ok c => rw [hc] at h; simp only [Outcome.ok_bind, Outcome.ok.injEq] at h; exact ⟨_, h.symm⟩
    | throws => rw [hc] at h; cases h
    | ub => rw [hc] at h; cases h
  | dbl d => simp only [readValue, Outcome.ok.injEq] at h; exact ⟨_, h.symm⟩
  | int d => simp only [readValue, Outcome.ok.injEq] at h; exact ⟨_, h.symm⟩

/-- The text of a locality's name, which is not written. -/
def Unwritten (t : Ty) (child : Elem) : Prop := t = Ty.«XalLocality» ∧ child.ty = Ty.«xalLocalityName»

/-- A child that is taken is written: by one of the writes of the class, as a new piece if the member was not
set or is an array, and as the only piece of the member if it is not an array. -/
theorem taken_piece {n : NumLib} {cd : Str} {t : Ty} {slots : Mem → List Elem} {child : Elem} {act : Act}
    {v : List Elem} (hp : Proper child) (ht : taker t child = some act) (htext : textual t = false)
    (hun : ¬ Unwritten t child) (hund : Understood child act)
    (hv : act.value n cd (slots act.mem) child = .ok v) :
    ∃ w ∈ (classAt t).writes, w.mem = act.mem ∧ (slots act.mem = [] → w.pieces slots = []) ∧ ∃ piece,
      WrittenAs n child act (single (slots act.mem)) piece ∧
      w.pieces (setSlot slots act.mem v) = if act.isArray then w.pieces slots ++ [piece] else [piece] := by
  obtain ⟨c, test, hc, hmem, hreach, hrule, hmatch⟩ := taker_rule ht
  rw [classAt_eq hc]
  have hw := List.all_eq_true.1 (List.all_eq_true.1 classes_written _ hmem) _ hreach
  have hself := List.all_eq_true.1 (List.all_eq_true.1 classes_self _ hmem) _ hrule
  have hset : ∀ x, setSlot slots act.mem x act.mem = x := fun x => by simp [setSlot]
  have hnot : unwritten t (test, act) = false := by
    cases hx : unwritten t (test, act) with
    | false => rfl
    | true =>
      simp only [unwritten, Bool.and_eq_true, decide_eq_true_eq] at hx
      have hm := hmatch
      simp only [Prod.mk.injEq] at hx
      rw [hx.2.1] at hm
      exact absurd ⟨hx.1, of_decide_eq_true hm⟩ hun
  simp only [hnot, Bool.false_or] at hw
  simp only [htext, Bool.false_or] at hself
  cases act with
  | selfText m => cases hself
  | selfPoints m => cases hself
  | one m =>
    have hw : c.writes.any (elemOk m) = true := by cases test <;> exact hw
    obtain ⟨w, hw1, hw2⟩ := List.any_eq_true.1 hw
    obtain ⟨e1, e2⟩ := elemOk_pieces hw2
    refine ⟨w, hw1, e1, fun hx => by rw [e2, show slots m = [] from hx]; rfl, calls child,
      by cases child <;> rfl, ?_⟩
    simp only [Act.value, Outcome.ok.injEq] at hv
    subst hv
    rw [e2, show Act.mem (.one m) = m from rfl] at *
    simp [hset, callsEach, Act.isArray]
  | many m =>
    have hw : c.writes.any (elemOk m) = true := by cases test <;> exact hw
    obtain ⟨w, hw1, hw2⟩ := List.any_eq_true.1 hw
    obtain ⟨e1, e2⟩ := elemOk_pieces hw2
    refine ⟨w, hw1, e1, fun hx => by rw [e2, show slots m = [] from hx]; rfl, calls child,
      by cases child <;> rfl, ?_⟩
    simp only [Act.value, Outcome.ok.injEq] at hv
    subst hv
    rw [e2, e2]
    have := hset (slots m ++ [child])
    simp only [Act.mem] at this ⊢
    rw [this, callsEach_append]
    rfl
  | field m k =>
    obtain ⟨ct, text, rfl, rfl⟩ := field_child hp hmem hrule hmatch (Or.inl ⟨m, k, rfl⟩)
    have hw : c.writes.any (tagOk ct m k) = true := hw
    obtain ⟨w, hw1, hw2⟩ := List.any_eq_true.1 hw
    obtain ⟨e1, e2⟩ := tagOk_pieces hw2
    simp only [Act.value, Act.mem] at hv
    cases hr : readValue n k ct (single (slots m)) text with
    | ok o =>
      rw [hr] at hv
      obtain ⟨s, rfl⟩ := readValue_some hr (by rintro rfl; exact hund)
      simp only [Outcome.ok_bind, Outcome.ok.injEq, Option.map_some, Option.toList_some] at hv
      subst hv
      have hs : setSlot slots m [Elem.field ct s] m = [Elem.field ct s] := hset _
      obtain ⟨g, hg, hpieces⟩ := e2 (setSlot slots m [Elem.field ct s]) (by
        rw [hs]
        intro s' hs' hk
        simp only [texts, List.filterMap_cons, List.filterMap_nil, List.mem_singleton] at hs'
        subst hs'
        exact readValue_enum hr hk)
      refine ⟨w, hw1, e1, fun hx => ?_, [g s], ⟨s, hr, ?_⟩, ?_⟩
      · have hx : slots m = [] := hx
        obtain ⟨g', _, hg'⟩ := e2 slots (by rw [hx]; intro s' hs'; cases hs')
        rw [hg', hx]
        rfl
      · rcases hg with rfl | rfl
        · exact Or.inl rfl
        · exact Or.inr rfl
      · simp only [Act.mem, Act.isArray, hpieces, hs]
        rfl
    | throws => rw [hr] at hv; cases hv
    | ub => rw [hr] at hv; cases hv
  | fields m k =>
    obtain ⟨ct, text, rfl, rfl⟩ := field_child hp hmem hrule hmatch (Or.inr ⟨m, k, rfl⟩)
    have hw : (k ≠ .enum && c.writes.any (tagOk ct m k)) = true := hw
    simp only [Bool.and_eq_true, decide_eq_true_eq] at hw
    obtain ⟨w, hw1, hw2⟩ := List.any_eq_true.1 hw.2
    obtain ⟨e1, e2⟩ := tagOk_pieces hw2
    simp only [Act.value, Act.mem] at hv
    cases hr : readValue n k ct none text with
    | ok o =>
      rw [hr] at hv
      obtain ⟨s, rfl⟩ := readValue_some hr (fun hk => absurd hk hw.1)
      simp only [Outcome.ok_bind, Outcome.ok.injEq, Option.map_some, Option.toList_some] at hv
      subst hv
      have hs : setSlot slots m (slots m ++ [Elem.field ct s]) m = slots m ++ [Elem.field ct s] := hset _
      have hone : ∃ g, (g = Call.field ct ∨ g = Call.color ct) ∧
          ∀ sl, w.pieces sl = (texts (sl m)).map fun s => [g s] := by
        unfold tagOk at hw2
        split at hw2
        all_goals (try cases hw2)
        all_goals simp only [Bool.and_eq_true, decide_eq_true_eq] at hw2
        · obtain ⟨rfl, rfl⟩ := hw2
          exact ⟨_, Or.inl rfl, fun sl => by simp [Write.pieces, Write.valueCalls, Function.comp_def]⟩
        · obtain ⟨rfl, rfl⟩ := hw2
          exact ⟨_, Or.inr rfl, fun sl => by simp [Write.pieces, Write.valueCalls, Function.comp_def]⟩
        · obtain ⟨rfl, rfl⟩ := hw2
          exact ⟨_, Or.inl rfl, fun sl => by simp [Write.pieces, Write.valueCalls, Function.comp_def]⟩
        · exact absurd hw2.1.2 hw.1
      obtain ⟨g, hg, hall⟩ := hone
      refine ⟨w, hw1, e1, fun hx => by rw [hall, show slots m = [] from hx]; rfl, [g s], ⟨s, hr, ?_⟩, ?_⟩
      · rcases hg with rfl | rfl
        · exact Or.inl rfl
        · exact Or.inr rfl
      · simp only [Act.mem, Act.isArray, hall, hs, if_true]
        simp [texts]
    | throws => rw [hr] at hv; cases hv
    | ub => rw [hr] at hv; cases hv

/-! ## Attributes -/

theorem cutKnown_other {n : NumLib} {k : Str} : ∀ {reads : List (Str × AttrKind)} {known : StdMap Str}
    {m : Attributes.Attributes}, k ∉ reads.map (·.1) → (cutKnown n reads known m).1.get k = known.get k
  | [], known, m, _ => rfl
  | (k', kind) :: r, known, m, h => by
    simp only [List.map_cons, List.mem_cons, not_or] at h
    rw [cutKnown]
    split
    · split
      · rw [cutKnown_other h.2, StdMap.get_set, if_neg (fun hx => h.1 hx.symm)]
      · exact cutKnown_other h.2
    · exact cutKnown_other h.2

theorem cutKnown_get {n : NumLib} {k : Str} {kind : AttrKind} {text v : Str}
    (hv : readAttr n kind text = some v) : ∀ {reads : List (Str × AttrKind)} {known : StdMap Str}
    {m : Attributes.Attributes}, StdMap.Sorted m → (reads.map (·.1)).Nodup → (k, kind) ∈ reads →
    m.get k = some text → (cutKnown n reads known m).1.get k = some v
  | [], known, m, _, _, h, _ => by cases h
  | (k', kind') :: r, known, m, hs, hnd, h, hm => by
    simp only [List.map_cons, List.nodup_cons] at hnd
    by_cases hk : k' = k
    · subst hk
      have hkind : kind' = kind := by
        rcases List.mem_cons.1 h with hx | hx
        · simpa using hx.symm
        · exact absurd (List.mem_map_of_mem hx) hnd.1
      subst hkind
      simp only [cutKnown, Attributes.cutValue, hm, hv]
      rw [cutKnown_other hnd.1, StdMap.get_set, if_pos rfl]
    · have hmem : (k, kind) ∈ r := by
        rcases List.mem_cons.1 h with hx | hx
        · simp only [Prod.mk.injEq] at hx
          exact absurd hx.1.symm hk
        · exact hx
      rw [cutKnown]
      have hcut : ∀ o m', Attributes.cutValue m k' = (o, m') → StdMap.Sorted m' ∧ m'.get k = some text := by
        intro o m' hc
        unfold Attributes.cutValue at hc
        split at hc
        · cases hc
          exact ⟨StdMap.sorted_erase hs k', by rw [StdMap.get_erase hs, if_neg hk, hm]⟩
        · cases hc
          exact ⟨hs, hm⟩
      split
      · rename_i hc
        obtain ⟨a, b⟩ := hcut _ _ hc
        split
        · exact cutKnown_get hv a hnd.2 hmem b
        · exact cutKnown_get hv a hnd.2 hmem b
      · rename_i hc
        obtain ⟨a, b⟩ := hcut _ _ hc
        exact cutKnown_get hv a hnd.2 hmem b

theorem setKnown_get {known : StdMap Str} {k v : Str} (h : known.get k = some v) :
    ∀ (sets : List Str) (m : Attributes.Attributes), (k ∈ sets ∨ m.get k = some v) →
    (sets.foldl (fun (m : Attributes.Attributes) k =>
      match known.get k with
      | some v => m.set k v
      | none => m) m).get k = some v
  | [], m, hm => by
    rcases hm with hm | hm
    · cases hm
    · exact hm
  | k' :: ks, m, hm => by
    rw [List.foldl_cons]
    apply setKnown_get h ks
    by_cases hk : k' = k
    · subst hk
      right
      rw [h]
      simp only [StdMap.get_set, if_true]
    · rcases hm with hm | hm
      · left
        rcases List.mem_cons.1 hm with hx | hx
        · exact absurd hx.symm hk
        · exact hx
      · right
        split
        · rw [StdMap.get_set, if_neg hk, hm]
        · exact hm

theorem attribute_written {n : NumLib} {t : Ty} {c : Class} (hc : classOf t = some c)
    {m : Attributes.Attributes} (hs : StdMap.Sorted m) {k : Str} {kind : AttrKind} (hk : (k, kind) ∈ c.reads)
    {text v : Str} (hm : m.get k = some text) (hv : readAttr n kind text = some v) :
    (serializeAttributes c (parseAttributes n c m)).get k = some v := by
  have h := List.all_eq_true.1 classes_reads _ (classOf_pair hc)
  simp only [Bool.and_eq_true, decide_eq_true_eq, List.all_eq_true] at h
  have h2 := h.2 _ hk
  unfold serializeAttributes
  refine setKnown_get ?_ _ _ (Or.inl (by simpa using h2))
  exact cutKnown_get hv hs h.1 hk hm

end Kml.Dom
