import Verif.Spec.Fields
import Mathlib.Data.List.Induction
/-! Property C94: fields are optional values with defaults. -/
namespace Kml.Fields
open Kml

/-- The members behind a field. -/
def Field.members : Field → List (Str × Str)
  | .simple cls _ get has _ _ _ _ _ _ => [(cls, get), (cls, has)]
  | .child cls _ get _ _ _ => [(cls, get)]

/-- The accessors of a field agree on the members. -/
def Field.agrees : Field → Bool
  | .simple _ _ get has setVal setHas clearVal clearHas init clear =>
    get ≠ has ∧ setVal = get ∧ clearVal = get ∧ setHas = has ∧ clearHas = has ∧ init = clear
  | .child _ _ get has set clear => has = get ∧ set = get ∧ clear = get

/-- The value of a new object. -/
def Field.default : Field → Val
  | .simple _ _ _ _ _ _ _ _ init _ => init
  | .child .. => .null

set_option maxRecDepth 100000 in
theorem all_agree : fields.all Field.agrees = true := by decide +kernel

set_option maxRecDepth 100000 in
theorem keys_nodup : (fields.map Field.key).Nodup := by decide +kernel

set_option maxRecDepth 100000 in
theorem members_nodup : (fields.flatMap Field.members).Nodup := by decide +kernel

theorem documented_default : documented.all (fun d => fields.any fun f => f.key = (d.1, d.2.1) ∧ f.default = d.2.2) = true := by
  decide +kernel

attribute [local irreducible] fields

theorem agrees_of {f : Field} (hf : f ∈ fields) : f.agrees = true := List.all_eq_true.1 all_agree f hf

theorem nodup_map_inj {α β : Type} {g : α → β} {l : List α} (h : (l.map g).Nodup) {a b : α} (ha : a ∈ l) (hb : b ∈ l)
    (e : g a = g b) : a = b := by
  induction l with
  | nil => cases ha
  | cons x l ih =>
    rw [List.map_cons, List.nodup_cons] at h
    rcases List.mem_cons.1 ha with ha | ha <;> rcases List.mem_cons.1 hb with hb | hb
    · rw [ha, hb]
    · exact absurd (ha ▸ e ▸ List.mem_map_of_mem hb) h.1
    · exact absurd (hb ▸ e ▸ List.mem_map_of_mem ha) h.1
    · exact ih h.2 ha hb

theorem key_inj {f g : Field} (hf : f ∈ fields) (hg : g ∈ fields) (h : g.key = f.key) : g = f :=
  nodup_map_inj keys_nodup hg hf h

theorem nodup_flat {α β : Type} {m : α → List β} {l : List α} (h : (l.flatMap m).Nodup) {a b : α} (ha : a ∈ l) (hb : b ∈ l)
    (hne : a ≠ b) : ∀ x ∈ m a, x ∉ m b := by
  induction l with
  | nil => cases ha
  | cons c l ih =>
    rw [List.flatMap_cons, List.nodup_append] at h
    rcases List.mem_cons.1 ha with ha | ha <;> rcases List.mem_cons.1 hb with hb | hb
    · exact absurd (ha.trans hb.symm) hne
    · intro x hx hy
      exact h.2.2 x (ha ▸ hx) x (List.mem_flatMap.2 ⟨b, hb, hy⟩) rfl
    · intro x hx hy
      exact h.2.2 x (hb ▸ hy) x (List.mem_flatMap.2 ⟨a, ha, hx⟩) rfl
    · exact ih h.2.1 ha hb

theorem apart {f g : Field} (hf : f ∈ fields) (hg : g ∈ fields) (h : g ≠ f) : ∀ m ∈ f.members, m ∉ g.members :=
  nodup_flat members_nodup hf hg h.symm

/-- Two objects have the same values in the members of a field. -/
def Same (f : Field) (o o' : Obj) : Prop := ∀ m ∈ f.members, o m = o' m

theorem put_other {o : Obj} {m m' : Str × Str} {v : Val} (h : m' ≠ m) : o.put m v m' = o m' := if_neg h

theorem put_same {o : Obj} {m : Str × Str} {v : Val} : o.put m v m = v := if_pos rfl

theorem Same.get {f : Field} (hf : f ∈ fields) {o o' : Obj} (h : Same f o o') : f.get o = f.get o' ∧ f.has o = f.has o' := by
  have ha := agrees_of hf
  cases f with
  | simple cls name get has sv sh cv ch i c =>
    have h1 := h (cls, get) (by simp [Field.members])
    have h2 := h (cls, has) (by simp [Field.members])
    exact ⟨h1, by unfold Field.has; dsimp only; rw [h2]⟩
  | child cls name get has s c =>
    simp only [Field.agrees, decide_eq_true_eq] at ha
    obtain ⟨rfl, rfl, rfl⟩ := ha
    have h1 := h (cls, c) (by simp [Field.members])
    exact ⟨h1, by unfold Field.has; dsimp only; rw [h1]⟩

theorem same_set {f g : Field} (hf : f ∈ fields) (hg : g ∈ fields) (h : g ≠ f) (o : Obj) (v : Val) (free : Bool) :
    Same f (g.set o v free) o := by
  intro m hm
  have hm' := apart hf hg h m hm
  have ha := agrees_of hg
  cases g with
  | simple cls name get has sv sh cv ch i c =>
    simp only [Field.agrees, decide_eq_true_eq] at ha
    obtain ⟨_, rfl, rfl, rfl, rfl, rfl⟩ := ha
    simp only [Field.members, List.mem_cons, List.not_mem_nil, or_false, not_or] at hm'
    unfold Field.set
    dsimp only
    rw [put_other hm'.2, put_other hm'.1]
  | child cls name get has s c =>
    simp only [Field.agrees, decide_eq_true_eq] at ha
    obtain ⟨rfl, rfl, rfl⟩ := ha
    simp only [Field.members, List.mem_cons, List.not_mem_nil, or_false] at hm'
    unfold Field.set
    dsimp only
    split
    · exact put_other hm'
    · split
      · exact put_other hm'
      · rfl

theorem same_clear {f g : Field} (hf : f ∈ fields) (hg : g ∈ fields) (h : g ≠ f) (o : Obj) : Same f (g.clear o) o := by
  intro m hm
  have hm' := apart hf hg h m hm
  have ha := agrees_of hg
  cases g with
  | simple cls name get has sv sh cv ch i c =>
    simp only [Field.agrees, decide_eq_true_eq] at ha
    obtain ⟨_, rfl, rfl, rfl, rfl, rfl⟩ := ha
    simp only [Field.members, List.mem_cons, List.not_mem_nil, or_false, not_or] at hm'
    unfold Field.clear
    dsimp only
    rw [put_other hm'.2, put_other hm'.1]
  | child cls name get has s c =>
    simp only [Field.agrees, decide_eq_true_eq] at ha
    obtain ⟨rfl, rfl, rfl⟩ := ha
    simp only [Field.members, List.mem_cons, List.not_mem_nil, or_false] at hm'
    unfold Field.clear
    dsimp only
    exact put_other hm'

theorem same_construct {f g : Field} (hf : f ∈ fields) (hg : g ∈ fields) (h : g ≠ f) (o : Obj) : Same f (g.construct o) o := by
  intro m hm
  have hm' := apart hf hg h m hm
  cases g with
  | simple cls name get has sv sh cv ch i c =>
    simp only [Field.members, List.mem_cons, List.not_mem_nil, or_false, not_or] at hm'
    unfold Field.construct
    dsimp only
    rw [put_other hm'.2, put_other hm'.1]
  | child cls name get has s c =>
    simp only [Field.members, List.mem_cons, List.not_mem_nil, or_false] at hm'
    unfold Field.construct
    dsimp only
    exact put_other hm'

theorem has_simple {cls name get has sv sh cv ch : Str} {i c v : Val} {o : Obj} (h : o (cls, has) = v) :
    (Field.simple cls name get has sv sh cv ch i c).has o = decide (v = .bool true) := by
  unfold Field.has
  dsimp only
  rw [h]

theorem has_child {cls name get has s c : Str} {v : Val} {o : Obj} (h : o (cls, has) = v) :
    (Field.child cls name get has s c).has o = decide (v ≠ .null) := by
  unfold Field.has
  dsimp only
  rw [h]

theorem constructed {f : Field} (hf : f ∈ fields) (o : Obj) : f.get (f.construct o) = f.default ∧ f.has (f.construct o) = false := by
  have ha := agrees_of hf
  cases f with
  | simple cls name get has sv sh cv ch i c =>
    simp only [Field.agrees, decide_eq_true_eq] at ha
    have hne : (cls, get) ≠ (cls, has) := fun e => ha.1 (Prod.mk.inj e).2
    refine ⟨?_, ?_⟩
    · unfold Field.get Field.construct
      dsimp only
      rw [put_other hne, put_same]
      rfl
    · exact has_simple (v := .bool false) put_same
  | child cls name get has s c =>
    simp only [Field.agrees, decide_eq_true_eq] at ha
    obtain ⟨rfl, rfl, rfl⟩ := ha
    refine ⟨put_same, ?_⟩
    exact has_child (v := .null) put_same

theorem new_field {f : Field} (hf : f ∈ fields) : f.get newObject = f.default ∧ f.has newObject = false := by
  have key : ∀ (l : List Field) (o : Obj), (∀ g ∈ l, g ∈ fields) → f ∈ l ∨ (f.get o = f.default ∧ f.has o = false) →
      f.get (l.foldl (fun o g => g.construct o) o) = f.default ∧ f.has (l.foldl (fun o g => g.construct o) o) = false := by
    intro l
    induction l with
    | nil =>
      intro o _ h
      rcases h with h | h
      · cases h
      · exact h
    | cons g l ih =>
      intro o hl h
      rw [List.foldl_cons]
      refine ih _ (fun x hx => hl x (List.mem_cons_of_mem _ hx)) ?_
      by_cases hg : g = f
      · subst hg
        exact .inr (constructed hf o)
      · rcases h with h | h
        · rcases List.mem_cons.1 h with h | h
          · exact absurd h.symm hg
          · exact .inl h
        · have := (same_construct hf (hl g (List.mem_cons_self ..)) hg o).get hf
          rw [this.1, this.2]
          exact .inr h
  exact key fields _ (fun g hg => hg) (.inl hf)

/-- **C94.** For every field of every class and all calls of `set_` and `clear_` on any fields of an object: `has_` tells whether a
value was set that was not cleared, and `get_` gives that value, or else the value that a new object has. -/
theorem C94_fields (f : Field) (hf : f ∈ fields) (calls : List Call) (hc : ∀ c ∈ calls, c.field ∈ fields) :
    f.has (after calls) = (held f calls).isSome ∧ f.get (after calls) = (held f calls).getD (f.get newObject) := by
  induction calls using List.reverseRecOn with
  | nil => exact ⟨(new_field hf).2, rfl⟩
  | append_singleton calls c ih =>
    have ih := ih fun x hx => hc x (List.mem_append_left _ hx)
    have hin : c.field ∈ fields := hc c (List.mem_append_right _ (List.mem_singleton.2 rfl))
    have e1 : after (calls ++ [c]) = c.run (after calls) := by unfold after; rw [List.foldl_append]; rfl
    have e2 : held f (calls ++ [c]) = holds f (held f calls) c := by unfold held; rw [List.foldl_append]; rfl
    rw [e1, e2]
    have ha := agrees_of hf
    cases c with
    | set g v free =>
      by_cases hk : g.key = f.key
      · have hg : g = f := key_inj hf hin hk
        subst hg
        unfold holds Call.run
        dsimp only
        rw [if_pos rfl]
        cases g with
        | simple cls name get has sv sh cv ch i c =>
          simp only [Field.agrees, decide_eq_true_eq] at ha
          obtain ⟨hne, rfl, rfl, rfl, rfl, rfl⟩ := ha
          have hne' : (cls, cv) ≠ (cls, ch) := fun e => hne (Prod.mk.inj e).2
          unfold Field.isChild
          dsimp only
          rw [if_neg (by decide)]
          exact ⟨has_simple (v := .bool true) put_same, (put_other hne').trans put_same⟩
        | child cls name get has s c =>
          simp only [Field.agrees, decide_eq_true_eq] at ha
          obtain ⟨rfl, rfl, rfl⟩ := ha
          unfold Field.isChild
          rw [if_pos rfl]
          unfold Field.set
          dsimp only
          by_cases hv : v = .null
          · rw [if_pos hv, if_pos hv]
            refine ⟨?_, ?_⟩
            · exact has_child (v := .null) put_same
            · rw [(new_field hf).1]
              exact put_same
          · rw [if_neg hv, if_neg hv]
            cases free with
            | false => exact ih
            | true =>
              refine ⟨?_, put_same⟩
              exact (has_child (v := v) put_same).trans (decide_eq_true hv)
      · have hne : g ≠ f := fun e => hk (by rw [e])
        unfold holds Call.run
        dsimp only
        rw [if_neg hk]
        have := (same_set (g := g) hf hin hne (after calls) v free).get hf
        rw [this.1, this.2]
        exact ih
    | clear g =>
      by_cases hk : g.key = f.key
      · have hg : g = f := key_inj hf hin hk
        subst hg
        unfold holds Call.run
        dsimp only
        rw [if_pos rfl]
        rw [(new_field hf).1]
        cases g with
        | simple cls name get has sv sh cv ch i c =>
          simp only [Field.agrees, decide_eq_true_eq] at ha
          obtain ⟨hne, rfl, rfl, rfl, rfl, rfl⟩ := ha
          have hne' : (cls, cv) ≠ (cls, ch) := fun e => hne (Prod.mk.inj e).2
          exact ⟨has_simple (v := .bool false) put_same, (put_other hne').trans put_same⟩
        | child cls name get has s c =>
          simp only [Field.agrees, decide_eq_true_eq] at ha
          obtain ⟨rfl, rfl, rfl⟩ := ha
          exact ⟨has_child (v := .null) put_same, put_same⟩
      · have hne : g ≠ f := fun e => hk (by rw [e])
        unfold holds Call.run
        dsimp only
        rw [if_neg hk]
        have := (same_clear (g := g) hf hin hne (after calls)).get hf
        rw [this.1, this.2]
        exact ih

/-- **C94, defaults.** The documented defaults are those of new objects, and those after any calls that leave the field unset. -/
theorem C94_defaults (cls name : Str) (v : Val) (h : (cls, name, v) ∈ documented) :
    ∃ f ∈ fields, f.key = (cls, name) ∧ ∀ calls : List Call, (∀ c ∈ calls, c.field ∈ fields) → held f calls = none →
      f.get (after calls) = v := by
  obtain ⟨f, hf, hd⟩ := List.any_eq_true.1 (List.all_eq_true.1 documented_default _ h)
  obtain ⟨h1, h2⟩ := of_decide_eq_true hd
  refine ⟨f, hf, h1, fun calls hc hn => ?_⟩
  rw [(C94_fields f hf calls hc).2, hn, Option.getD_none, (new_field hf).1]
  exact h2

/-- There are fields and calls: `visibility` and `region` of a feature. -/
example : ∃ f g, f ∈ fields ∧ g ∈ fields ∧ held f [.set f (.bool false) true, .set g (.child 7) true, .clear g] = some (.bool false) ∧
    held g [.set f (.bool false) true, .set g (.child 7) true] = some (.child 7) ∧
    held g [.set g (.child 7) true, .set g (.child 8) false, .clear f] = some (.child 7) := by
  refine ⟨.simple (chars! "Feature") (chars! "visibility") (chars! "visibility_") (chars! "has_visibility_") (chars! "visibility_")
    (chars! "has_visibility_") (chars! "visibility_") (chars! "has_visibility_") (.bool true) (.bool true),
    .child (chars! "Feature") (chars! "region") (chars! "region_") (chars! "region_") (chars! "region_") (chars! "region_"), ?_⟩
  decide +kernel

end Kml.Fields
