import Verif.Spec.Casts
/-! Property C97: casts. -/
namespace Kml.Dom
open Kml

/-- The test of a cast on an instance of the class for a type. -/
def Cast.takes (f : Cast) (t : Ty) : Bool := f.accepts (newNode t)

/-- The table of the factory agrees with the one of the classes. -/
theorem instantiated_types : instantiated.map (·.1) = classes.map (·.1) := by decide +kernel

/-- One cast does not test what it casts to. -/
def looseCast : Str := chars! "AsGxSimpleArrayField"

theorem casts_agree : ∀ f ∈ casts, f.name ≠ looseCast → ∀ p ∈ instantiated, f.takes p.1 = decide (f.target ∈ ancestors 10 p.2) := by
  decide +kernel

theorem casts_complex : ∀ f ∈ casts, (∀ t, f.test = .ty t ∨ f.test = .isA t → Xsd.elementType t ≠ .simple) ∧ f.test ≠ .any ∧
    f.target ∉ ancestors 10 Cpp.«Field» := by
  have h : ∀ f ∈ casts, (match f.test with | .ty t => decide (Xsd.elementType t ≠ .simple) | .isA t => decide (Xsd.elementType t ≠ .simple) | .any => false) = true ∧
      f.target ∉ ancestors 10 Cpp.«Field» := by decide +kernel
  intro f hf
  obtain ⟨h1, h2⟩ := h f hf
  refine ⟨?_, ?_, h2⟩
  · intro t ht
    rcases ht with ht | ht <;> rw [ht] at h1 <;> exact of_decide_eq_true h1
  · intro ht
    rw [ht] at h1
    cases h1

theorem bases_find : ∀ p ∈ bases, bases.find? (fun q => q.1 = p.1) = some p := by decide +kernel

theorem bases_deep : ∀ p ∈ bases, ancestors 9 p.2 = ancestors 10 p.2 := by decide +kernel

/-- The only element `AsGxSimpleArrayField` takes that is not of its class. -/
theorem loose_agree : ∀ f ∈ casts, f.name = looseCast → ∀ p ∈ instantiated, p.1 ≠ Ty.«SimpleField» →
    f.takes p.1 = decide (f.target ∈ ancestors 10 p.2) := by decide +kernel

theorem ancestors_derive : ∀ (fuel : Nat) (c d : Cpp), d ∈ ancestors fuel c → Derives c d
  | 0, _, _, h => by cases h
  | fuel + 1, c, d, h => by
    unfold ancestors at h
    rcases List.mem_cons.1 h with rfl | h'
    · exact .refl _
    · clear h
      revert h'
      cases hb : bases.find? (fun p => p.1 = c) with
      | none => intro h; cases h
      | some p =>
        intro h
        obtain ⟨c', b⟩ := p
        have hc := List.find?_some hb
        have hc : c' = c := of_decide_eq_true hc
        subst hc
        exact .base (List.mem_of_find?_eq_some hb) (ancestors_derive fuel b d h)

/-- The search for a class among the bases is right. -/
theorem derives_iff (c d : Cpp) : Derives c d ↔ d ∈ ancestors 10 c := by
  constructor
  · intro h
    induction h with
    | refl c => unfold ancestors; exact List.mem_cons_self
    | base hb _ ih =>
      unfold ancestors
      have h1 := bases_find _ hb
      have h2 := bases_deep _ hb
      dsimp only at h1 h2
      rw [h1]
      dsimp only
      rw [h2]
      exact List.mem_cons_of_mem _ ih
  · exact ancestors_derive 10 c d

theorem made_timespan : Manufactured (newNode Ty.«GxTimeSpan») := by unfold Manufactured newNode; decide +kernel

theorem manufactured_name : Manufactured (.field Ty.«name» []) := by unfold Manufactured; decide +kernel

theorem made_simple : Manufactured (newNode Ty.«SimpleField») := by unfold Manufactured newNode; decide +kernel

theorem loose_ub : (⟨chars! "AsGxSimpleArrayField", .isA Ty.«SimpleField», Cpp.«GxSimpleArrayField»⟩ : Cast).run
    (some (newNode Ty.«SimpleField»)) = .ub := by
  unfold Cast.run
  dsimp only
  rw [if_pos (by decide +kernel), if_neg (by decide +kernel)]

attribute [local irreducible] casts instantiated bases classes

theorem run_eq {f : Cast} {e : Elem} {c : Cpp} (hc : e.cpp = some c) (h : f.accepts e = decide (f.target ∈ ancestors 10 c)) :
    (Derives c f.target → f.run (some e) = .ok (some e)) ∧ (¬ Derives c f.target → f.run (some e) = .ok none) := by
  rw [derives_iff]
  unfold Cast.run
  dsimp only
  rw [h, hc]
  constructor
  · intro hd
    simp [hd]
  · intro hd
    simp [hd]

theorem made_cpp {t : Ty} {a : Attrs} {s : Mem → List Elem} {mp : List Elem} {u : List Str} (h : Manufactured (.node t a s mp u)) :
    ∃ c, (Elem.node t a s mp u).cpp = some c ∧ (t, c) ∈ instantiated := by
  unfold Manufactured classOf at h
  dsimp only at h
  rw [Option.isSome_map, List.find?_isSome] at h
  obtain ⟨p, hp, ht⟩ := h
  have ht : p.1 = t := of_decide_eq_true ht
  have hm : t ∈ instantiated.map (·.1) := by
    rw [instantiated_types, ← ht]
    exact List.mem_map_of_mem hp
  obtain ⟨q, hq, hqt⟩ := List.mem_map.1 hm
  have hs : (instantiated.find? fun p => p.1 = t).isSome = true :=
    List.find?_isSome.2 ⟨q, hq, decide_eq_true hqt⟩
  obtain ⟨r, hr⟩ := Option.isSome_iff_exists.1 hs
  have hrt : r.1 = t := of_decide_eq_true (List.find?_some (p := fun p : Ty × Cpp => decide (p.1 = t)) hr)
  refine ⟨r.2, ?_, ?_⟩
  · unfold Elem.cpp
    dsimp only
    rw [hr]
    rfl
  · rw [← hrt]
    exact List.mem_of_find?_eq_some hr

theorem field_refused {f : Cast} (hf : f ∈ casts) {t : Ty} {text : Str} (h : Xsd.elementType t = .simple) :
    f.accepts (.field t text) = decide (f.target ∈ ancestors 10 Cpp.«Field») := by
  obtain ⟨h1, h2, h3⟩ := casts_complex f hf
  have hne : ∀ t', f.test = .ty t' ∨ f.test = .isA t' → t ≠ t' := fun t' ht e => h1 t' ht (e ▸ h)
  rw [decide_eq_false h3]
  unfold Cast.accepts
  cases ht : f.test with
  | ty t' => exact decide_eq_false (hne t' (.inl ht))
  | isA t' => exact decide_eq_false (hne t' (.inr ht))
  | any => exact absurd ht h2

/-- **C97.** Every cast but `AsGxSimpleArrayField`, on every element that the factory or a parser makes: it gives the element back
exactly if the element is an object of the class that is cast to, and NULL otherwise.  So no pointer it gives is of the wrong
class.  NULL is cast to NULL.

Missing from the full property: `AsGxSimpleArrayField`, for which it is false (`C97_array_violated`). -/
theorem C97_casts_partial (f : Cast) (hf : f ∈ casts) (hn : f.name ≠ chars! "AsGxSimpleArrayField") :
    f.run none = .ok none ∧
    ∀ e, Manufactured e → ∃ c, e.cpp = some c ∧ (Derives c f.target → f.run (some e) = .ok (some e)) ∧
      (¬ Derives c f.target → f.run (some e) = .ok none) := by
  refine ⟨rfl, ?_⟩
  intro e he
  cases e with
  | field t text => exact ⟨Cpp.«Field», rfl, run_eq rfl (field_refused hf he)⟩
  | node t a s mp u =>
    obtain ⟨c, hc, hm⟩ := made_cpp he
    exact ⟨c, hc, run_eq hc (casts_agree f hf hn _ hm)⟩

/-- **C97, the other cast.** `AsGxSimpleArrayField` is right on every element that is not a `SimpleField`. -/
theorem C97_array_partial (f : Cast) (hf : f ∈ casts) (hn : f.name = chars! "AsGxSimpleArrayField") (e : Elem) (he : Manufactured e)
    (ht : e.ty ≠ Ty.«SimpleField») : ∃ c, e.cpp = some c ∧ (Derives c f.target → f.run (some e) = .ok (some e)) ∧
      (¬ Derives c f.target → f.run (some e) = .ok none) := by
  cases e with
  | field t text => exact ⟨Cpp.«Field», rfl, run_eq rfl (field_refused hf he)⟩
  | node t a s mp u =>
    obtain ⟨c, hc, hm⟩ := made_cpp he
    exact ⟨c, hc, run_eq hc (loose_agree f hf hn _ hm ht)⟩

/-- Elements that meet the hypotheses, and what they are. -/
example : Manufactured (newNode Ty.«GxTimeSpan») ∧ Manufactured (.field Ty.«name» []) ∧ Derives Cpp.«GxTimeSpan» Cpp.«TimeSpan» ∧
    ¬ Derives Cpp.«TimeSpan» Cpp.«GxTimeSpan» := by
  refine ⟨?_, ?_, ?_, ?_⟩
  · exact made_timespan
  · exact manufactured_name
  · rw [derives_iff]; decide +kernel
  · rw [derives_iff]; decide +kernel

/-- **C97 fails: `AsGxSimpleArrayField`.** A `SimpleField` is taken, and cast to a class it is not of. -/
theorem C97_array_violated : ∃ f ∈ casts, f.name = chars! "AsGxSimpleArrayField" ∧ Manufactured (newNode Ty.«SimpleField») ∧
    f.run (some (newNode Ty.«SimpleField»)) = .ub := by
  have h : (⟨chars! "AsGxSimpleArrayField", .isA Ty.«SimpleField», Cpp.«GxSimpleArrayField»⟩ : Cast) ∈ casts := by
    have : casts.any (fun f => decide (f.name = chars! "AsGxSimpleArrayField" ∧ f.test = .isA Ty.«SimpleField» ∧
      f.target = Cpp.«GxSimpleArrayField»)) = true := by decide +kernel
    obtain ⟨f, hf, h⟩ := List.any_eq_true.1 this
    obtain ⟨h1, h2, h3⟩ := of_decide_eq_true h
    cases f
    simp only at h1 h2 h3
    subst h1 h2 h3
    exact hf
  exact ⟨_, h, rfl, made_simple, loose_ub⟩

end Kml.Dom
