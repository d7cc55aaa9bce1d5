import Verif.Spec.Features

/-!
# Lemmas about visiting features
-/

namespace Kml.Dom

open Kml

attribute [local irreducible] kml22Elements Xsd.tagToId classes

theorem not_earlier_self : ∀ is : List Nat, ¬ Earlier is is
  | [], h => h
  | i :: is, h => by
    rcases h with h | h
    · omega
    · exact not_earlier_self is h.2

mutual

/-- The visited features, with the numbers that lead to them. -/
theorem visit_spec : (e : Elem) → ∃ l : List (List Nat × Elem),
    visitFeatures e = l.map (fun r => (featurePath r.1, r.2)) ∧
    (∀ is x, (is, x) ∈ l ↔ featureAt e is = some x) ∧ (l.map (·.1)).Pairwise Earlier
  | .field t s => ⟨[([], .field t s)], rfl, (by
      intro is x
      cases is with
      | nil => simp [featureAt, eq_comm]
      | cons i is => simp [featureAt]), by simp⟩
  | .node t a slots mis unk => by
    obtain ⟨l, h1, h2, h3⟩ := visitEach_spec 0 (slots M.«feature_array»)
    rw [visitFeatures]
    by_cases hc : (Elem.node t a slots mis unk).isA Ty.«Container» = true
    · refine ⟨([], .node t a slots mis unk) :: l, ?_, ?_, ?_⟩
      · rw [if_pos hc, h1]; rfl
      · intro is x
        rw [List.mem_cons, h2]
        cases is with
        | nil => simp [featureAt, eq_comm]
        | cons i is =>
          simp only [featureAt, if_pos hc, Nat.zero_add]
          constructor
          · rintro (h | ⟨j, js, he, h⟩)
            · cases h
            · cases he; exact h
          · exact fun h => .inr ⟨i, is, rfl, h⟩
      · rw [List.map_cons, List.pairwise_cons]
        refine ⟨?_, h3⟩
        intro is hi
        obtain ⟨⟨is', x⟩, hm, rfl⟩ := List.mem_map.1 hi
        obtain ⟨j, js, hj, _⟩ := (h2 _ _).1 hm
        have : is' = j :: js := by rw [hj, Nat.zero_add]
        simp only [this, Earlier]
    · refine ⟨[([], .node t a slots mis unk)], by rw [if_neg hc]; rfl, ?_, by simp⟩
      intro is x
      cases is with
      | nil => simp [featureAt, eq_comm]
      | cons i is => simp [featureAt, hc]

theorem visitEach_spec : (i : Nat) → (xs : List Elem) → ∃ l : List (List Nat × Elem),
    visitEach i xs = l.map (fun r => (featurePath r.1, r.2)) ∧
    (∀ is x, (is, x) ∈ l ↔ ∃ j js, is = (i + j) :: js ∧ (xs[j]?).bind (fun y => featureAt y js) = some x) ∧
    (l.map (·.1)).Pairwise Earlier
  | i, [] => ⟨[], rfl, by simp, by simp⟩
  | i, y :: xs => by
    obtain ⟨l1, a1, a2, a3⟩ := visit_spec y
    obtain ⟨l2, b1, b2, b3⟩ := visitEach_spec (i + 1) xs
    refine ⟨l1.map (fun r => (i :: r.1, r.2)) ++ l2, ?_, ?_, ?_⟩
    · rw [visitEach, a1, b1, List.map_append, List.map_map, List.map_map]
      rfl
    · intro is x
      rw [List.mem_append, b2]
      constructor
      · rintro (h | ⟨j, js, rfl, h⟩)
        · obtain ⟨⟨js, x'⟩, hm, he⟩ := List.mem_map.1 h
          cases he
          exact ⟨0, js, rfl, (a2 _ _).1 hm⟩
        · exact ⟨j + 1, js, by rw [show i + 1 + j = i + (j + 1) by omega], h⟩
      · rintro ⟨j, js, rfl, h⟩
        cases j with
        | zero => exact .inl (List.mem_map.2 ⟨(js, x), (a2 _ _).2 h, rfl⟩)
        | succ j => exact .inr ⟨j, js, by rw [show i + 1 + j = i + (j + 1) by omega], h⟩
    · rw [List.map_append, List.pairwise_append]
      refine ⟨?_, b3, ?_⟩
      · rw [List.map_map]
        have : ((fun r : List Nat × Elem => r.1) ∘ fun r : List Nat × Elem => (i :: r.1, r.2)) =
          (fun is => i :: is) ∘ fun r : List Nat × Elem => r.1 := rfl
        rw [this, ← List.map_map]
        exact List.Pairwise.map _ (fun _ _ h => .inr ⟨rfl, h⟩) a3
      · intro is hi js hj
        obtain ⟨⟨is', x⟩, hm, rfl⟩ := List.mem_map.1 hi
        obtain ⟨⟨is0, x0⟩, _, he⟩ := List.mem_map.1 hm
        cases he
        obtain ⟨⟨js', z⟩, hm', rfl⟩ := List.mem_map.1 hj
        obtain ⟨k, ks, hk, _⟩ := (b2 _ _).1 hm'
        simp only [hk]
        exact .inl (by omega)

end

end Kml.Dom
