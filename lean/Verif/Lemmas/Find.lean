import Verif.Model.Basic
/-! Facts about `std::string::find`. -/
namespace Kml

theorem findFrom_some {pat s : Str} {i : Nat} (h : findFrom pat s = some i) :
    pat <+: s.drop i ∧ i ≤ s.length ∧ ∀ j < i, ¬ pat <+: s.drop j := by
  induction s generalizing i with
  | nil =>
    unfold findFrom at h
    split at h
    · cases h; simp_all
    · cases h
  | cons c s ih =>
    unfold findFrom at h
    split at h
    · rename_i hp
      cases h
      simp_all
    · rename_i hp
      simp only [Option.map_eq_some_iff] at h
      obtain ⟨a, ha, rfl⟩ := h
      obtain ⟨h1, h2, h3⟩ := ih ha
      refine ⟨by simpa using h1, by simpa using h2, ?_⟩
      intro j hj
      cases j with
      | zero => simpa using hp
      | succ j => simpa using h3 j (by omega)

theorem findFrom_none {pat s : Str} (h : findFrom pat s = none) (j : Nat) : j ≤ s.length → ¬ pat <+: s.drop j := by
  induction s generalizing j with
  | nil =>
    unfold findFrom at h
    split at h
    · cases h
    · simp_all
  | cons c s ih =>
    unfold findFrom at h
    split at h
    · cases h
    · rename_i hp
      simp only [Option.map_eq_none_iff] at h
      intro hj
      cases j with
      | zero => simpa using hp
      | succ j => simpa using ih h j (by simpa using hj)

theorem findFrom_eq_some_iff {pat s : Str} {i : Nat} :
    findFrom pat s = some i ↔ pat <+: s.drop i ∧ i ≤ s.length ∧ ∀ j < i, ¬ pat <+: s.drop j := by
  constructor
  · exact findFrom_some
  · rintro ⟨h1, h2, h3⟩
    cases hf : findFrom pat s with
    | none => exact absurd h1 (findFrom_none hf i h2)
    | some k =>
      obtain ⟨k1, k2, k3⟩ := findFrom_some hf
      rcases Nat.lt_trichotomy i k with h | h | h
      · exact absurd h1 (k3 i h)
      · rw [h]
      · exact absurd k1 (h3 k h)

theorem findFrom_eq_none_iff {pat s : Str} :
    findFrom pat s = none ↔ ∀ j ≤ s.length, ¬ pat <+: s.drop j := by
  constructor
  · exact findFrom_none
  · intro h
    cases hf : findFrom pat s with
    | none => rfl
    | some k =>
      obtain ⟨k1, k2, k3⟩ := findFrom_some hf
      exact absurd k1 (h k k2)

/-- `find` finds something exactly when the pattern occurs. -/
theorem findFrom_eq_none_iff_infix {pat s : Str} : findFrom pat s = none ↔ ¬ pat <:+: s := by
  rw [findFrom_eq_none_iff]
  constructor
  · intro h ⟨a, b, hab⟩
    refine h a.length (by rw [← hab]; simp) ?_
    refine ⟨b, ?_⟩
    rw [← hab]; simp
  · intro h j _ hp
    exact h (hp.isInfix.trans (List.drop_suffix j s).isInfix)

theorem findFrom_isSome_iff_infix {pat s : Str} : (findFrom pat s).isSome ↔ pat <:+: s := by
  have := @findFrom_eq_none_iff_infix pat s
  cases h : findFrom pat s <;> simp_all

/-- A single-character pattern is found at the first such character. -/
theorem findFrom_single {c : Char} {a b : Str} (h : c ∉ a) : findFrom [c] (a ++ c :: b) = some a.length := by
  rw [findFrom_eq_some_iff]
  refine ⟨by simp, by simp, ?_⟩
  intro j hj hp
  have h1 : (a ++ c :: b).drop j = a.drop j ++ c :: b := by
    rw [List.drop_append_of_le_length (by omega)]
  rw [h1, List.drop_eq_getElem_cons hj] at hp
  simp only [List.cons_append, List.cons_prefix_cons] at hp
  exact h (hp.1 ▸ List.getElem_mem hj)

theorem findFrom_single_none {c : Char} {s : Str} : findFrom [c] s = none ↔ c ∉ s := by
  rw [findFrom_eq_none_iff_infix]
  constructor
  · intro h hc
    obtain ⟨a, b, rfl⟩ := List.append_of_mem hc
    exact h ⟨a, b, by simp⟩
  · intro h hp
    exact h (hp.subset (by simp))

/-- Characters that do not start the pattern are skipped. -/
theorem findFrom_skip {c0 : Char} {p a r : Str} (h : c0 ∉ a) :
    findFrom (c0 :: p) (a ++ r) = (findFrom (c0 :: p) r).map (· + a.length) := by
  induction a with
  | nil => simp
  | cons x a ih =>
    simp only [List.mem_cons, not_or] at h
    simp only [List.cons_append]
    rw [findFrom, if_neg (by simp [List.isPrefixOf, h.1]), ih h.2]
    cases findFrom (c0 :: p) r <;> simp; omega

theorem find_append {a r pat : Str} : find (a ++ r) pat a.length = (findFrom pat r).map (· + a.length) := by
  simp [find]

theorem find_zero {s pat : Str} : find s pat 0 = findFrom pat s := by
  simp [find]

end Kml
