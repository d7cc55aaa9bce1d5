import Verif.Model.Basic
/-! Lemmas on `findFrom` (`string::find`). -/
namespace Kml

theorem findFrom_cut {pat : Str} : ∀ {s : Str} {i : Nat}, findFrom pat s = some i →
    ∃ a b, s = a ++ pat ++ b ∧ a.length = i ∧ ∀ j < i, ¬ pat <+: s.drop j
  | [], i, h => by
    simp only [findFrom] at h
    split at h
    · rename_i hp
      cases h
      exact ⟨[], [], by simp [hp], rfl, by omega⟩
    · cases h
  | c :: s, i, h => by
    simp only [findFrom] at h
    split at h
    · rename_i hp
      cases h
      obtain ⟨b, hb⟩ := List.isPrefixOf_iff_prefix.1 hp
      exact ⟨[], b, by simp [hb], rfl, by omega⟩
    · rename_i hp
      simp only [Option.map_eq_some_iff] at h
      obtain ⟨j, hj, rfl⟩ := h
      obtain ⟨a, b, e, l, m⟩ := findFrom_cut hj
      refine ⟨c :: a, b, by simp [e], by simp [l], ?_⟩
      intro k hk
      cases k with
      | zero => simpa [List.isPrefixOf_iff_prefix] using hp
      | succ k => simpa using m k (by omega)

theorem findFrom_not_infix {pat : Str} : ∀ {s : Str}, findFrom pat s = none → ¬ pat <:+: s
  | [], h => by
    simp only [findFrom] at h
    split at h
    · cases h
    · rename_i hp
      intro hi
      exact hp (by simpa using hi)
  | c :: s, h => by
    simp only [findFrom] at h
    split at h
    · cases h
    · rename_i hp
      simp only [Option.map_eq_none_iff] at h
      have := findFrom_not_infix h
      intro hi
      rcases List.infix_cons_iff.1 hi with hi | hi
      · exact hp (List.isPrefixOf_iff_prefix.2 hi)
      · exact this hi

/-- The first hit, when the text before it does not hold the first character of the pattern. -/
theorem findFrom_fresh {c : Char} {pat a b : Str} (h : c ∉ a) : findFrom (c :: pat) (a ++ (c :: pat) ++ b) = some a.length := by
  induction a with
  | nil => simp [findFrom]
  | cons x a ih =>
    simp only [List.mem_cons, not_or] at h
    simp only [List.cons_append, findFrom]
    have : (c :: pat).isPrefixOf (x :: (a ++ c :: pat ++ b)) = false := by
      simp [List.isPrefixOf, h.1]
    have h2 := ih h.2
    simp only [List.append_assoc, List.cons_append] at h2 this
    rw [List.append_assoc, List.cons_append]
    simp [this, h2]

theorem findFrom_absent {c : Char} {pat s : Str} (h : c ∉ s) : findFrom (c :: pat) s = none := by
  induction s with
  | nil => simp [findFrom]
  | cons x s ih =>
    simp only [List.mem_cons, not_or] at h
    simp [findFrom, h.1, ih h.2]

theorem find_at_zero (s pat : Str) : find s pat 0 = findFrom pat s := by
  simp [find]

end Kml
