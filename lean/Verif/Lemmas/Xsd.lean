import Verif.Model.Xsd
import Verif.Lemmas.StdMap

namespace Kml.Xsd

theorem names_nodup : (kml22Elements.map (·.1)).Nodup := by decide +kernel

theorem elements_length : kml22Elements.length = 222 := by decide +kernel

attribute [local irreducible] kml22Elements

theorem get_fillTags_absent {k : Str} : ∀ (rows : List (Str × XsdKind)) (i : Nat) (m : StdMap Nat),
    k ∉ rows.map (·.1) → (fillTags rows i m).get k = m.get k
  | [], _, _, _ => rfl
  | (n, x) :: rows, i, m, h => by
    simp only [List.map_cons, List.mem_cons, not_or] at h
    simp only [fillTags]
    split
    · rw [get_fillTags_absent rows _ _ h.2, StdMap.get_set, if_neg (Ne.symm h.1)]
    · rfl

theorem get_fillTags {k : Str} {x : XsdKind} : ∀ (rows : List (Str × XsdKind)) (i j : Nat)
    (m : StdMap Nat), (rows.map (·.1)).Nodup → rows[j]? = some (k, x) → i + j < Ty.Invalid →
    (fillTags rows i m).get k = some (i + j)
  | [], _, _, _, _, h, _ => by simp at h
  | (n, y) :: rows, i, 0, m, hd, h, hlt => by
    simp only [List.getElem?_cons_zero, Option.some.injEq, Prod.mk.injEq] at h
    simp only [List.map_cons, List.nodup_cons] at hd
    simp only [fillTags, Nat.add_zero] at hlt ⊢
    rw [if_pos hlt, get_fillTags_absent rows _ _ (h.1 ▸ hd.1), StdMap.get_set, if_pos h.1]
  | (n, y) :: rows, i, j + 1, m, hd, h, hlt => by
    simp only [List.getElem?_cons_succ] at h
    simp only [List.map_cons, List.nodup_cons] at hd
    have hi : i < Ty.Invalid := by omega
    simp only [fillTags]
    rw [if_pos hi, get_fillTags rows (i + 1) j _ hd.2 h (by omega)]
    congr 1; omega

theorem fillTags_value {k : Str} {v : Nat} : ∀ (rows : List (Str × XsdKind)) (i : Nat)
    (m : StdMap Nat), (fillTags rows i m).get k = some v →
    m.get k = some v ∨ (i ≤ v ∧ v < Ty.Invalid ∧ ∃ x, rows[v - i]? = some (k, x))
  | [], _, _, h => .inl h
  | (n, y) :: rows, i, m, h => by
    simp only [fillTags] at h
    split at h
    · rename_i hi
      rcases fillTags_value rows (i + 1) _ h with h | ⟨h1, h2, x, h3⟩
      · rw [StdMap.get_set] at h
        split at h
        · rename_i hk
          injection h with h
          exact .inr ⟨by omega, by omega, y, by subst h; subst hk; simp⟩
        · exact .inl h
      · refine .inr ⟨by omega, h2, x, ?_⟩
        have : v - i = (v - (i + 1)) + 1 := by omega
        rw [this]; simpa using h3
    · exact .inl h

theorem elementId_of_row {id : Ty} {n : Str} {x : XsdKind} (h : kml22Elements[id]? = some (n, x))
    (hlt : id < Ty.Invalid) : elementId n = id := by
  have := get_fillTags (k := n) kml22Elements 0 id [] names_nodup h (by rw [Nat.zero_add]; exact hlt)
  unfold elementId tagToId
  rw [this]
  exact Nat.zero_add id

theorem row_of_elementId {n : Str} (h : elementId n ≠ Ty.Unknown) :
    elementId n < Ty.Invalid ∧ ∃ x, kml22Elements[elementId n]? = some (n, x) := by
  have : ∀ v, tagToId.get n = some v → v < Ty.Invalid ∧ ∃ x, kml22Elements[v]? = some (n, x) := by
    intro v hv
    unfold tagToId at hv
    rcases fillTags_value kml22Elements 0 [] hv with h | ⟨_, h2, x, h3⟩
    · simp [StdMap.get] at h
    · exact ⟨h2, x, by simpa using h3⟩
  rcases Option.eq_none_or_eq_some (tagToId.get n) with hv | ⟨v, hv⟩
  · unfold elementId at h; rw [hv] at h; exact absurd rfl h
  · have he : elementId n = v := by unfold elementId; rw [hv]
    rw [he]; exact this v hv

theorem row_exists {id : Ty} (h : id < Ty.Invalid) : ∃ r, kml22Elements[id]? = some r := by
  have : id < kml22Elements.length := by rw [elements_length]; exact Nat.lt_trans h (by decide)
  exact ⟨kml22Elements[id], by simp [this]⟩

end Kml.Xsd
