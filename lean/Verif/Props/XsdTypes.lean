import Verif.Props.XsdFile
import Verif.Spec.XsdTypes
/-! C69: the names of the built-in types, against the standard. -/
namespace Kml.XsdDoc
open Kml

theorem names_standard : primitiveNames = standardTypes.set 17 (chars! "QNAME") := by decide

/-- **C69, the standard.** For every name but `QName` and `QNAME`: it has the id `i` exactly if it is the `i`-th name of the
standard, and it has none exactly if it is not in the standard. -/
theorem C69_standard_partial (s : Str) (h1 : s ≠ chars! "QName") (h2 : s ≠ chars! "QNAME") :
    (∀ i, 0 < i → (getTypeId s = i ↔ standardTypes[i - 1]? = some s)) ∧ (getTypeId s = 0 ↔ s ∉ standardTypes) := by
  have hi : ∀ i, 0 < i → (getTypeId s = i ↔ standardTypes[i - 1]? = some s) := by
    intro i hi
    rw [← C69_types i s hi]
    obtain ⟨k, rfl⟩ : ∃ k, i = k + 1 := ⟨i - 1, by omega⟩
    rw [Nat.add_sub_cancel]
    have e : getTypeName (k + 1) = .ok s ↔ primitiveNames[k]? = some s := by
      unfold getTypeName
      dsimp only
      split
      · next t ht => rw [ht]; exact ⟨fun h => by injection h with h; rw [h], fun h => by injection h with h; rw [h]⟩
      · next ht => rw [ht]; exact ⟨(fun h => nomatch h), (fun h => nomatch h)⟩
    rw [e, names_standard, List.getElem?_set]
    split
    · next hk =>
      subst hk
      have hl : (17 : Nat) < standardTypes.length := by decide
      have hq : standardTypes[17]? = some (chars! "QName") := by decide
      rw [if_pos hl, hq]
      exact ⟨fun h => absurd (Option.some.inj h).symm h2, fun h => absurd (Option.some.inj h).symm h1⟩
    · exact Iff.rfl
  refine ⟨hi, fun h hm => ?_, fun h => ?_⟩
  · obtain ⟨j, hj⟩ := List.mem_iff_getElem?.1 hm
    have := (hi (j + 1) (Nat.succ_pos j)).2 (by rw [Nat.add_sub_cancel]; exact hj)
    omega
  · by_cases h0 : getTypeId s = 0
    · exact h0
    · exact absurd (List.mem_iff_getElem?.2 ⟨_, (hi _ (Nat.pos_of_ne_zero h0)).1 rfl⟩) h

/-- **C69 fails: `QName`.** The type of this name in the standard is not known, and a name that is not in the standard is. -/
theorem C69_qname_violated : chars! "QName" ∈ standardTypes ∧ getTypeId (chars! "QName") = 0 ∧
    chars! "QNAME" ∉ standardTypes ∧ getTypeId (chars! "QNAME") = 18 := by decide

/-- **C69 fails: the invalid id.** xsd_primitive_type.h says that `GetTypeName` gives an empty string for it. -/
theorem C69_invalid_violated : getTypeId (chars! "foo") = 0 ∧ getTypeName 0 = .ub := by
  refine ⟨by decide, rfl⟩

example : standardTypes[7 - 1]? = some (chars! "dateTime") ∧ getTypeId (chars! "dateTime") = 7 := by decide

end Kml.XsdDoc
