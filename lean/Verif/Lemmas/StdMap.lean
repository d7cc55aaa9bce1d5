import Verif.Model.StdMap
/-! `StdMap` behaves as a finite map. -/
namespace Kml

theorem strLt_irrefl : ∀ (a : Str), strLt a a = false
  | [] => rfl
  | c :: a => by simp [strLt, strLt_irrefl a]

theorem strLt_trans : ∀ {a b c : Str}, strLt a b = true → strLt b c = true → strLt a c = true
  | [], b, [], h1, h2 => by cases b <;> simp [strLt] at h1 h2
  | [], b, _ :: _, h1, h2 => by simp [strLt]
  | _ :: _, [], _, h1, _ => by simp [strLt] at h1
  | _ :: _, _ :: _, [], _, h2 => by simp [strLt] at h2
  | x :: a, y :: b, z :: c, h1, h2 => by
    simp only [strLt, Bool.or_eq_true, Bool.and_eq_true, decide_eq_true_eq] at h1 h2 ⊢
    rcases h1 with h1 | ⟨h1, h1'⟩ <;> rcases h2 with h2 | ⟨h2, h2'⟩
    · left; omega
    · left; omega
    · left; omega
    · right; exact ⟨by omega, strLt_trans h1' h2'⟩

theorem strLt_total : ∀ {a b : Str}, strLt a b = false → a ≠ b → strLt b a = true
  | [], [], _, h => absurd rfl h
  | [], _ :: _, h, _ => by simp [strLt] at h
  | _ :: _, [], _, _ => by simp [strLt]
  | x :: a, y :: b, h, hne => by
    simp only [strLt, Bool.or_eq_false_iff, Bool.and_eq_false_iff, decide_eq_false_iff_not, Bool.or_eq_true,
      Bool.and_eq_true, decide_eq_true_eq] at h ⊢
    by_cases hxy : x.toNat = y.toNat
    · right
      have hx : x = y := Char.toNat_inj.1 hxy
      subst hx
      refine ⟨rfl, strLt_total ?_ (fun h' => hne (by rw [h']))⟩
      rcases h.2 with h | h
      · exact absurd rfl h
      · exact h
    · left; omega

theorem strLt_ne {a b : Str} (h : strLt a b = true) : a ≠ b := by
  rintro rfl
  rw [strLt_irrefl] at h
  cases h

namespace StdMap
variable {β : Type u} {m : StdMap β} {k k' : Str} {v : β}

theorem sorted_nil : Sorted ([] : StdMap β) := List.Pairwise.nil

theorem get_none_of_lt (h : ∀ e ∈ m, strLt k e.1 = true) : get m k = none := by
  induction m with
  | nil => rfl
  | cons e m ih =>
    obtain ⟨k', v⟩ := e
    simp only [List.mem_cons, forall_eq_or_imp] at h
    rw [get, if_neg (fun hk => strLt_ne h.1 hk.symm), ih h.2]

theorem mem_of_get (h : get m k = some v) : (k, v) ∈ m := by
  induction m with
  | nil => simp [get] at h
  | cons e m ih =>
    obtain ⟨k', v'⟩ := e
    rw [get] at h
    split at h
    · rename_i hk; cases h; simp [hk]
    · simp [ih h]

theorem get_of_mem (hs : Sorted m) (h : (k, v) ∈ m) : get m k = some v := by
  induction m with
  | nil => simp at h
  | cons e m ih =>
    obtain ⟨k', v'⟩ := e
    cases hs with
    | cons h1 h2 =>
      simp only [List.mem_cons, Prod.mk.injEq] at h
      rw [get]
      rcases h with ⟨rfl, rfl⟩ | h
      · simp
      · rw [if_neg (strLt_ne (h1 _ h)), ih h2 h]

theorem get_eq_some_iff (hs : Sorted m) : get m k = some v ↔ (k, v) ∈ m :=
  ⟨mem_of_get, get_of_mem hs⟩

theorem get_set (m : StdMap β) (k : Str) (v : β) (k' : Str) :
    get (set m k v) k' = if k = k' then some v else get m k' := by
  induction m with
  | nil => simp [set, get]
  | cons e m ih =>
    obtain ⟨k2, v2⟩ := e
    rw [set]
    split
    · rename_i h
      subst h
      simp only [get]
      split <;> rfl
    · split
      · rw [get]
      · rename_i h1 h2
        rw [get, ih, get]
        by_cases hk : k2 = k'
        · subst hk; simp [Ne.symm h1]
        · simp [hk]

theorem mem_set_keys {e : Str × β} (h : e ∈ set m k v) : e.1 = k ∨ e ∈ m := by
  induction m with
  | nil => simp [set] at h; simp [h]
  | cons e' m ih =>
    obtain ⟨k2, v2⟩ := e'
    rw [set] at h
    split at h
    · simp only [List.mem_cons] at h
      rcases h with rfl | h
      · simp
      · simp [h]
    · split at h
      · simp only [List.mem_cons] at h
        rcases h with rfl | h
        · simp
        · simp [h]
      · simp only [List.mem_cons] at h
        rcases h with rfl | h
        · simp
        · rcases ih h with h | h
          · simp [h]
          · simp [h]

theorem sorted_set (hs : Sorted m) (k : Str) (v : β) : Sorted (set m k v) := by
  induction m with
  | nil => simp [set, Sorted]
  | cons e m ih =>
    obtain ⟨k2, v2⟩ := e
    cases hs with
    | cons h1 h2 =>
      rw [set]
      split
      · rename_i h
        subst h
        exact List.Pairwise.cons h1 h2
      · split
        · rename_i h3 h4
          refine List.Pairwise.cons ?_ (List.Pairwise.cons h1 h2)
          intro e he
          simp only [List.mem_cons] at he
          rcases he with rfl | he
          · exact h4
          · exact strLt_trans h4 (h1 e he)
        · rename_i h3 h4
          refine List.Pairwise.cons ?_ (ih h2)
          intro e he
          rcases mem_set_keys he with he | he
          · simp only
            rw [he]
            exact strLt_total (by simpa using h4) (Ne.symm h3)
          · exact h1 e he

theorem erase_sublist (m : StdMap β) (k : Str) : (erase m k).Sublist m := by
  induction m with
  | nil => exact List.Sublist.refl _
  | cons e m ih =>
    obtain ⟨k2, v2⟩ := e
    rw [erase]
    split
    · exact List.sublist_cons_self _ _
    · exact ih.cons_cons _

theorem sorted_erase (hs : Sorted m) (k : Str) : Sorted (erase m k) :=
  List.Pairwise.sublist (erase_sublist m k) hs

theorem get_erase (hs : Sorted m) (k k' : Str) : get (erase m k) k' = if k = k' then none else get m k' := by
  induction m with
  | nil => simp [erase, get]
  | cons e m ih =>
    obtain ⟨k2, v2⟩ := e
    cases hs with
    | cons h1 h2 =>
      rw [erase]
      split
      · rename_i h
        subst h
        split
        · rename_i h
          subst h
          exact get_none_of_lt h1
        · rename_i h
          rw [get, if_neg h]
      · rename_i h
        rw [get, ih h2, get]
        by_cases hk : k2 = k'
        · subst hk; simp [Ne.symm h]
        · simp [hk]

theorem nodup_keys (hs : Sorted m) : (m.map (·.1)).Nodup := by
  rw [List.nodup_iff_pairwise_ne, List.pairwise_map]
  exact List.Pairwise.imp (fun h => strLt_ne h) hs

/-- Two sorted maps with the same lookups are the same. -/
theorem ext {m' : StdMap β} (hs : Sorted m) (hs' : Sorted m') (h : ∀ k, get m k = get m' k) : m = m' := by
  have hmem : ∀ e, e ∈ m ↔ e ∈ m' := by
    intro ⟨k, v⟩
    rw [← get_eq_some_iff hs, ← get_eq_some_iff hs', h]
  have lt_of : ∀ {l : StdMap β} {e e'}, Sorted (e :: l) → e' ∈ e :: l → e' = e ∨ strLt e.1 e'.1 = true := by
    intro l e e' hl he
    simp only [List.mem_cons] at he
    rcases he with rfl | he
    · left; rfl
    · right
      cases hl with
      | cons h1 h2 => exact h1 _ he
  induction m generalizing m' with
  | nil =>
    cases m' with
    | nil => rfl
    | cons e m' => exact absurd ((hmem e).2 (by simp)) (by simp)
  | cons e m ih =>
    cases m' with
    | nil => exact absurd ((hmem e).1 (by simp)) (by simp)
    | cons e' m' =>
      have : e = e' := by
        rcases lt_of hs' ((hmem e).1 (by simp)) with h1 | h1
        · exact h1
        · rcases lt_of hs ((hmem e').2 (by simp)) with h2 | h2
          · exact h2.symm
          · have := strLt_trans h1 h2
            rw [strLt_irrefl] at this
            cases this
      subst this
      congr 1
      obtain ⟨k, v⟩ := e
      cases hs with
      | cons h1 h2 =>
        cases hs' with
        | cons h1' h2' =>
          apply ih h2 h2'
          · intro k'
            by_cases hk : k = k'
            · subst hk
              rw [get_none_of_lt h1, get_none_of_lt h1']
            · have := h k'
              simpa [get, hk] using this
          · intro x
            have := hmem x
            simp only [List.mem_cons] at this
            constructor
            · intro hx
              rcases this.1 (Or.inr hx) with rfl | h3
              · exact absurd rfl (strLt_ne (h1 _ hx))
              · exact h3
            · intro hx
              rcases this.2 (Or.inr hx) with rfl | h3
              · exact absurd rfl (strLt_ne (h1' _ hx))
              · exact h3

/-- Setting a key that is absent adds one entry; setting a present key keeps the number of entries. -/
theorem set_perm (m : StdMap β) (hs : Sorted m) (k : Str) (v : β) :
    (set m k v).Perm ((k, v) :: erase m k) := by
  induction m with
  | nil => exact List.Perm.refl _
  | cons e m ih =>
    obtain ⟨k2, v2⟩ := e
    cases hs with
    | cons h1 h2 =>
      rw [set, erase]
      split
      · exact List.Perm.refl _
      · split
        · rename_i h3 h4
          have : erase m k = m := by
            have hne : ∀ e ∈ m, e.1 ≠ k := fun e he h => by
              have := h1 e he
              rw [h] at this
              have := strLt_trans this h4
              rw [strLt_irrefl] at this; cases this
            clear ih h1 h2
            induction m with
            | nil => rfl
            | cons e m ih =>
              obtain ⟨k3, v3⟩ := e
              rw [erase, if_neg (hne (k3, v3) (by simp)), ih (fun e he => hne e (by simp [he]))]
          rw [this]
        · exact ((ih h2).cons _).trans (List.Perm.swap _ _ _)

theorem erase_eq_filter (hs : Sorted m) (k : Str) : erase m k = m.filter (fun e => e.1 ≠ k) := by
  induction m with
  | nil => rfl
  | cons e m ih =>
    obtain ⟨k2, v2⟩ := e
    cases hs with
    | cons h1 h2 =>
      rw [erase, List.filter_cons]
      split
      · rename_i h
        subst h
        simp only [ne_eq, not_true_eq_false, decide_false, Bool.false_eq_true, if_false]
        symm
        rw [List.filter_eq_self]
        intro e he
        simpa using (strLt_ne (h1 e he)).symm
      · rename_i h
        simp only [ne_eq, h, not_false_eq_true, decide_true, if_true]
        rw [ih h2]
        try rfl

end StdMap
end Kml
