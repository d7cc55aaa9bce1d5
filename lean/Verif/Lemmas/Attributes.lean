import Verif.Model.Attributes
import Verif.Lemmas.StdMap
/-! Lemmas on attributes. -/
namespace Kml.Attributes
open Kml

theorem merge_spec (input m : Attributes) (hi : StdMap.Sorted input) (hs : StdMap.Sorted m) :
    StdMap.Sorted (mergeAttributes m input) ∧
    ∀ k, StdMap.get (mergeAttributes m input) k = (StdMap.get input k).or (StdMap.get m k) := by
  unfold mergeAttributes
  induction input generalizing m with
  | nil => exact ⟨hs, fun k => by simp [StdMap.get]⟩
  | cons e l ih =>
    obtain ⟨k0, v0⟩ := e
    cases hi with
    | cons hlt hi =>
      obtain ⟨h1, h2⟩ := ih (m.set k0 v0) hi (StdMap.sorted_set hs _ _)
      refine ⟨h1, fun k => ?_⟩
      rw [List.foldl_cons, h2 k, StdMap.get_set, StdMap.get]
      by_cases hk : k0 = k
      · subst hk
        simp [StdMap.get_none_of_lt hlt]
      · simp [hk]

theorem hasPrefix_iff (pre k : Str) : hasPrefix pre k = true ↔ ∃ rest, k = pre ++ ':' :: rest := by
  simp only [hasPrefix, decide_eq_true_eq]
  constructor
  · intro h
    refine ⟨k.drop (pre.length + 1), ?_⟩
    conv => lhs; rw [← List.take_append_drop (pre.length + 1) k, h]
    simp
  · rintro ⟨rest, rfl⟩
    rw [show pre ++ ':' :: rest = (pre ++ [':']) ++ rest by simp]
    rw [show pre.length + 1 = (pre ++ [':']).length by simp, List.take_left]

theorem foldl_erase_spec (l : List (Str × Str)) (m : Attributes) (hs : StdMap.Sorted m) :
    ∀ k, StdMap.get (l.foldl (fun (a : Attributes) e => a.erase e.1) m) k
      = if k ∈ l.map (·.1) then none else StdMap.get m k := by
  induction l generalizing m with
  | nil => intro k; simp
  | cons e l ih =>
    intro k
    rw [List.foldl_cons, ih _ (StdMap.sorted_erase hs _), StdMap.get_erase hs]
    by_cases h1 : k ∈ l.map (·.1)
    · simp [h1]
    · by_cases h2 : e.1 = k
      · simp [h2]
      · have h3 : ¬ k = e.1 := fun h => h2 h.symm
        simp only [h1, if_false, h2, List.map_cons, List.mem_cons, h3, or_self]

theorem foldl_split_spec (pre : Str) (l : Attributes) (hl : StdMap.Sorted l)
    (hp : ∀ e ∈ l, hasPrefix pre e.1 = true) (m : Attributes) :
    ∀ r, StdMap.get (l.foldl (fun (a : Attributes) e => a.set (e.1.drop (pre.length + 1)) e.2) m) r
      = (StdMap.get l (pre ++ ':' :: r)).or (StdMap.get m r) := by
  induction l generalizing m with
  | nil => intro r; simp [StdMap.get]
  | cons e l ih =>
    obtain ⟨k, v⟩ := e
    cases hl with
    | cons hlt hl =>
      intro r
      rw [List.foldl_cons, ih hl (fun e he => hp e (by simp [he])), StdMap.get_set, StdMap.get]
      obtain ⟨rest, rfl⟩ := (hasPrefix_iff pre k).1 (hp (k, v) (by simp))
      have hd : List.drop (pre.length + 1) (pre ++ ':' :: rest) = rest := by
        rw [← List.drop_drop, List.drop_left]; rfl
      simp only [hd]
      by_cases h : rest = r
      · subst h
        simp only [if_true]
        rw [StdMap.get_none_of_lt hlt]; rfl
      · have : ¬ pre ++ ':' :: rest = pre ++ ':' :: r := by simpa using h
        simp [h, this]

theorem split_spec {m : Attributes} (hs : StdMap.Sorted m) (pre : Str) :
    (∀ r, ((splitByPrefix m pre).1.bind fun s => getValue s r) = getValue m (pre ++ ':' :: r)) ∧
    (∀ r, getValue (splitByPrefix m pre).2 (pre ++ ':' :: r) = none) ∧
    (∀ k, (∀ r, k ≠ pre ++ ':' :: r) → getValue (splitByPrefix m pre).2 k = getValue m k) ∧
    ((splitByPrefix m pre).1 = none ↔ ∀ r, getValue m (pre ++ ':' :: r) = none) := by
  let hit : Attributes := m.filter fun e => hasPrefix pre e.1
  have hhs : StdMap.Sorted hit := List.Pairwise.sublist List.filter_sublist hs
  have hhit : ∀ r, StdMap.get hit (pre ++ ':' :: r) = StdMap.get m (pre ++ ':' :: r) := by
    intro r
    cases h : StdMap.get m (pre ++ ':' :: r) with
    | some v =>
      apply StdMap.get_of_mem hhs
      exact List.mem_filter.2 ⟨StdMap.mem_of_get h, (hasPrefix_iff _ _).2 ⟨r, rfl⟩⟩
    | none =>
      cases h2 : StdMap.get hit (pre ++ ':' :: r) with
      | none => rfl
      | some v =>
        have := (List.mem_filter.1 (StdMap.mem_of_get h2)).1
        rw [StdMap.get_of_mem hs this] at h; cases h
  have hsplit := foldl_split_spec pre hit hhs (fun e he => (List.mem_filter.1 he).2) []
  have hsp : ∀ r, StdMap.get (hit.foldl (fun (a : Attributes) e => a.set (e.1.drop (pre.length + 1)) e.2) []) r
      = StdMap.get m (pre ++ ':' :: r) := by
    intro r; rw [hsplit r, hhit r]; simp [StdMap.get]
  have herase := foldl_erase_spec hit m hs
  have hdef : splitByPrefix m pre = (if (hit.foldl (fun (a : Attributes) e => a.set (e.1.drop (pre.length + 1)) e.2) []).isEmpty
      then (none, m) else (some (hit.foldl (fun (a : Attributes) e => a.set (e.1.drop (pre.length + 1)) e.2) []),
        hit.foldl (fun (acc : Attributes) e => acc.erase e.1) m)) := rfl
  rw [hdef]
  by_cases hemp : (hit.foldl (fun (a : Attributes) e => a.set (e.1.drop (pre.length + 1)) e.2) []).isEmpty = true
  · have hnil := List.isEmpty_iff.1 hemp
    have hnone : ∀ r, StdMap.get m (pre ++ ':' :: r) = none := by
      intro r; rw [← hsp r, hnil]; rfl
    rw [if_pos hemp]
    exact ⟨fun r => (hnone r).symm, hnone, fun _ _ => rfl, ⟨fun _ => hnone, fun _ => rfl⟩⟩
  · rw [if_neg hemp]
    refine ⟨hsp, ?_, ?_, ?_⟩
    · intro r
      simp only [getValue]
      rw [herase]
      split
      · rfl
      · rename_i hn
        cases hg : StdMap.get m (pre ++ ':' :: r) with
        | none => rfl
        | some v =>
          rw [← hhit] at hg
          exact absurd (List.mem_map.2 ⟨_, StdMap.mem_of_get hg, rfl⟩) hn
    · intro k hk
      simp only [getValue]
      rw [herase, if_neg]
      intro h
      obtain ⟨e, he, rfl⟩ := List.mem_map.1 h
      obtain ⟨r, hr⟩ := (hasPrefix_iff _ _).1 (List.mem_filter.1 he).2
      exact hk r hr
    · simp only [reduceCtorEq, false_iff]
      intro hall
      apply hemp
      rw [List.isEmpty_iff]
      cases hl : hit.foldl (fun (a : Attributes) e => a.set (e.1.drop (pre.length + 1)) e.2) [] with
      | nil => rfl
      | cons e l =>
        have := hsp e.1
        have h0 : StdMap.get m (pre ++ ':' :: e.1) = none := hall e.1
        rw [hl, h0, StdMap.get] at this
        simp at this

theorem foldl_set_sorted {α : Type} (f : α → Str) (g : α → Str) (l : List α) {m : Attributes} (hs : StdMap.Sorted m) :
    StdMap.Sorted (l.foldl (fun (a : Attributes) e => a.set (f e) (g e)) m) := by
  induction l generalizing m with
  | nil => exact hs
  | cons e l ih => exact ih (StdMap.sorted_set hs _ _)

theorem foldl_erase_sorted (l : List (Str × Str)) {m : Attributes} (hs : StdMap.Sorted m) :
    StdMap.Sorted (l.foldl (fun (a : Attributes) e => a.erase e.1) m) := by
  induction l generalizing m with
  | nil => exact hs
  | cons e l ih => exact ih (StdMap.sorted_erase hs _)

theorem split_sorted {m : Attributes} (hs : StdMap.Sorted m) (pre : Str) :
    StdMap.Sorted ((splitByPrefix m pre).1.getD []) ∧ StdMap.Sorted (splitByPrefix m pre).2 := by
  have h1 : StdMap.Sorted ((m.filter fun e => hasPrefix pre e.1).foldl
      (fun (acc : Attributes) e => acc.set (e.1.drop (pre.length + 1)) e.2) []) :=
    foldl_set_sorted _ _ _ StdMap.sorted_nil
  have h2 : StdMap.Sorted ((m.filter fun e => hasPrefix pre e.1).foldl
      (fun (acc : Attributes) e => acc.erase e.1) m) := foldl_erase_sorted _ hs
  simp only [splitByPrefix]
  split
  · exact ⟨StdMap.sorted_nil, hs⟩
  · exact ⟨h1, h2⟩

end Kml.Attributes
