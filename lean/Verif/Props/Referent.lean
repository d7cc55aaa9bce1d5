import Verif.Model.Referent
import Mathlib.Data.List.Count
import Mathlib.Data.List.Nodup
/-! Property C19: reference counting. -/
namespace Kml.Referent

/-- How many smart pointers point to `o`. -/
def pointersTo (s : State) (o : Nat) : Nat := (s.ptrs.map Prod.snd).count o

/-- The invariant; `todo` are the targets whose pointer is gone but whose count is not yet decremented. -/
structure Inv (s : State) (todo : List Nat) : Prop where
  ub : s.ub = false
  count : ∀ o, s.alive o = true → s.count o = pointersTo s o + todo.count o
  pos : ∀ o, s.alive o = true → 0 < pointersTo s o + todo.count o
  target : ∀ p ∈ s.ptrs, s.alive p.2 = true
  pending : ∀ o ∈ todo, s.alive o = true
  owner : ∀ p ∈ s.ptrs, ∀ o, p.1 = .member o → s.alive o = true
  bound : ∀ o, s.alive o = true → o < s.next
  freed : ∀ o, o ∈ s.freed ↔ o < s.next ∧ s.alive o = false
  nodup : s.freed.Nodup

theorem split_count (l : List (Owner × Nat)) (d o : Nat) :
    ((l.filter fun p => decide (p.1 ≠ .member d)).map Prod.snd).count o +
      ((l.filter fun p => decide (p.1 = .member d)).map Prod.snd).count o = (l.map Prod.snd).count o := by
  induction l with
  | nil => rfl
  | cons a l ih =>
    by_cases h : a.1 = .member d <;> simp [h, List.count_cons] at ih ⊢ <;> omega

theorem releaseAll_inv (s : State) (todo : List Nat) (h : Inv s todo) : Inv (releaseAll s todo) [] := by
  fun_induction releaseAll s todo with
  | case1 s => exact h
  | case2 s d todo hc ih =>
    apply ih
    have hd : s.alive d = true := h.pending d (by simp)
    have hcnt := h.count d hd
    simp only [release, if_true] at hc
    have hz : pointersTo s d = 0 ∧ todo.count d = 0 := by
      rw [hcnt] at hc
      simp only [List.count_cons_self] at hc
      omega
    have hnp : ∀ p ∈ s.ptrs, p.2 ≠ d := by
      intro p hp he
      have : d ∈ s.ptrs.map Prod.snd := List.mem_map.2 ⟨p, hp, he⟩
      have := List.count_pos_iff.2 this
      have := hz.1
      unfold pointersTo at this
      omega
    have hnt : d ∉ todo := List.count_eq_zero.1 hz.2
    have hsp : ∀ o, pointersTo (delete (release s d) d) o + (members s d ++ todo).count o
        = pointersTo s o + todo.count o := by
      intro o
      have := split_count s.ptrs d o
      simp only [pointersTo, delete, release, members, List.count_append]
      omega
    refine ⟨?_, ?_, ?_, ?_, ?_, ?_, ?_, ?_, ?_⟩
    · simp [delete, release, h.ub, hd]
    · intro o ho
      simp only [delete, release] at ho
      by_cases hod : o = d
      · simp [hod] at ho
      · rw [if_neg hod] at ho
        have h1 := h.count o ho
        have h2 := hsp o
        have hne : ¬ d = o := fun h => hod h.symm
        simp only [List.count_cons, beq_iff_eq, if_neg hne] at h1
        have : (delete (release s d) d).count o = s.count o := by simp [delete, release, hod]
        rw [this, h1]
        omega
    · intro o ho
      simp only [delete, release] at ho
      by_cases hod : o = d
      · simp [hod] at ho
      · rw [if_neg hod] at ho
        have h1 := h.pos o ho
        have h2 := hsp o
        have hne : ¬ d = o := fun h => hod h.symm
        simp only [List.count_cons, beq_iff_eq, if_neg hne] at h1
        omega
    · intro p hp
      have hp' : p ∈ s.ptrs := (List.mem_filter.1 hp).1
      simp only [delete, release]
      rw [if_neg (hnp p hp')]
      exact h.target p hp'
    · intro o ho
      simp only [delete, release]
      rcases List.mem_append.1 ho with ho | ho
      · simp only [members] at ho
        obtain ⟨p, hp, rfl⟩ := List.mem_map.1 ho
        have hp' : p ∈ s.ptrs := (List.mem_filter.1 hp).1
        rw [if_neg (hnp p hp')]
        exact h.target p hp'
      · have hne : o ≠ d := fun he => hnt (he ▸ ho)
        rw [if_neg hne]
        exact h.pending o (by simp [ho])
    · intro p hp o ho
      have hp' := List.mem_filter.1 hp
      simp only [delete, release]
      have : o ≠ d := by
        rintro rfl
        simp [ho] at hp'
      rw [if_neg this]
      exact h.owner p hp'.1 o ho
    · intro o ho
      simp only [delete, release] at ho ⊢
      split at ho
      · cases ho
      · exact h.bound o ho
    · intro o
      simp only [delete, release, List.mem_cons, h.freed]
      by_cases hod : o = d
      · subst hod; simp [h.bound o hd]
      · simp [hod]
    · simp only [delete, release, List.nodup_cons]
      refine ⟨?_, h.nodup⟩
      rw [h.freed]
      simp [hd]
  | case3 s d todo hc ih =>
    apply ih
    have hd : s.alive d = true := h.pending d (by simp)
    have hcnt := h.count d hd
    simp only [release, if_true] at hc
    refine ⟨?_, ?_, ?_, h.target, fun o ho => h.pending o (by simp [ho]), h.owner, h.bound, h.freed, h.nodup⟩
    · simp [release, h.ub, hd]
    · intro o ho
      have h1 := h.count o ho
      simp only [release, pointersTo] at *
      by_cases hod : o = d
      · subst hod
        simp only [if_true]
        rw [h1]
        simp only [List.count_cons_self]
        omega
      · have hne : ¬ d = o := fun h => hod h.symm
        simp only [List.count_cons, beq_iff_eq, if_neg hne] at h1
        rw [if_neg hod, h1]
        simp
    · intro o ho
      have h1 := h.pos o ho
      by_cases hod : o = d
      · subst hod
        rw [hcnt] at hc
        simp only [List.count_cons_self] at hc
        simp only [release, pointersTo] at *
        omega
      · have hne : ¬ d = o := fun h => hod h.symm
        simp only [List.count_cons, beq_iff_eq, if_neg hne] at h1
        simp only [release, pointersTo] at *
        omega

theorem step_inv (s : State) (h : Inv s []) (op : Op) : Inv (step s op) [] := by
  cases op with
  | new a =>
    simp only [step]
    split
    · rename_i hu
      have hdead : s.alive s.next = false := by
        cases hh : s.alive s.next
        · rfl
        · exact absurd (h.bound _ hh) (by omega)
      have hnone : pointersTo s s.next = 0 := by
        unfold pointersTo
        rw [List.count_eq_zero]
        intro hm
        obtain ⟨p, hp, he⟩ := List.mem_map.1 hm
        have := h.target p hp
        rw [he, hdead] at this
        cases this
      refine ⟨?_, ?_, ?_, ?_, by simp, ?_, ?_, ?_, h.nodup⟩
      · simp [addRef, h.ub]
      · intro o ho
        simp only [addRef, pointersTo, List.map_cons, List.count_cons, beq_iff_eq, List.count_nil] at ho ⊢
        by_cases hon : o = s.next
        · subst hon
          unfold pointersTo at hnone
          simp [hnone]
        · have hne : ¬ s.next = o := fun h => hon h.symm
          simp only [if_neg hon] at ho ⊢
          rw [h.count o ho]
          simp [pointersTo, hne]
      · intro o ho
        simp only [addRef, pointersTo, List.map_cons, List.count_cons, beq_iff_eq, List.count_nil] at ho ⊢
        by_cases hon : o = s.next
        · subst hon; simp
        · simp only [if_neg hon] at ho
          have := h.pos o ho
          simp only [pointersTo, List.count_nil] at this
          omega
      · intro p hp
        simp only [addRef, List.mem_cons] at hp ⊢
        rcases hp with rfl | hp
        · simp
        · have := h.target p hp
          split
          · rfl
          · exact this
      · intro p hp o ho
        simp only [addRef, List.mem_cons] at hp ⊢
        split
        · rfl
        · rcases hp with rfl | hp
          · simp only at ho; subst ho; exact hu
          · exact h.owner p hp o ho
      · intro o ho
        simp only [addRef] at ho ⊢
        split at ho
        · omega
        · have := h.bound o ho; omega
      · intro o
        simp only [addRef, h.freed]
        by_cases hon : o = s.next
        · subst hon; simp
        · simp only [if_neg hon]
          constructor
          · rintro ⟨h1, h2⟩; exact ⟨by omega, h2⟩
          · rintro ⟨h1, h2⟩; exact ⟨by omega, h2⟩
    · exact h
  | copy src t a =>
    simp only [step]
    split
    · rename_i hu
      have ht : s.alive t = true := h.target _ hu.1
      refine ⟨?_, ?_, ?_, ?_, by simp, ?_, h.bound, h.freed, h.nodup⟩
      · simp [addRef, h.ub, ht]
      · intro o ho
        have h1 := h.count o ho
        simp only [addRef, pointersTo, List.map_cons, List.count_cons, beq_iff_eq, List.count_nil] at h1 ⊢
        by_cases hot : o = t
        · subst hot; simp only [if_true]; rw [h1]; omega
        · have hne : ¬ t = o := fun h => hot h.symm
          simp only [if_neg hot, if_neg hne]; rw [h1]; rfl
      · intro o ho
        have h1 := h.pos o ho
        simp only [addRef, pointersTo, List.map_cons, List.count_cons, beq_iff_eq, List.count_nil] at h1 ⊢
        omega
      · intro p hp
        simp only [addRef, List.mem_cons] at hp ⊢
        rcases hp with rfl | hp
        · exact ht
        · exact h.target p hp
      · intro p hp o ho
        simp only [addRef, List.mem_cons] at hp ⊢
        rcases hp with rfl | hp
        · simp only at ho; subst ho; exact hu.2
        · exact h.owner p hp o ho
    · exact h
  | drop a t =>
    simp only [step]
    split
    · rename_i hm
      apply releaseAll_inv
      have hcnt : ∀ o, ((s.ptrs.erase (a, t)).map Prod.snd).count o + (if t = o then 1 else 0) = pointersTo s o := by
        intro o
        have hp := (List.perm_cons_erase hm).map Prod.snd
        have := hp.count_eq o
        simp only [List.map_cons, List.count_cons, beq_iff_eq] at this
        exact this.symm
      refine ⟨h.ub, ?_, ?_, ?_, ?_, ?_, h.bound, h.freed, h.nodup⟩
      · intro o ho
        have h1 := h.count o ho
        have h2 := hcnt o
        simp only [pointersTo, List.count_cons, beq_iff_eq, List.count_nil] at *
        rw [h1]
        omega
      · intro o ho
        have h1 := h.pos o ho
        have h2 := hcnt o
        simp only [pointersTo, List.count_cons, beq_iff_eq, List.count_nil] at *
        omega
      · exact fun p hp => h.target p (List.mem_of_mem_erase hp)
      · intro o ho
        simp only [List.mem_singleton] at ho
        subst ho
        exact h.target _ hm
      · exact fun p hp => h.owner p (List.mem_of_mem_erase hp)
    · exact h

theorem run_inv (ops : List Op) : Inv (run ops) [] := by
  have : ∀ s, Inv s [] → Inv (ops.foldl step s) [] := by
    induction ops with
    | nil => exact fun s h => h
    | cons op ops ih => exact fun s h => ih _ (step_inv s h op)
  exact this {} ⟨rfl, by simp, by simp, by simp, by simp, by simp, by simp, by simp, by simp⟩

/-- Whatever the history, no dead object is touched. -/
theorem C19_no_use_after_free (ops : List Op) : (run ops).ub = false := (run_inv ops).ub

/-- What `ub` tells: any touch of a dead object sets it, and nothing takes it back. -/
theorem C19_watched (s : State) (o : Nat) (h : s.alive o = false ∨ s.ub = true) :
    (addRef s o).ub = true ∧ (release s o).ub = true ∧ (delete s o).ub = true := by
  rcases h with h | h <;> simp [addRef, release, delete, h]

/-- An object that was made is live exactly as long as some smart pointer points to it, and it has been destroyed
otherwise. -/
theorem C19_alive_iff_pointed (ops : List Op) (o : Nat) (h : o < (run ops).next) :
    ((run ops).alive o = true ↔ ∃ a, (a, o) ∈ (run ops).ptrs) ∧
    (o ∈ (run ops).freed ↔ ¬ ∃ a, (a, o) ∈ (run ops).ptrs) := by
  have hi := run_inv ops
  have key : (run ops).alive o = true ↔ ∃ a, (a, o) ∈ (run ops).ptrs := by
    constructor
    · intro ha
      have hp := hi.pos o ha
      simp only [pointersTo, List.count_nil, Nat.add_zero] at hp
      obtain ⟨p, hp, he⟩ := List.mem_map.1 (List.count_pos_iff.1 hp)
      exact ⟨p.1, by rw [← he]; exact hp⟩
    · rintro ⟨a, ha⟩
      exact hi.target _ ha
  refine ⟨key, ?_⟩
  rw [hi.freed, ← key]
  simp [h]

/-- No object is destroyed twice. -/
theorem C19_freed_once (ops : List Op) : (run ops).freed.Nodup := (run_inv ops).nodup

/-- The reference count of a live object is the number of smart pointers to it. -/
theorem C19_count (ops : List Op) (o : Nat) (h : (run ops).alive o = true) :
    (run ops).count o = ((run ops).ptrs.filter fun p => decide (p.2 = o)).length := by
  rw [(run_inv ops).count o h]
  simp only [pointersTo, List.count_nil]
  have : ∀ l : List (Owner × Nat), (l.map Prod.snd).count o = (l.filter fun p => decide (p.2 = o)).length := by
    intro l
    induction l with
    | nil => rfl
    | cons p l ih => by_cases hp : p.2 = o <;> simp [hp, ih]
  rw [this]
  simp

/-- A document with a folder, and a second handle on the folder.  Dropping the document keeps the folder. -/
example :
    let s := run [.new (.client 0), .new (.member 0), .copy (.member 0) 1 (.client 1), .drop (.client 0) 0]
    s.alive 0 = false ∧ s.alive 1 = true ∧ s.freed = [0] ∧ s.count 1 = 1 := by
  simp [run, step, releaseAll, release, delete, addRef, usable, members]

/-- Dropping the only handle of the document destroys the folder too. -/
example : (run [.new (.client 0), .new (.member 0), .drop (.client 0) 0]).freed = [1, 0] := by
  simp [run, step, releaseAll, release, delete, addRef, usable, members]

/-- A cycle of pointers is never freed: an object that only points to itself stays live. -/
theorem C19_cycle_leaks :
    (run [.new (.client 0), .copy (.client 0) 0 (.member 0), .drop (.client 0) 0]).alive 0 = true := by
  simp [run, step, releaseAll, release, addRef, usable]

end Kml.Referent
