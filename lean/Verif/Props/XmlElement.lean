import Verif.Model.XmlElement
/-! Property C18: parents. -/
namespace Kml.XmlElement

/-- A proper ancestor: one or more parent links up. -/
inductive Ancestor (h : Heap) : Nat → Nat → Prop
  | parent {e p} : (h e).parent = some p → Ancestor h e p
  | step {e p a} : (h e).parent = some p → Ancestor h p a → Ancestor h e a

theorem addComplexChild_cases (h : Heap) (p e : Nat) :
    (addComplexChild h p e = (false, h)) ∨
    ((h e).parent = none ∧ (h e).file = (h p).file ∧ (addComplexChild h p e).1 = true ∧
      (∀ x, ((addComplexChild h p e).2 x).parent = if x = e then some p else (h x).parent) ∧
      (∀ x, ((addComplexChild h p e).2 x).file = (h x).file) ∧
      (∀ x, ((addComplexChild h p e).2 x).children = if x = p then (h p).children ++ [e] else (h x).children)) := by
  unfold addComplexChild setParent
  cases hp : (h e).parent with
  | some q => left; simp
  | none =>
    by_cases hf : (h e).file = (h p).file
    · right
      simp only [hf, if_true]
      refine ⟨trivial, trivial, trivial, ?_, ?_, ?_⟩
      · intro x
        simp only [Heap.upd]
        by_cases h1 : x = p
        · subst h1
          by_cases h2 : x = e
          · subst h2; simp
          · simp [h2]
        · by_cases h2 : x = e
          · subst h2; simp [h1]
          · simp [h1, h2]
      · intro x
        simp only [Heap.upd]
        by_cases h1 : x = p
        · subst h1
          by_cases h2 : x = e
          · subst h2; simp
          · simp [h2]
        · by_cases h2 : x = e
          · subst h2; simp [h1, hf]
          · simp [h1, h2]
      · intro x
        simp only [Heap.upd]
        by_cases h1 : x = p
        · subst h1
          by_cases h2 : x = e
          · subst h2; simp
          · simp [h2]
        · by_cases h2 : x = e
          · subst h2; simp [h1]
          · simp [h1, h2]
    · left; simp [hf]

theorem step_parent (h : Heap) (op : Op) (x p : Nat) (hp : (h x).parent = some p) :
    ((step h op) x).parent = some p := by
  cases op with
  | setFile e f =>
    simp only [step, setXmlFile]
    split
    · simp only [Heap.upd]
      split
      · rename_i hx; subst hx; exact hp
      · exact hp
    · exact hp
  | add q e =>
    rcases addComplexChild_cases h q e with h1 | ⟨h1, _, _, h2, _⟩
    · simp only [step, h1, hp]
    · simp only [step, h2]
      split
      · rename_i hx; subst hx; rw [h1] at hp; cases hp
      · exact hp
  | delete q i =>
    simp only [step, deleteAt]
    split
    · exact hp
    · simp only [Heap.upd]
      split
      · rename_i hx; subst hx; exact hp
      · exact hp

theorem step_file (h : Heap) (op : Op) (x f : Nat) (hf : (h x).file = some f) :
    ((step h op) x).file = some f := by
  cases op with
  | setFile e g =>
    simp only [step, setXmlFile]
    split
    · rename_i hn _
      simp only [Heap.upd]
      split
      · rename_i hx; subst hx; rw [hf] at hn; cases hn
      · exact hf
    · exact hf
  | add q e =>
    rcases addComplexChild_cases h q e with h1 | ⟨_, _, _, _, h2, _⟩
    · simp only [step, h1, hf]
    · simp only [step, h2, hf]
  | delete q i =>
    simp only [step, deleteAt]
    split
    · exact hf
    · simp only [Heap.upd]
      split
      · rename_i hx; subst hx; exact hf
      · exact hf

/-- Once an element has a parent, it keeps that parent through every further history. -/
theorem C18_parent_permanent (before after : List Op) (e p : Nat) (h : (run fresh before e).parent = some p) :
    (run fresh (before ++ after) e).parent = some p := by
  unfold run at *
  rw [List.foldl_append]
  generalize before.foldl step fresh = s at h
  induction after generalizing s with
  | nil => exact h
  | cons op ops ih => exact ih _ (step_parent s op e p h)

/-- Once an element is in a file, it stays in that file. -/
theorem C18_file_permanent (before after : List Op) (e f : Nat) (h : (run fresh before e).file = some f) :
    (run fresh (before ++ after) e).file = some f := by
  unfold run at *
  rw [List.foldl_append]
  generalize before.foldl step fresh = s at h
  induction after generalizing s with
  | nil => exact h
  | cons op ops ih => exact ih _ (step_file s op e f h)

/-- The invariant behind the next theorem. -/
structure Inv (h : Heap) : Prop where
  link : ∀ p e, e ∈ (h p).children → (h e).parent = some p
  nodup : ∀ p, (h p).children.Nodup

theorem inv_step (h : Heap) (hi : Inv h) (op : Op) : Inv (step h op) := by
  refine ⟨?_, ?_⟩
  · intro p e he
    have old : e ∈ (h p).children → ((step h op) e).parent = some p :=
      fun h' => step_parent h op e p (hi.link p e h')
    cases op with
    | setFile x f =>
      apply old
      simp only [step, setXmlFile] at he
      split at he
      · simp only [Heap.upd] at he
        split at he
        · rename_i hx; subst hx; exact he
        · exact he
      · exact he
    | add q x =>
      rcases addComplexChild_cases h q x with h1 | ⟨_, _, _, h2, _, h3⟩
      · apply old; simpa only [step, h1] using he
      · simp only [step, h3] at he
        simp only [step, h2]
        split at he
        · rename_i hpq
          subst hpq
          simp only [List.mem_append, List.mem_singleton] at he
          rcases he with he | rfl
          · have := old he
            simpa only [step, h2] using this
          · simp
        · have := old he
          simpa only [step, h2] using this
    | delete q i =>
      apply old
      simp only [step, deleteAt] at he
      split at he
      · exact he
      · simp only [Heap.upd] at he
        split at he
        · rename_i hx; subst hx; exact List.mem_of_mem_eraseIdx he
        · exact he
  · intro p
    cases op with
    | setFile x f =>
      simp only [step, setXmlFile]
      split
      · simp only [Heap.upd]
        split
        · rename_i hx; subst hx; exact hi.nodup p
        · exact hi.nodup p
      · exact hi.nodup p
    | add q x =>
      rcases addComplexChild_cases h q x with h1 | ⟨h0, _, _, _, _, h3⟩
      · simp only [step, h1]; exact hi.nodup p
      · simp only [step, h3]
        split
        · rename_i hpq
          subst hpq
          rw [List.nodup_append]
          refine ⟨hi.nodup p, by simp, ?_⟩
          intro a ha b hb
          simp only [List.mem_singleton] at hb
          subst hb
          rintro rfl
          have := hi.link p a ha
          rw [h0] at this; cases this
        · exact hi.nodup p
    | delete q i =>
      simp only [step, deleteAt]
      split
      · exact hi.nodup p
      · simp only [Heap.upd]
        split
        · rename_i hx; subst hx; exact (hi.nodup p).sublist (List.eraseIdx_sublist _ _)
        · exact hi.nodup p

/-- In every reachable state no element is a child of two elements, nor twice a child of one. -/
theorem C18_one_parent (ops : List Op) :
    (∀ p q e, e ∈ (run fresh ops p).children → e ∈ (run fresh ops q).children → p = q) ∧
    (∀ p, (run fresh ops p).children.Nodup) := by
  have hi : Inv (run fresh ops) := by
    have : ∀ (h : Heap), Inv h → Inv (run h ops) := by
      induction ops with
      | nil => intro h hi; exact hi
      | cons op ops ih => intro h hi; exact ih _ (inv_step h hi op)
    exact this fresh ⟨by simp [fresh], by simp [fresh]⟩
  refine ⟨?_, hi.nodup⟩
  intro p q e hp hq
  have h1 := hi.link p e hp
  have h2 := hi.link q e hq
  rw [h1] at h2
  exact Option.some.inj h2

/-- `SetXmlFile` says true exactly for an element in no file and a file that is one, and then the element is in it; otherwise
nothing changes, and no other element is changed ever. -/
theorem C18_set_file (h : Heap) (e : Nat) (f : Option Nat) :
    ((setXmlFile h e f).1 = true ↔ (h e).file = none ∧ f.isSome) ∧
    ((setXmlFile h e f).1 = true → (setXmlFile h e f).2 e = { h e with file := f }) ∧
    ((setXmlFile h e f).1 = false → (setXmlFile h e f).2 = h) ∧ ∀ x, x ≠ e → (setXmlFile h e f).2 x = h x := by
  unfold setXmlFile
  cases hf : (h e).file <;> cases f <;> simp [Heap.upd] <;> intro x hx hn <;> exact absurd hn hx

example : (setXmlFile fresh 3 (some 7)).1 = true ∧ (setXmlFile (setXmlFile fresh 3 (some 7)).2 3 (some 8)).1 = false ∧
    (setXmlFile fresh 3 none).1 = false := ⟨rfl, rfl, rfl⟩

/-- `DeleteFromArrayAt` gives the child at that place and takes it out, leaving the others in order; past the end it gives
nothing and changes nothing. -/
theorem C18_delete (h : Heap) (p i : Nat) : (deleteAt h p i).1 = (h p).children[i]? ∧
    ((deleteAt h p i).2 p).children = (h p).children.eraseIdx i ∧ ∀ x, x ≠ p → (deleteAt h p i).2 x = h x := by
  unfold deleteAt
  cases hc : (h p).children[i]? with
  | none => exact ⟨rfl, (List.eraseIdx_of_length_le (List.getElem?_eq_none_iff.1 hc)).symm, fun _ _ => rfl⟩
  | some e => exact ⟨rfl, by simp [Heap.upd], fun x hx => by simp [Heap.upd, hx]⟩

example : (deleteAt (run fresh [.add 0 1, .add 0 2, .add 0 3]) 0 1).1 = some 2 ∧
    ((deleteAt (run fresh [.add 0 1, .add 0 2, .add 0 3]) 0 1).2 0).children = [1, 3] := ⟨rfl, rfl⟩

/-- Attaching succeeds only for a child without parent that is in the same file as the parent. -/
theorem C18_add_only_free (h : Heap) (p e : Nat) (hs : (addComplexChild h p e).1 = true) :
    (h e).parent = none ∧ (h e).file = (h p).file := by
  rcases addComplexChild_cases h p e with h1 | ⟨h1, h2, _⟩
  · rw [h1] at hs; cases hs
  · exact ⟨h1, h2⟩

/-- Adding a child that is neither the parent itself nor one of its ancestors. -/
def Op.Proper (h : Heap) : Op → Prop
  | .add p e => e ≠ p ∧ ¬ Ancestor h p e
  | _ => True

/-- Every operation of a history is proper in the state it is applied to. -/
def ProperRun : Heap → List Op → Prop
  | _, [] => True
  | h, op :: ops => op.Proper h ∧ ProperRun (step h op) ops

theorem ancestor_mono {h h' : Heap} (hp : ∀ x, (h' x).parent = (h x).parent) {a b : Nat}
    (hab : Ancestor h' a b) : Ancestor h a b := by
  induction hab with
  | parent h1 => exact .parent (by rw [← hp]; exact h1)
  | step h1 _ ih => exact .step (by rw [← hp]; exact h1) ih

theorem proper_step (h : Heap) (hac : ∀ e, ¬ Ancestor h e e) (op : Op) (hop : op.Proper h) :
    ∀ e, ¬ Ancestor (step h op) e e := by
  have same : (∀ x, ((step h op) x).parent = (h x).parent) → ∀ e, ¬ Ancestor (step h op) e e :=
    fun hp e he => hac e (ancestor_mono hp he)
  cases op with
  | setFile x f =>
    apply same
    intro y
    simp only [step, setXmlFile]
    split
    · simp only [Heap.upd]; split
      · rename_i hx; subst hx; rfl
      · rfl
    · rfl
  | delete q i =>
    apply same
    intro y
    simp only [step, deleteAt]
    split
    · rfl
    · simp only [Heap.upd]; split
      · rename_i hx; subst hx; rfl
      · rfl
  | add p c =>
    rcases addComplexChild_cases h p c with h1 | ⟨h0, _, _, h2, _⟩
    · apply same; intro y; simp only [step, h1]
    · obtain ⟨hne, hna⟩ := hop
      -- a path in the new heap either exists in the old one or passes through the new link c → p
      have key : ∀ {a b}, Ancestor (step h (.add p c)) a b →
          Ancestor h a b ∨ ((a = c ∨ Ancestor h a c) ∧ (b = p ∨ Ancestor h p b)) := by
        intro a b hab
        induction hab with
        | @parent a q hq =>
          simp only [step, h2] at hq
          split at hq
          · rename_i hac'
            cases hq
            exact Or.inr ⟨Or.inl hac', Or.inl rfl⟩
          · exact Or.inl (.parent hq)
        | @step a q b hq _ ih =>
          simp only [step, h2] at hq
          split at hq
          · rename_i hac'
            cases hq
            rcases ih with ih | ⟨_, ih⟩
            · exact Or.inr ⟨Or.inl hac', Or.inr ih⟩
            · exact Or.inr ⟨Or.inl hac', ih⟩
          · rcases ih with ih | ⟨ih1, ih2⟩
            · exact Or.inl (.step hq ih)
            · refine Or.inr ⟨Or.inr ?_, ih2⟩
              rcases ih1 with rfl | ih1
              · exact .parent hq
              · exact .step hq ih1
      have trans : ∀ {a b c}, Ancestor h a b → Ancestor h b c → Ancestor h a c := by
        intro a b c hab hbc
        induction hab with
        | parent h1 => exact .step h1 hbc
        | step h1 _ ih => exact .step h1 (ih hbc)
      intro e he
      rcases key he with h3 | ⟨h3, h4⟩
      · exact hac e h3
      · rcases h3 with rfl | h3 <;> rcases h4 with rfl | h4
        · exact hne rfl
        · exact hna h4
        · exact hna h3
        · exact hna (trans h4 h3)

/-- Following parents never cycles, if no history step attaches an element below itself.  Missing from the
full property: histories that do, which the library accepts. -/
theorem C18_acyclic_partial (ops : List Op) (h : ProperRun fresh ops) (e : Nat) : ¬ Ancestor (run fresh ops) e e := by
  have : ∀ (s : Heap), (∀ e, ¬ Ancestor s e e) → ProperRun s ops → ∀ e, ¬ Ancestor (run s ops) e e := by
    clear h
    induction ops with
    | nil => intro s hs _; exact hs
    | cons op ops ih => intro s hs hp; exact ih _ (proper_step s hs op hp.1) hp.2
  refine this fresh ?_ h e
  intro e he
  cases he with
  | parent h1 => simp [fresh] at h1
  | step h1 _ => simp [fresh] at h1

/-- A history of the kind meant: a document with a folder with a placemark. -/
example : (run fresh [.add 1 2, .add 0 1] 2).parent = some 1 ∧ (run fresh [.add 1 2, .add 0 1] 1).parent = some 0 := by
  decide

/-- The full property fails: an element can be made its own parent. -/
theorem C18_cycle_violated : Ancestor (run fresh [.add 7 7]) 7 7 := .parent (by decide)

/-- The full property fails: parent and child come to be in different files when the file is set later. -/
theorem C18_same_file_violated :
    (run fresh [.add 0 1, .setFile 0 5] 1).parent = some 0 ∧
    (run fresh [.add 0 1, .setFile 0 5] 1).file ≠ (run fresh [.add 0 1, .setFile 0 5] 0).file := by decide

/-- A child that was deleted from its parent still has it as parent and cannot be attached elsewhere. -/
theorem C18_deleted_child_stays_attached :
    (run fresh [.add 0 1, .delete 0 0] 0).children = [] ∧ (run fresh [.add 0 1, .delete 0 0] 1).parent = some 0 ∧
    (addComplexChild (run fresh [.add 0 1, .delete 0 0]) 2 1).1 = false := by decide

end Kml.XmlElement
