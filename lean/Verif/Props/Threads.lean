import Verif.Model.Threads
import Verif.Props.UnzipArchive
/-! C105: threads. -/
namespace Kml.Threads

theorem Archives.pair (s : Archives) (i : Nat) (h : ∀ j, (s.thread j).filled = false) :
    (∀ j, (((s.step i).step i).thread j).filled = false) ∧
    (∀ j, j ≠ i → ((s.step i).step i).thread j = s.thread j) ∧
    (((s.step i).step i).thread i).toc ++ (((s.step i).step i).thread i).rest =
      (s.thread i).toc ++ (s.thread i).rest ∧
    (((s.step i).step i).thread i).toc.length = min ((s.thread i).toc.length + 1)
      ((s.thread i).toc ++ (s.thread i).rest).length := by
  cases hr : (s.thread i).rest with
  | nil =>
      have h1 : s.step i = s := by
        unfold Archives.step
        rw [h i, hr]
        rfl
      rw [h1, h1]
      refine ⟨h, fun _ _ => rfl, by rw [hr], ?_⟩
      rw [List.append_nil]; omega
  | cons n r =>
      have h1 : s.step i =
          { buf := n, thread := upd s.thread i { rest := r, filled := true, toc := (s.thread i).toc } } := by
        unfold Archives.step
        rw [h i, hr]
        rfl
      have h2 : (s.step i).step i = 
          { buf := n, thread := upd (s.step i).thread i ⟨r, false, (s.thread i).toc ++ [n]⟩ } := by
        rw [h1]
        unfold Archives.step
        simp [upd]
      rw [h2, h1]
      refine ⟨?_, ?_, ?_, ?_⟩
      · intro j
        by_cases e : j = i
        · simp [upd, e]
        · simp [upd, e, h j]
      · intro j e
        simp [upd, e]
      · simp [upd]
      · simp [upd]

/-- C105: threads that open archives at once each get the names of their own, in order, as long as each reads a
name from the buffer before another thread puts one there. -/
theorem C105_toc_partial (names : Nat → List Str) (turns : List Nat) (i : Nat) :
    ((Archives.run names (turns.flatMap fun t => [t, t])).thread i).toc = (names i).take (turns.count i) := by
  have key : ∀ (turns : List Nat) (s : Archives), (∀ j, (s.thread j).filled = false) →
      (((turns.flatMap fun t => [t, t]).foldl Archives.step s).thread i).toc =
        ((s.thread i).toc ++ (s.thread i).rest).take ((s.thread i).toc.length + turns.count i) := by
    intro turns
    induction turns with
    | nil => intro s _; simp
    | cons t turns ih =>
        intro s hs
        obtain ⟨h1, h2, h3, h4⟩ := s.pair t hs
        rw [List.flatMap_cons, List.foldl_append]
        show ((List.foldl Archives.step ((s.step t).step t) _).thread i).toc = _
        rw [ih _ h1]
        by_cases e : i = t
        · subst e
          rw [h3, h4, List.count_cons_self]
          by_cases hl : (s.thread i).toc.length + 1 ≤ ((s.thread i).toc ++ (s.thread i).rest).length
          · rw [Nat.min_eq_left hl]
            congr 1
            omega
          · rw [Nat.min_eq_right (by omega), List.take_of_length_le (by omega), List.take_of_length_le (by omega)]
        · rw [h2 i e, List.count_cons_of_ne (fun h => e h.symm)]
  have := key turns (.start names) (fun _ => rfl)
  simpa [Archives.run, Archives.start] using this

/-- C105 is false: two threads that open an archive each at the same time; the first gets the name of a file of the
other's archive. -/
theorem C105_toc_violated : ∃ names schedule, (∀ i, ((Archives.run names schedule).thread i).rest = []) ∧
    ((Archives.run names schedule).thread 0).toc ≠ names 0 := by
  refine ⟨fun i => if i = 0 then [['a']] else if i = 1 then [['b']] else [], [0, 1, 0, 1], ?_, by decide⟩
  intro i
  by_cases h0 : i = 0
  · subst h0; rfl
  · by_cases h1 : i = 1
    · subst h1; rfl
    · simp [Archives.run, Archives.step, Archives.start, upd, h0, h1]

example : ((Archives.run (fun i => if i = 0 then [['a'], ['b']] else [['c']]) [0, 0, 1, 1, 0, 0]).thread 0).toc =
    [['a'], ['b']] := C105_toc_partial _ [0, 1, 0] 0

/-- How many pointers the threads have together. -/
def Shared.total (s : Shared) (n : Nat) : Nat := ((List.range n).map s.held).sum

theorem sum_upd (f : Nat → Nat) (i n v : Nat) (h : i < n) :
    ((List.range n).map (upd f i v)).sum + f i = ((List.range n).map f).sum + v := by
  induction n with
  | zero => omega
  | succ n ih =>
      rw [List.range_succ, List.map_append, List.map_append, List.sum_append_nat, List.sum_append_nat]
      simp only [List.map_cons, List.map_nil, List.sum_cons, List.sum_nil, Nat.add_zero]
      by_cases e : i = n
      · subst e
        have hsame : (List.range i).map (upd f i v) = (List.range i).map f := by
          apply List.map_congr_left
          intro j hj
          have := List.mem_range.1 hj
          simp [upd, show j ≠ i by omega]
        rw [hsame]
        simp only [upd, if_true]
        omega
      · have := ih (by omega)
        have hn : upd f i v n = f n := by simp [upd, show n ≠ i by omega]
        rw [hn]
        omega

/-- The pointers are counted, nobody is in the middle of a step, and the object is deleted once if no pointer is
left and else not at all. -/
def Shared.Right (n : Nat) (s : Shared) : Prop :=
  (∀ i, s.reg i = none) ∧ s.count = s.total n ∧ (0 < s.total n → s.deleted = 0) ∧ (s.total n = 0 → s.deleted = 1) ∧
  ∀ i, n ≤ i → s.held i = 0

theorem Shared.right_pair (n : Nat) (s : Shared) (h : s.Right n) (i : Nat) (a : Act) (ha : a ≠ .write) :
    ((s.step (i, a)).step (i, .write)).Right n := by
  obtain ⟨h1, h2, h3, h5, h4⟩ := h
  by_cases hp : 0 < s.held i
  · have hi : i < n := by
      by_cases h : i < n
      · exact h
      · have := h4 i (by omega); omega
    have hle : s.held i ≤ s.total n := by
      have := sum_upd s.held i n 0 hi
      unfold Shared.total
      omega
    cases a with
    | write => exact absurd rfl ha
    | readToCopy =>
        have e1 : s.step (i, .readToCopy) = { s with reg := upd s.reg i (some (s.count, true)) } := by
          unfold Shared.step
          simp [h1 i, hp]
        have e2 : (s.step (i, .readToCopy)).step (i, .write) =
            { count := s.count + 1, deleted := s.deleted, held := upd s.held i (s.held i + 1),
              reg := upd (upd s.reg i (some (s.count, true))) i none } := by
          rw [e1]
          unfold Shared.step
          simp [upd]
        rw [e2]
        have ht := sum_upd s.held i n (s.held i + 1) hi
        have htot : ∀ c dl rg, (Shared.mk c dl (upd s.held i (s.held i + 1)) rg).total n + s.held i =
            s.total n + (s.held i + 1) := fun _ _ _ => ht
        refine ⟨?_, ?_, ?_, ?_, ?_⟩
        · intro j
          by_cases e : j = i <;> simp [upd, e, h1]
        · have := htot (s.count + 1) s.deleted (upd (upd s.reg i (some (s.count, true))) i none)
          show s.count + 1 = _
          omega
        · intro _
          exact h3 (by omega)
        · intro hz
          have := htot (s.count + 1) s.deleted (upd (upd s.reg i (some (s.count, true))) i none)
          omega
        · intro j hj
          simp only [upd]
          rw [if_neg (by omega)]
          exact h4 j hj
    | readToDrop =>
        have e1 : s.step (i, .readToDrop) = { s with reg := upd s.reg i (some (s.count, false)) } := by
          unfold Shared.step
          simp [h1 i, hp]
        have e2 : (s.step (i, .readToDrop)).step (i, .write) =
            { count := s.count - 1, deleted := if s.count - 1 ≤ 0 then s.deleted + 1 else s.deleted,
              held := upd s.held i (s.held i - 1),
              reg := upd (upd s.reg i (some (s.count, false))) i none } := by
          rw [e1]
          unfold Shared.step
          simp [upd]
        rw [e2]
        have ht := sum_upd s.held i n (s.held i - 1) hi
        have htot : ∀ c dl rg, (Shared.mk c dl (upd s.held i (s.held i - 1)) rg).total n + s.held i =
            s.total n + (s.held i - 1) := fun _ _ _ => ht
        have hthis := htot (s.count - 1) (if s.count - 1 ≤ 0 then s.deleted + 1 else s.deleted)
          (upd (upd s.reg i (some (s.count, false))) i none)
        refine ⟨?_, ?_, ?_, ?_, ?_⟩
        · intro j
          by_cases e : j = i <;> simp [upd, e, h1]
        · show s.count - 1 = _
          omega
        · intro hz
          show (if s.count - 1 ≤ 0 then s.deleted + 1 else s.deleted) = 0
          rw [if_neg (by omega)]
          exact h3 (by omega)
        · intro hz
          show (if s.count - 1 ≤ 0 then s.deleted + 1 else s.deleted) = 1
          rw [if_pos (by omega), h3 (by omega)]
        · intro j hj
          simp only [upd]
          rw [if_neg (by omega)]
          exact h4 j hj
  · have e1 : s.step (i, a) = s := by
      unfold Shared.step
      cases a <;> simp [h1 i, hp]
    have e2 : s.step (i, .write) = s := by
      unfold Shared.step
      simp [h1 i]
    rw [e1, e2]
    exact ⟨h1, h2, h3, h5, h4⟩

theorem zeros (n : Nat) : ((List.range n).map fun _ => 0).sum = 0 := by
  induction n with
  | zero => rfl
  | succ n ih =>
      rw [List.range_succ, List.map_append, List.sum_append_nat, ih]
      rfl

/-- C105: an object shared by threads is deleted once, just when the last pointer of all threads has gone, as long as
no thread touches the count between another's reading and writing it. -/
theorem C105_count_partial (n : Nat) (hn : 0 < n) (ops : List (Nat × Act)) (hops : ∀ o ∈ ops, o.2 ≠ .write) :
    ((∃ i, 0 < (Shared.run n (ops.flatMap fun o => [o, (o.1, .write)])).held i) →
      (Shared.run n (ops.flatMap fun o => [o, (o.1, .write)])).deleted = 0) ∧
    ((∀ i, (Shared.run n (ops.flatMap fun o => [o, (o.1, .write)])).held i = 0) →
      (Shared.run n (ops.flatMap fun o => [o, (o.1, .write)])).deleted = 1) := by
  have hs : (Shared.start n).Right n := by
    have ht : (Shared.start n).total n = n := by
      unfold Shared.total Shared.start
      have : (List.range n).map (fun i => if i < n then 1 else 0) = (List.range n).map fun _ => 1 := by
        apply List.map_congr_left
        intro j hj
        rw [if_pos (List.mem_range.1 hj)]
      rw [this]
      clear this hn hops
      induction n with
      | zero => rfl
      | succ n ih =>
          rw [List.range_succ, List.map_append, List.sum_append_nat, ih]
          rfl
    refine ⟨fun _ => rfl, ?_, ?_, ?_, ?_⟩
    · rw [ht]; rfl
    · exact fun _ => rfl
    · intro h; omega
    · intro i hi
      show (if i < n then 1 else 0) = 0
      rw [if_neg (by omega)]
  have hr : (Shared.run n (ops.flatMap fun o => [o, (o.1, .write)])).Right n := by
    unfold Shared.run
    revert hs
    generalize Shared.start n = s
    induction ops generalizing s with
    | nil => intro h; exact h
    | cons o ops ih =>
        intro h
        rw [List.flatMap_cons, List.foldl_append]
        apply ih (fun o ho => hops o (List.mem_cons_of_mem _ ho))
        exact Shared.right_pair n s h o.1 o.2 (hops o List.mem_cons_self)
  obtain ⟨_, _, h3, h5, h4⟩ := hr
  generalize Shared.run n (ops.flatMap fun o => [o, (o.1, .write)]) = s at h3 h4 h5 ⊢
  have : s.total n = 0 ↔ ∀ i, s.held i = 0 := by
    constructor
    · intro h i
      by_cases hi : i < n
      · have := sum_upd s.held i n 0 hi
        unfold Shared.total at h
        omega
      · exact h4 i (by omega)
    · intro h
      unfold Shared.total
      have : (List.range n).map s.held = (List.range n).map fun _ => 0 := List.map_congr_left fun j _ => h j
      rw [this]
      exact zeros n
  refine ⟨?_, fun h => h5 (this.2 h)⟩
  rintro ⟨i, hi⟩
  refine h3 (Nat.pos_of_ne_zero fun e => ?_)
  have := this.1 e i
  omega

/-- C105 is false: two threads that copy their pointers to a shared element at the same time.  One increment is
lost, and after three of the four pointers have gone the element is deleted though the fourth still points to it. -/
theorem C105_count_violated : ∃ schedule, (Shared.run 2 schedule).deleted = 1 ∧ (Shared.run 2 schedule).held 1 = 1 :=
  ⟨[(0, .readToCopy), (1, .readToCopy), (0, .write), (1, .write), (0, .readToDrop), (0, .write), (0, .readToDrop),
    (0, .write), (1, .readToDrop), (1, .write)], by decide, by decide⟩

/-- C105 is false: two threads that drop the last two pointers at the same time; the element is never deleted. -/
theorem C105_leak_violated : ∃ schedule, (Shared.run 2 schedule).deleted = 0 ∧ ∀ i, (Shared.run 2 schedule).held i = 0 := by
  refine ⟨[(0, .readToDrop), (1, .readToDrop), (0, .write), (1, .write)], by decide, ?_⟩
  intro i
  by_cases h0 : i = 0
  · subst h0; rfl
  · by_cases h1 : i = 1
    · subst h1; rfl
    · have : ¬ i < 2 := by omega
      simp [Shared.run, Shared.step, Shared.start, upd, h0, h1, this]

example : (Shared.run 2 [(0, .readToCopy), (0, .write), (1, .readToDrop), (1, .write), (0, .readToDrop), (0, .write),
    (0, .readToDrop), (0, .write)]).deleted = 1 := by decide

/-- What holds of the static variable at every step. -/
def Single.Good (s : Single) : Prop :=
  (∀ o, s.ptr = some o → o < s.made) ∧
  ∀ i, match s.thread i with
    | .before => True
    | .make => True
    | .store o => o < s.made
    | .give => s.ptr ≠ none
    | .done r => ∃ o, r = some o ∧ o < s.made

theorem Single.good_step (s : Single) (i : Nat) (h : s.Good) : (s.step i).Good := by
  obtain ⟨h1, h2⟩ := h
  have hi := h2 i
  unfold Single.step
  cases ht : s.thread i with
  | before =>
      refine ⟨h1, fun j => ?_⟩
      by_cases e : j = i
      · subst e
        by_cases hp : s.ptr = none <;> simp [upd, hp]
      · have := h2 j
        simpa [upd, e] using this
  | make =>
      refine ⟨fun o ho => Nat.lt_succ_of_lt (h1 o ho), fun j => ?_⟩
      by_cases e : j = i
      · subst e
        simp [upd]
      · have := h2 j
        simp only [upd, e, if_false]
        cases hj : s.thread j with
        | before => trivial
        | make => trivial
        | store o => rw [hj] at this; exact Nat.lt_succ_of_lt this
        | give => rw [hj] at this; exact this
        | done r =>
            rw [hj] at this
            obtain ⟨o, hr, ho⟩ := this
            exact ⟨o, hr, Nat.lt_succ_of_lt ho⟩
  | store o =>
      rw [ht] at hi
      refine ⟨fun o' ho => by cases ho; exact hi, fun j => ?_⟩
      by_cases e : j = i
      · subst e
        simp [upd]
      · have := h2 j
        simp only [upd, e, if_false]
        cases hj : s.thread j with
        | before => trivial
        | make => trivial
        | store o => rw [hj] at this; exact this
        | give => exact Option.some_ne_none _
        | done r => rw [hj] at this; exact this
  | give =>
      rw [ht] at hi
      refine ⟨h1, fun j => ?_⟩
      by_cases e : j = i
      · subst e
        simp only [upd, if_true]
        cases hp : s.ptr with
        | none => exact absurd hp hi
        | some o => exact ⟨o, rfl, h1 o hp⟩
      · have := h2 j
        simpa [upd, e] using this
  | done r =>
      refine ⟨h1, h2⟩

/-- C105: whatever the schedule, each thread that asks for the factory or the schema is given one that was made, never
NULL. -/
theorem C105_given (schedule : List Nat) (i : Nat) (r : Option Nat)
    (h : (Single.run schedule).thread i = .done r) : ∃ o, r = some o ∧ o < (Single.run schedule).made := by
  have hg : (Single.run schedule).Good := by
    unfold Single.run
    have h0 : ({ ptr := none, made := 0, thread := fun _ => .before } : Single).Good :=
      ⟨fun o ho => absurd ho (by simp), fun _ => trivial⟩
    revert h0
    generalize ({ ptr := none, made := 0, thread := fun _ => .before } : Single) = s
    clear h
    induction schedule generalizing s with
    | nil => intro h; exact h
    | cons t ts ih => intro h; exact ih _ (s.good_step t h)
  have := hg.2 i
  rw [h] at this
  exact this

/-- C105: if the first to ask, whichever thread it is, has stored the object before others ask, there is one object and all are
given it.  Missing from the full property: other schedules, for which it is false (`C105_single_violated`). -/
theorem C105_single_partial (first : Nat) (schedule : List Nat) (i : Nat) (r : Option Nat)
    (h : (Single.run (first :: first :: first :: schedule)).thread i = .done r) :
    r = some 0 ∧ (Single.run (first :: first :: first :: schedule)).made = 1 := by
  have key : ∀ (ts : List Nat) (s : Single), s.ptr = some 0 → s.made = 1 →
      (∀ j, s.thread j = .before ∨ s.thread j = .give ∨ s.thread j = .done (some 0)) →
      (ts.foldl Single.step s).made = 1 ∧ ∀ j, (ts.foldl Single.step s).thread j = .before ∨
        (ts.foldl Single.step s).thread j = .give ∨ (ts.foldl Single.step s).thread j = .done (some 0) := by
    intro ts
    induction ts with
    | nil => intro s _ h2 h3; exact ⟨h2, h3⟩
    | cons t ts ih =>
        intro s h1 h2 h3
        rw [List.foldl_cons]
        rcases h3 t with e | e | e
        · have es : s.step t = { s with thread := upd s.thread t .give } := by
            unfold Single.step; rw [e]; simp [h1]
          rw [es]
          refine ih _ h1 h2 fun j => ?_
          by_cases ej : j = t
          · simp [upd, ej]
          · simpa [upd, ej] using h3 j
        · have es : s.step t = { s with thread := upd s.thread t (.done (some 0)) } := by
            unfold Single.step; rw [e]; simp [h1]
          rw [es]
          refine ih _ h1 h2 fun j => ?_
          by_cases ej : j = t
          · simp [upd, ej]
          · simpa [upd, ej] using h3 j
        · have es : s.step t = s := by
            unfold Single.step; rw [e]
          rw [es]
          exact ih s h1 h2 h3
  have hrun := key schedule
    (Single.run [first, first, first]) (by simp [Single.run, Single.step, upd]) (by simp [Single.run, Single.step, upd]) (fun j => by
      by_cases e : j = first
      · subst e; exact Or.inr (Or.inl (by simp [Single.run, Single.step, upd]))
      · left
        simp [Single.run, Single.step, upd, e])
  have heq : Single.run (first :: first :: first :: schedule) = schedule.foldl Single.step (Single.run [first, first, first]) := rfl
  rw [heq] at h ⊢
  refine ⟨?_, hrun.1⟩
  rcases hrun.2 i with e | e | e
  · rw [e] at h; cases h
  · rw [e] at h; cases h
  · rw [e] at h; cases h; rfl

example : (Single.run [2, 2, 2, 1, 2, 1]).thread 1 = .done (some 0) ∧ (Single.run [2, 2, 2, 1, 2, 1]).thread 2 = .done (some 0) := by
  decide

/-- C105 is false: two threads that ask first at the same time are given different factories. -/
theorem C105_single_violated : ∃ schedule, (Single.run schedule).thread 0 = .done (some 0) ∧
    (Single.run schedule).thread 1 = .done (some 1) :=
  ⟨[0, 1, 0, 0, 0, 1, 1, 1], by decide, by decide⟩

end Kml.Threads
