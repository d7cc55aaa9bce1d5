import Verif.Model.NetCache
import Verif.Spec.NetCache
import Verif.Lemmas.StdMap
/-! The cache refines the queue. -/
namespace Kml.NetCache
open Kml

variable {α : Type}

/-- One call on the cache. -/
def step (net : Str → Option Str) (mk : Str → Option α) (c : Cache α) : Op α → Res α × Cache α
  | .lookUp url => (.item (lookUp c url), c)
  | .fetch url => let r := fetch net mk c url; (.fetched r.1 r.2.2, r.2.1)
  | .save url item => let r := save c url item; (.flag r.1, r.2)
  | .delete url => let r := delete c url; (.flag r.1, r.2)
  | .removeOldest => let r := removeOldest c; (.flag r.1, r.2)
  | .size => (.size c.map.length, c)

/-- A history of calls on the cache. -/
def run (net : Str → Option Str) (mk : Str → Option α) : Cache α → List (Op α) → List (Res α) × Cache α
  | c, [] => ([], c)
  | c, op :: ops =>
    let r := step net mk c op
    let r' := run net mk r.2 ops
    (r.1 :: r'.1, r'.2)

theorem lookup_iff_mem {β : Type} {l : List (Str × β)} (hn : (l.map (·.1)).Nodup) {k : Str} {v : β} :
    l.lookup k = some v ↔ (k, v) ∈ l := by
  induction l with
  | nil => simp
  | cons e l ih =>
    obtain ⟨k', v'⟩ := e
    simp only [List.map_cons, List.nodup_cons] at hn
    rw [List.lookup_cons]
    by_cases hk : k = k'
    · subst hk
      simp only [BEq.rfl, Option.some.injEq, List.mem_cons, Prod.mk.injEq, true_and]
      constructor
      · intro h; left; exact h.symm
      · rintro (h | h)
        · exact h.symm
        · exact absurd (List.mem_map_of_mem (f := (·.1)) h) hn.1
    · have : (k == k') = false := by simpa using hk
      simp only [this, List.mem_cons, Prod.mk.injEq, hk, false_and, false_or]
      exact ih hn.2

/-- The cache holds the entries of the queue, with time stamps in the order of the queue. -/
structure Refines (c : Cache α) (n : Nat) (q : Queue α) (l : List (Str × Option α × Nat)) : Prop where
  max : c.maxSize = n
  sorted : StdMap.Sorted c.map
  perm : c.map.Perm l
  stamps : l.Pairwise fun a b => a.2.2 < b.2.2
  bound : ∀ e ∈ l, e.2.2 < c.count
  queue : l.map (fun e => (e.1, e.2.1)) = q

theorem Refines.nodup {c : Cache α} {n q l} (h : Refines c n q l) : (l.map (·.1)).Nodup :=
  ((h.perm.map (·.1)).nodup_iff).1 (StdMap.nodup_keys h.sorted)

theorem Refines.nodupq {c : Cache α} {n q l} (h : Refines c n q l) : (q.map (·.1)).Nodup := by
  rw [← h.queue, List.map_map]; exact h.nodup

theorem Refines.length {c : Cache α} {n q l} (h : Refines c n q l) : c.map.length = q.length := by
  rw [h.perm.length_eq, ← h.queue, List.length_map]

theorem Refines.look {c : Cache α} {n q l} (h : Refines c n q l) (url : Str) :
    lookUp c url = Queue.look q url := by
  unfold lookUp Queue.look
  cases hg : c.map.get url with
  | none =>
    cases hq : q.lookup url with
    | none => rfl
    | some v =>
      exfalso
      rw [lookup_iff_mem h.nodupq, ← h.queue, List.mem_map] at hq
      obtain ⟨e, he, hv⟩ := hq
      have := StdMap.get_of_mem h.sorted (h.perm.mem_iff.2 he : (e.1, e.2) ∈ c.map)
      simp only [Prod.mk.injEq] at hv
      rw [hv.1, hg] at this
      cases this
  | some e =>
    have hm := h.perm.mem_iff.1 (StdMap.mem_of_get hg)
    have : (url, e.1) ∈ q := by
      rw [← h.queue, List.mem_map]; exact ⟨_, hm, rfl⟩
    rw [(lookup_iff_mem h.nodupq).2 this]
    rfl

theorem findOldest_mem (best : Str × Option α × Nat) (m : StdMap (Option α × Nat)) :
    findOldest best m = best ∨ findOldest best m ∈ m := by
  induction m generalizing best with
  | nil => left; rfl
  | cons e m ih =>
    rw [findOldest]
    split
    · rcases ih e with h | h
      · right; simp [h]
      · right; simp [h]
    · rcases ih best with h | h
      · left; exact h
      · right; simp [h]

theorem findOldest_le (best : Str × Option α × Nat) (m : StdMap (Option α × Nat)) :
    (findOldest best m).2.2 ≤ best.2.2 ∧ ∀ e ∈ m, (findOldest best m).2.2 ≤ e.2.2 := by
  induction m generalizing best with
  | nil => simp [findOldest]
  | cons e m ih =>
    rw [findOldest]
    split
    · obtain ⟨h1, h2⟩ := ih e
      refine ⟨by omega, ?_⟩
      intro x hx
      simp only [List.mem_cons] at hx
      rcases hx with rfl | hx
      · exact h1
      · exact h2 x hx
    · obtain ⟨h1, h2⟩ := ih best
      refine ⟨h1, ?_⟩
      intro x hx
      simp only [List.mem_cons] at hx
      rcases hx with rfl | hx
      · omega
      · exact h2 x hx

theorem filter_ne_head {l : List (Str × Option α × Nat)} {e : Str × Option α × Nat}
    (hn : ((e :: l).map (·.1)).Nodup) : (e :: l).filter (fun x => x.1 ≠ e.1) = l := by
  rw [List.filter_cons]
  simp only [ne_eq, not_true_eq_false, decide_false, Bool.false_eq_true, if_false]
  rw [List.filter_eq_self]
  intro x hx
  simp only [List.map_cons, List.nodup_cons] at hn
  simp only [decide_eq_true_eq]
  intro h
  apply hn.1
  rw [← h]
  exact List.mem_map_of_mem (f := (·.1)) hx

theorem Refines.erase {c : Cache α} {n q l} (h : Refines c n q l) (url : Str) :
    Refines { c with map := c.map.erase url } n (q.filter fun e => e.1 ≠ url) (l.filter fun e => e.1 ≠ url) where
  max := h.max
  sorted := StdMap.sorted_erase h.sorted url
  perm := by
    simp only
    rw [StdMap.erase_eq_filter h.sorted]
    exact h.perm.filter _
  stamps := h.stamps.sublist List.filter_sublist
  bound := fun e he => h.bound e (List.mem_filter.1 he).1
  queue := by
    rw [← h.queue, List.filter_map]
    rfl

theorem Refines.removeOldest {c : Cache α} {n q l} (h : Refines c n q l) :
    (removeOldest c).1 = (!q.isEmpty) ∧ Refines (removeOldest c).2 n q.tail l.tail := by
  have hl := h.length
  have hp := h.perm
  unfold NetCache.removeOldest
  cases hm : c.map with
  | nil =>
    rw [hm] at hl hp
    have hq : q = [] := List.length_eq_zero_iff.1 hl.symm
    have hll : l = [] := by simpa using hp.symm
    subst hq hll
    exact ⟨rfl, h⟩
  | cons e m =>
    have hql : q ≠ [] := by
      rintro rfl; rw [hm] at hl; simp at hl
    have hlne : l ≠ [] := by
      rintro rfl; rw [← h.queue] at hql; simp at hql
    obtain ⟨e0, l', rfl⟩ := List.exists_cons_of_ne_nil hlne
    obtain ⟨e1, q', rfl⟩ := List.exists_cons_of_ne_nil hql
    refine ⟨rfl, ?_⟩
    simp only
    have hmem : findOldest e (e :: m) ∈ e0 :: l' := by
      rw [← hp.mem_iff, hm]
      rcases findOldest_mem e (e :: m) with h | h
      · rw [h]; simp
      · exact h
    have hle := (findOldest_le e (e :: m)).2 e0 (by rw [← hm, hp.mem_iff]; simp)
    have hold : findOldest e (e :: m) = e0 := by
      simp only [List.mem_cons] at hmem
      rcases hmem with h1 | h1
      · exact h1
      · have hst := h.stamps
        cases hst with
        | cons h2 h3 => have := h2 _ h1; omega
    rw [hold]
    have := h.erase e0.1
    rw [filter_ne_head h.nodup] at this
    have hq : List.filter (fun e => decide (e.1 ≠ e0.1)) (e1 :: q') = q' := by
      have h2 := this.queue
      have h3 := h.queue
      simp only [List.map_cons, List.cons.injEq] at h3
      rw [← h2, h3.2]
    rw [hq, hm] at this
    exact this

theorem Refines.save {c : Cache α} {n q l} (h : Refines c n q l) (url : Str) (item : Option α) :
    (save c url item).1 = (Queue.save n q url item).1 ∧
      ∃ l', Refines (save c url item).2 n (Queue.save n q url item).2 l' := by
  unfold NetCache.save Queue.save
  rw [h.look url]
  cases hq : Queue.look q url with
  | some i => exact ⟨rfl, l, h⟩
  | none =>
    refine ⟨rfl, ?_⟩
    simp only [Option.isSome_none, Bool.false_eq_true, if_false]
    have key : ∀ {c : Cache α} {q l}, Refines c n q l →
        ∃ l', Refines { c with map := c.map.set url (item, c.count), count := c.count + 1 } n
          (q.filter (fun e => e.1 ≠ url) ++ [(url, item)]) l' := by
      intro c q l h
      refine ⟨l.filter (fun e => e.1 ≠ url) ++ [(url, item, c.count)], h.max, StdMap.sorted_set h.sorted _ _, ?_, ?_, ?_, ?_⟩
      · refine (StdMap.set_perm c.map h.sorted _ _).trans ?_
        refine List.Perm.trans ?_ (List.perm_append_comm (l₁ := [_]))
        exact (h.erase url).perm.cons _
      · rw [List.pairwise_append]
        refine ⟨(h.erase url).stamps, by simp, ?_⟩
        intro a ha b hb
        simp only [List.mem_singleton] at hb
        subst hb
        exact h.bound a (List.mem_filter.1 ha).1
      · intro e he
        simp only [List.mem_append, List.mem_singleton] at he
        simp only
        rcases he with he | rfl
        · have := h.bound e (List.mem_filter.1 he).1; omega
        · simp
      · rw [List.map_append, ← (h.erase url).queue]; rfl
    by_cases hsz : c.map.length = c.maxSize
    · rw [if_pos hsz, if_pos (by rw [← h.length, hsz, h.max])]
      exact key h.removeOldest.2
    · rw [if_neg hsz, if_neg (by rw [← h.length, ← h.max]; exact hsz)]
      exact key h

theorem Refines.step {c : Cache α} {n q l} (h : Refines c n q l) (net : Str → Option Str) (mk : Str → Option α)
    (op : Op α) : (step net mk c op).1 = (Queue.step net mk n q op).1 ∧
      ∃ l', Refines (step net mk c op).2 n (Queue.step net mk n q op).2 l' := by
  cases op with
  | lookUp url => exact ⟨by simp [NetCache.step, Queue.step, h.look], l, h⟩
  | size => exact ⟨by simp [NetCache.step, Queue.step, h.length], l, h⟩
  | removeOldest =>
    obtain ⟨h1, h2⟩ := h.removeOldest
    exact ⟨by simp [NetCache.step, Queue.step, Queue.removeOldest, h1], _, h2⟩
  | delete url =>
    simp only [NetCache.step, Queue.step, delete, Queue.delete]
    rw [h.look url]
    cases hq : Queue.look q url with
    | some i => exact ⟨rfl, _, h.erase url⟩
    | none => exact ⟨rfl, l, h⟩
  | save url item =>
    obtain ⟨h1, h2⟩ := h.save url item
    exact ⟨by simp [NetCache.step, Queue.step, h1], h2⟩
  | fetch url =>
    simp only [NetCache.step, Queue.step, fetch, Queue.fetch]
    rw [h.look url]
    cases hq : Queue.look q url with
    | some i => exact ⟨rfl, l, h⟩
    | none =>
      cases hn : net url with
      | none => exact ⟨rfl, l, h⟩
      | some data =>
        obtain ⟨h1, h2⟩ := h.save url (mk data)
        have h3 : (Queue.save n q url (mk data)).1 = true := by
          simp [Queue.save, hq]
        rw [h3] at h1
        simp only [h1, if_true]
        exact ⟨trivial, h2⟩

theorem refines_init (n : Nat) : Refines (init n : Cache α) n [] [] :=
  ⟨rfl, StdMap.sorted_nil, List.Perm.refl _, List.Pairwise.nil, by simp, rfl⟩

theorem Refines.run {c : Cache α} {n q l} (h : Refines c n q l) (net : Str → Option Str) (mk : Str → Option α)
    (ops : List (Op α)) : (run net mk c ops).1 = (Queue.run net mk n q ops).1 ∧
      ∃ l', Refines (run net mk c ops).2 n (Queue.run net mk n q ops).2 l' := by
  induction ops generalizing c q l with
  | nil => exact ⟨rfl, l, h⟩
  | cons op ops ih =>
    obtain ⟨h1, l', h2⟩ := h.step net mk op
    obtain ⟨h3, h4⟩ := ih h2
    simp only [NetCache.run, Queue.run]
    exact ⟨by rw [h1, h3], h4⟩

theorem queue_save_len {n : Nat} (hn : 1 ≤ n) {q : Queue α} (h : q.length ≤ n) (url : Str) (item : Option α) :
    (Queue.save n q url item).2.length ≤ n := by
  unfold Queue.save
  split
  · exact h
  · have h1 := List.length_filter_le (fun e => decide (e.1 ≠ url)) (if q.length = n then q.tail else q)
    have h2 : (if q.length = n then q.tail else q).length + 1 ≤ n := by
      split
      · rw [List.length_tail]; omega
      · omega
    simp only [List.length_append, List.length_singleton]
    omega

theorem queue_step_len {n : Nat} (hn : 1 ≤ n) (net : Str → Option Str) (mk : Str → Option α) {q : Queue α}
    (h : q.length ≤ n) (op : Op α) : (Queue.step net mk n q op).2.length ≤ n := by
  cases op with
  | lookUp url => exact h
  | size => exact h
  | removeOldest => simp [Queue.step, Queue.removeOldest]; omega
  | delete url =>
    simp only [Queue.step, Queue.delete]
    split
    · exact Nat.le_trans (List.length_filter_le _ _) h
    · exact h
  | save url item => exact queue_save_len hn h url item
  | fetch url =>
    simp only [Queue.step, Queue.fetch]
    split
    · exact h
    · exact h
    · exact queue_save_len hn h _ _

theorem queue_run_len {n : Nat} (hn : 1 ≤ n) (net : Str → Option Str) (mk : Str → Option α) (ops : List (Op α))
    {q : Queue α} (h : q.length ≤ n) : (Queue.run net mk n q ops).2.length ≤ n := by
  induction ops generalizing q with
  | nil => exact h
  | cons op ops ih => exact ih (queue_step_len hn net mk h op)

end Kml.NetCache
