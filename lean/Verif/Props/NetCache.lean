import Verif.Lemmas.NetCache
/-! Properties C13–C15: the fetch cache. -/
namespace Kml.NetCache
open Kml

variable {α : Type}

/-- C14/C15: for every history of calls, every network and every capacity, the client sees exactly what the
bounded queue of `Verif/Spec/NetCache.lean` answers. -/
theorem C14_behaves_as_queue (net : Str → Option Str) (mk : Str → Option α) (n : Nat) (ops : List (Op α)) :
    (run net mk (init n) ops).1 = (Queue.run net mk n [] ops).1 :=
  ((refines_init n).run net mk ops).1

/-- The lookup after any history is the queue's. -/
theorem C14_lookup (net : Str → Option Str) (mk : Str → Option α) (n : Nat) (ops : List (Op α)) (url : Str) :
    lookUp (run net mk (init n) ops).2 url = Queue.look (Queue.run net mk n [] ops).2 url := by
  obtain ⟨l, h⟩ := ((refines_init n).run net mk ops).2
  exact h.look url

/-- A cached item is returned without asking the network and without changing the cache. -/
theorem C14_fetch_cached (net : Str → Option Str) (mk : Str → Option α) (c : Cache α) (url : Str) (i : α)
    (h : lookUp c url = some i) : fetch net mk c url = (some i, c, false) := by
  rw [fetch, h]

/-- Saving under a URL that has an item fails and changes nothing. -/
theorem C14_save_existing (c : Cache α) (url : Str) (item : Option α) (i : α) (h : lookUp c url = some i) :
    save c url item = (false, c) := by
  rw [save, h]

/-- What was saved is found. -/
theorem C14_save_lookup (c : Cache α) (url : Str) (item : Option α) (h : lookUp c url = none) :
    (save c url item).1 = true ∧ lookUp (save c url item).2 url = item := by
  rw [save, h]
  refine ⟨rfl, ?_⟩
  simp only [lookUp]
  rw [StdMap.get_set]
  simp

/-- What was deleted is not found. -/
theorem C14_delete_lookup (net : Str → Option Str) (mk : Str → Option α) (n : Nat) (ops : List (Op α)) (url : Str) :
    lookUp (delete (run net mk (init n) ops).2 url).2 url = none := by
  obtain ⟨l, h⟩ := ((refines_init n).run net mk ops).2
  generalize (run net mk (init n) ops).2 = c at h ⊢
  unfold delete
  cases hl : lookUp c url with
  | none => exact hl
  | some i =>
    simp only [lookUp]
    rw [StdMap.get_erase h.sorted]
    simp

/-- C13: a cache for at least one entry never holds more than it was created for. -/
theorem C13_bounded (net : Str → Option Str) (mk : Str → Option α) (n : Nat) (hn : 1 ≤ n) (ops : List (Op α)) :
    (run net mk (init n) ops).2.map.length ≤ n := by
  obtain ⟨l, h⟩ := ((refines_init n).run net mk ops).2
  rw [h.length]
  exact queue_run_len hn net mk ops (by simp)

/-- The cache does fill up: three saves in a cache for two entries. -/
example : ((run (α := Nat) (fun _ => none) (fun _ => none) (init 2)
    [.save ['a'] (some 1), .save ['b'] (some 2), .save ['c'] (some 3)]).2.map.map (·.1)) = [['b'], ['c']] := by
  decide

/-- Outside the property: a cache created for no entries holds entries. -/
theorem C13_zero_capacity_violated :
    (run (α := Nat) (fun _ => none) (fun _ => none) (init 0)
      [.save ['a'] (some 1), .save ['b'] (some 2)]).2.map.length = 2 := by decide

/-- C15: saving a new URL in a full cache removes exactly the entry that was stored longest ago: the first
of the queue of all entries in the order in which they were stored. -/
theorem C15_evicts_oldest (net : Str → Option Str) (mk : Str → Option α) (n : Nat) (ops : List (Op α))
    (e : Str × Option α) (q : Queue α) (hq : (Queue.run net mk n [] ops).2 = e :: q)
    (hfull : (run net mk (init n) ops).2.map.length = n)
    (url : Str) (item : Option α) (hnew : (run net mk (init n) ops).2.map.get url = none) :
    ∀ u, (save (run net mk (init n) ops).2 url item).2.map.get u ≠ none ↔
      (u = url ∨ (u ≠ e.1 ∧ (run net mk (init n) ops).2.map.get u ≠ none)) := by
  obtain ⟨l, h⟩ := ((refines_init n).run net mk ops).2
  rw [hq] at h
  generalize (run net mk (init n) ops).2 = c at *
  intro u
  have hlook : lookUp c url = none := by rw [lookUp, hnew]
  rw [save, hlook]
  simp only
  rw [if_pos (by rw [hfull, h.max]), StdMap.get_set]
  obtain ⟨e0, l', rfl⟩ : ∃ e0 l', l = e0 :: l' := by
    cases l with
    | nil => have := h.queue; simp at this
    | cons a b => exact ⟨a, b, rfl⟩
  have hq0 := h.queue
  simp only [List.map_cons, List.cons.injEq] at hq0
  have he : e0.1 = e.1 := by rw [← hq0.1]
  obtain ⟨_, hr⟩ := h.removeOldest
  simp only [List.tail_cons] at hr
  by_cases hu : url = u
  · subst hu; simp
  · have hmem : ∀ {c : Cache α} {n q l}, Refines c n q l → (c.map.get u ≠ none ↔ ∃ x ∈ l, x.1 = u) := by
      intro c n q l h
      constructor
      · intro hne
        obtain ⟨v, hv⟩ := Option.ne_none_iff_exists'.1 hne
        exact ⟨_, h.perm.mem_iff.1 (StdMap.mem_of_get hv), rfl⟩
      · rintro ⟨x, hx, rfl⟩
        rw [StdMap.get_of_mem h.sorted (h.perm.mem_iff.2 hx : (x.1, x.2) ∈ c.map)]
        simp
    rw [if_neg hu, hmem hr, hmem h]
    simp only [Ne.symm hu, false_or, ← he]
    have hnd := h.nodup
    simp only [List.map_cons, List.nodup_cons] at hnd
    constructor
    · rintro ⟨x, hx, rfl⟩
      refine ⟨?_, x, by simp [hx], rfl⟩
      intro hxe
      apply hnd.1
      rw [← hxe]
      exact List.mem_map_of_mem (f := (·.1)) hx
    · rintro ⟨hne, x, hx, rfl⟩
      simp only [List.mem_cons] at hx
      rcases hx with rfl | hx
      · exact absurd rfl hne
      · exact ⟨x, hx, rfl⟩

/-- The hypotheses of `C15_evicts_oldest` are met, also after a delete and a new insertion of a URL. -/
example : (run (α := Nat) (fun _ => none) (fun _ => none) (init 2)
    [.save ['a'] (some 1), .save ['b'] (some 2), .delete ['a'], .save ['a'] (some 4), .save ['c'] (some 3)]).2.map.map (·.1)
    = [['a'], ['c']] := by decide

end Kml.NetCache
