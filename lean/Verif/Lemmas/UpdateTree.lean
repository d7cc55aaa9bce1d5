import Verif.Spec.Update
import Verif.Lemmas.Merge
import Verif.Lemmas.Ids

/-!
# Changing one element of a tree
-/

namespace Kml.Dom

open Kml

/-- The tree with another element at a place. -/
def Elem.put (y : Elem) : List Step → Elem → Elem
  | [], _ => y
  | .slot m i :: p, .node t a slots mis unk =>
    match (slots m)[i]? with
    | some x => .node t a (setSlot slots m ((slots m).set i (Elem.put y p x))) mis unk
    | none => .node t a slots mis unk
  | .mis i :: p, .node t a slots mis unk =>
    match mis[i]? with
    | some x => .node t a slots (mis.set i (Elem.put y p x)) unk
    | none => .node t a slots mis unk
  | _ :: _, .field t s => .field t s

theorem modifyAt_put {f : Elem → Outcome Elem} {x y : Elem} (hf : f x = .ok y) : ∀ {p : List Step} {e : Elem},
    e.at p = some x → modifyAt f p e = .ok (Elem.put y p e)
  | [], e, h => by
    cases h
    rw [modifyAt, hf, Elem.put]
  | .slot m i :: p, .field t s, h => by cases h
  | .mis i :: p, .field t s, h => by cases h
  | .slot m i :: p, .node t a slots mis unk, h => by
    rw [Elem.at, Elem.child] at h
    rcases Option.eq_none_or_eq_some ((slots m)[i]?) with h1 | ⟨w, h1⟩
    · rw [h1] at h; cases h
    · rw [h1] at h
      have ih := modifyAt_put hf (p := p) (e := w) h
      simp only [modifyAt, Elem.put, h1, ih]; rfl
  | .mis i :: p, .node t a slots mis unk, h => by
    rw [Elem.at, Elem.child] at h
    rcases Option.eq_none_or_eq_some (mis[i]?) with h1 | ⟨w, h1⟩
    · rw [h1] at h; cases h
    · rw [h1] at h
      have ih := modifyAt_put hf (p := p) (e := w) h
      simp only [modifyAt, Elem.put, h1, ih]; rfl

theorem put_child_same (y : Elem) (s : Step) (p : List Step) (e : Elem) :
    (Elem.put y (s :: p) e).child s = (e.child s).map (Elem.put y p) := by
  cases e with
  | field => cases s <;> rfl
  | node t a slots mis unk =>
    cases s with
    | slot m i =>
      rw [Elem.put, Elem.child]
      rcases Option.eq_none_or_eq_some ((slots m)[i]?) with h1 | ⟨w, h1⟩
      · rw [h1]; simp only [Elem.child, h1, Option.map_none]
      · rw [h1]
        have : i < (slots m).length := (List.getElem?_eq_some_iff.1 h1).1
        simp only [Elem.child, setSlot, if_true, List.getElem?_set_self this, Option.map_some]
    | mis i =>
      rw [Elem.put, Elem.child]
      rcases Option.eq_none_or_eq_some (mis[i]?) with h1 | ⟨w, h1⟩
      · rw [h1]; simp only [Elem.child, h1, Option.map_none]
      · rw [h1]
        have : i < mis.length := (List.getElem?_eq_some_iff.1 h1).1
        simp only [Elem.child, List.getElem?_set_self this, Option.map_some]

theorem put_child_other (y : Elem) {s s' : Step} (h : s' ≠ s) (p : List Step) (e : Elem) :
    (Elem.put y (s :: p) e).child s' = e.child s' := by
  cases e with
  | field => cases s <;> rfl
  | node t a slots mis unk =>
    cases s with
    | slot m i =>
      rw [Elem.put]
      rcases Option.eq_none_or_eq_some ((slots m)[i]?) with h1 | ⟨w, h1⟩
      · rw [h1]
      · rw [h1]
        cases s' with
        | mis => rfl
        | slot m' i' =>
          simp only [Elem.child, setSlot]
          by_cases hm : m' = m
          · subst hm
            rw [if_pos rfl, List.getElem?_set_ne (fun hi => h (by rw [hi]))]
          · rw [if_neg hm]
    | mis i =>
      rw [Elem.put]
      rcases Option.eq_none_or_eq_some (mis[i]?) with h1 | ⟨w, h1⟩
      · rw [h1]
      · rw [h1]
        cases s' with
        | slot => rfl
        | mis i' => simp only [Elem.child]; rw [List.getElem?_set_ne (fun hi => h (by rw [hi]))]

theorem put_shell (y : Elem) (s : Step) (p : List Step) (e : Elem) : (Elem.put y (s :: p) e).shell = e.shell := by
  cases e with
  | field => cases s <;> rfl
  | node t a slots mis unk =>
    cases s with
    | slot m i =>
      rw [Elem.put]
      split <;> rfl
    | mis i =>
      rw [Elem.put]
      split <;> rfl

theorem put_at (y : Elem) : ∀ {p : List Step} {e x : Elem}, e.at p = some x → ∀ r, (Elem.put y p e).at (p ++ r) = y.at r
  | [], _, _, _, _ => rfl
  | s :: p, e, x, h, r => by
    rw [Elem.at] at h
    rcases Option.eq_none_or_eq_some (e.child s) with h1 | ⟨w, h1⟩
    · rw [h1] at h; cases h
    · rw [h1] at h
      rw [List.cons_append, Elem.at, put_child_same, h1, Option.map_some]
      exact put_at y (p := p) (e := w) h r

theorem put_here (y : Elem) {p : List Step} {e x : Elem} (h : e.at p = some x) : (Elem.put y p e).at p = some y := by
  have := put_at y h []
  rw [List.append_nil] at this
  exact this

theorem put_only (y : Elem) : ∀ (p : List Step) (e : Elem), Only p e (Elem.put y p e)
  | [], e => ⟨fun q h => absurd (List.nil_prefix) h, fun q h hq => absurd (List.prefix_nil.1 h) hq⟩
  | s :: p, e => by
    obtain ⟨h1, h2⟩ := put_only y p e
    constructor
    · intro q hq hq'
      cases q with
      | nil => exact absurd List.nil_prefix hq'
      | cons s' q =>
        rw [Elem.at, Elem.at]
        by_cases hs : s' = s
        · subst hs
          rw [put_child_same]
          rcases Option.eq_none_or_eq_some (e.child s') with h | ⟨w, h⟩
          · rw [h]; rfl
          · rw [h]
            exact (put_only y p w).outside q (fun hh => hq ((List.cons_prefix_cons).2 ⟨rfl, hh⟩))
              (fun hh => hq' ((List.cons_prefix_cons).2 ⟨rfl, hh⟩))
        · rw [put_child_other y hs]
    · intro q hq hne
      cases q with
      | nil => rw [Elem.at, Elem.at, Option.map_some, Option.map_some, put_shell]
      | cons s' q =>
        rw [List.cons_prefix_cons] at hq
        obtain ⟨rfl, hq⟩ := hq
        rw [Elem.at, Elem.at, put_child_same]
        rcases Option.eq_none_or_eq_some (e.child s') with h | ⟨w, h⟩
        · rw [h]; rfl
        · rw [h]
          exact (put_only y p w).above q hq (fun hh => hne (by rw [hh]))

theorem shell_ty (e : Elem) : e.shell.ty = e.ty := by cases e <;> rfl
theorem shell_complex (e : Elem) : e.shell.complex = e.complex := by cases e <;> rfl
theorem shell_marked (e : Elem) : e.shell.marked = e.marked := by cases e <;> rfl
theorem shell_objectId (e : Elem) : e.shell.objectId = e.objectId := by
  cases e with
  | field => rfl
  | node t a slots mis unk => rfl

/-- The element at any place that is not below the changed one is there, with the same type and id. -/
theorem put_keeps {y : Elem} {p : List Step} {e : Elem} {q : List Step} {z : Elem}
    (hq : e.at q = some z) (hp : ¬ p <+: q) : ∃ z', (Elem.put y p e).at q = some z' ∧ z'.shell = z.shell := by
  by_cases hqp : q <+: p
  · have := (put_only y p e).above q hqp (fun hh => hp (hh ▸ List.prefix_rfl))
    rw [hq] at this
    rcases Option.eq_none_or_eq_some ((Elem.put y p e).at q) with h1 | ⟨w, h1⟩
    · rw [h1] at this; cases this
    · rw [h1] at this
      exact ⟨w, h1, by simpa using this⟩
  · exact ⟨z, by rw [(put_only y p e).outside q hp hqp, hq], rfl⟩

/-! ### Elements as the parser leaves them -/

theorem fits_item {n : NumLib} {t : Ty} {a : Attrs} {slots : Mem → List Elem} {mis : List Elem} {unk : List Str}
    (h : OkTarget n (.node t a slots mis unk)) (htext : textual t = false) {m : Mem} {x : Elem} (hx : x ∈ slots m) :
    Fits n t m x ∧ ∀ act, taker t x = some act → act.isArray = false → slots m = [x] := by
  obtain ⟨h1, h2⟩ := h
  cases h2 with
  | node _ hes _ =>
  cases h1 with
  | points => cases htext
  | text ht => rcases ht with rfl | rfl | rfl <;> cases htext
  | node _ _ _ hslots _ hh _ =>
    obtain ⟨act, k1, k2, k3, k4⟩ := hslots m x hx
    refine ⟨⟨⟨act, k1, k2, k3⟩, hh m x hx, hes m x hx⟩, fun act' ha => ?_⟩
    rw [k1] at ha
    cases ha
    exact k4

theorem ok_setItems {n : NumLib} {t : Ty} {a : Attrs} {slots : Mem → List Elem} {mis : List Elem} {unk : List Str}
    (h : OkTarget n (.node t a slots mis unk)) (htext : textual t = false) {m : Mem} {l : List Elem}
    (hl : ∀ y ∈ l, Fits n t m y) (harr : ∀ y ∈ l, ∀ act, taker t y = some act → act.isArray = false → l = [y]) :
    OkTarget n (.node t a (setSlot slots m l) mis unk) := by
  obtain ⟨h1, h2⟩ := h
  cases h2 with
  | node ht hes hem =>
  cases h1 with
  | points => cases htext
  | text ht => rcases ht with rfl | rfl | rfl <;> cases htext
  | node hc ht' ha hslots hmis hh hhm =>
    refine ⟨.node hc ht' ha ?_ hmis ?_ hhm, .node ht ?_ hem⟩
    · intro m' x hx
      by_cases hm : m' = m
      · subst hm
        rw [setSlot, if_pos rfl] at hx
        obtain ⟨⟨act, k1, k2, k3⟩, _⟩ := hl x hx
        refine ⟨act, k1, k2, k3, fun hb => ?_⟩
        rw [setSlot, if_pos rfl]
        exact harr x hx act k1 hb
      · rw [setSlot, if_neg hm] at hx ⊢
        exact hslots m' x hx
    · intro m' x hx
      by_cases hm : m' = m
      · subst hm
        rw [setSlot, if_pos rfl] at hx
        exact (hl x hx).2.1
      · rw [setSlot, if_neg hm] at hx
        exact hh m' x hx
    · intro m' x hx
      by_cases hm : m' = m
      · subst hm
        rw [setSlot, if_pos rfl] at hx
        exact (hl x hx).2.2
      · rw [setSlot, if_neg hm] at hx
        exact hes m' x hx

theorem field_at {t : Ty} {s : Str} {p : List Step} {x : Elem} (h : (Elem.field t s).at p = some x) : x = .field t s := by
  cases p with
  | nil => cases h; rfl
  | cons s p => cases s <;> cases h

theorem fits_same {n : NumLib} {t : Ty} {m : Mem} {x y : Elem} (h : Fits n t m x) (hx : x.complex = true)
    (hy : y.complex = true) (hty : y.ty = x.ty) (hok : OkTarget n y) : Fits n t m y ∧ taker t y = taker t x := by
  cases x with
  | field => cases hx
  | node tx ax sx mx ux =>
    cases y with
    | field => cases hy
    | node ty ay sy my uy =>
      have : ty = tx := hty
      subst this
      have ht := taker_node t ty ay ax sy sx my mx uy ux
      obtain ⟨⟨act, h1, h2, h3⟩, _⟩ := h
      refine ⟨⟨⟨act, by rw [ht, h1], h2, ?_⟩, hok⟩, ht⟩
      rcases h3 with ⟨_, _, _, h⟩ | h
      · cases h
      · right
        cases act <;> exact h

/-- In an element whose misplaced children are simple, a complex element is in a member that holds elements. -/
theorem member_of {n : NumLib} {e : Elem} (h : OkTarget n e) {s : Step} {p : List Step} {x : Elem}
    (hx : e.at (s :: p) = some x) (hc : x.complex = true) :
    ∃ t a slots mis unk m i w, e = .node t a slots mis unk ∧ s = .slot m i ∧ textual t = false ∧
      (slots m)[i]? = some w ∧ w.complex = true ∧ w.at p = some x := by
  rw [Elem.at] at hx
  rcases Option.eq_none_or_eq_some (e.child s) with h1 | ⟨w, h1⟩
  · rw [h1] at hx; cases hx
  · rw [h1] at hx
    have hx : w.at p = some x := hx
    have hw : w.complex = true := by
      cases w with
      | node => rfl
      | field => rw [field_at hx] at hc; cases hc
    cases e with
    | field => cases h1
    | node t a slots mis unk =>
      cases s with
      | mis i =>
        have h1 : mis[i]? = some w := h1
        have := everywhere_top h.2 w (List.mem_of_getElem? h1)
        rw [hw] at this
        cases this
      | slot m i =>
        have h1 : (slots m)[i]? = some w := h1
        refine ⟨t, a, slots, mis, unk, m, i, w, rfl, rfl, ?_, h1, hw, hx⟩
        have hmem := List.mem_of_getElem? h1
        cases h.1 with
        | node _ h => exact h
        | text _ _ hs =>
          rcases hs with rfl | ⟨s, rfl⟩
          · cases hmem
          · unfold textSlots setSlot at hmem
            split at hmem
            · rw [List.mem_singleton] at hmem
              rw [hmem] at hw
              cases hw
            · cases hmem
        | points =>
          unfold pointTextSlots setSlot at hmem
          split at hmem
          · rw [List.mem_map] at hmem
            obtain ⟨_, _, rfl⟩ := hmem
            cases hw
          · cases hmem

theorem ok_put {n : NumLib} {y : Elem} (hy : OkTarget n y) (hyc : y.complex = true) : ∀ {p : List Step} {e x : Elem},
    OkTarget n e → e.at p = some x → x.complex = true → y.ty = x.ty → OkTarget n (Elem.put y p e)
  | [], _, _, _, _, _, _ => hy
  | s :: p, e, x, h, hx, hc, hty => by
    obtain ⟨t, a, slots, mis, unk, m, i, w, rfl, rfl, htext, hw, hwc, hwx⟩ := member_of h hx hc
    obtain ⟨hfit, harr⟩ := fits_item h htext (List.mem_of_getElem? hw)
    have hput := ok_put hy hyc hfit.2 hwx hc hty
    have hsame : (Elem.put y p w).complex = true ∧ (Elem.put y p w).ty = w.ty := by
      cases p with
      | nil => cases hwx; exact ⟨hyc, hty⟩
      | cons s p => rw [← shell_complex, ← shell_ty, put_shell, shell_complex, shell_ty]; exact ⟨hwc, rfl⟩
    obtain ⟨hfit', htk⟩ := fits_same hfit hwc hsame.1 hsame.2 hput
    rw [Elem.put, hw]
    refine ok_setItems h htext ?_ ?_
    · intro z hz
      rcases List.mem_or_eq_of_mem_set hz with hz | rfl
      · exact (fits_item h htext hz).1
      · exact hfit'
    · intro z hz0 act hact hb
      rcases List.mem_or_eq_of_mem_set hz0 with hz | rfl
      · have := (fits_item h htext hz).2 act hact hb
        rw [this] at hw hz0 ⊢
        cases i with
        | zero =>
          rw [List.set_cons_zero, List.mem_singleton] at hz0
          rw [List.set_cons_zero, ← hz0]
        | succ i => cases hw
      · rw [htk] at hact
        have := harr act hact hb
        rw [this] at hw ⊢
        cases i with
        | zero => rfl
        | succ i => cases hw

/-! ### Marks -/

theorem markAll_eq : ∀ (l : List Elem), Elem.markAll l = l.map Elem.mark
  | [] => by rw [Elem.markAll]; rfl
  | e :: l => by rw [Elem.markAll, markAll_eq l]; rfl

theorem mark_ty (e : Elem) : e.mark.ty = e.ty := by cases e <;> first | (simp only [Elem.mark]; done) | (simp only [Elem.mark]; rfl)
theorem mark_complex (e : Elem) : e.mark.complex = e.complex := by cases e <;> first | (simp only [Elem.mark]; done) | (simp only [Elem.mark]; rfl)
theorem mark_marked (e : Elem) : e.mark.marked = e.complex := by
  cases e <;> simp only [Elem.mark, Elem.marked, Elem.complex, List.head?_cons, decide_true]
theorem mark_objectId (e : Elem) : e.mark.objectId = e.objectId := by cases e <;> first | (simp only [Elem.mark]; done) | (simp only [Elem.mark]; rfl)

theorem mark_child (e : Elem) (s : Step) : e.mark.child s = (e.child s).map Elem.mark := by
  cases e with
  | field => simp only [Elem.mark, Elem.child, Option.map_none]
  | node t a slots mis unk =>
    rw [Elem.mark]
    cases s <;> simp only [Elem.child, markAll_eq, List.getElem?_map]

theorem mark_at : ∀ (p : List Step) (e : Elem), e.mark.at p = (e.at p).map Elem.mark
  | [], e => rfl
  | s :: p, e => by
    rw [Elem.at, Elem.at, mark_child]
    rcases Option.eq_none_or_eq_some (e.child s) with h | ⟨w, h⟩
    · rw [h]; rfl
    · rw [h]; exact mark_at p w

theorem mark_taker (t : Ty) (x : Elem) : taker t x.mark = taker t x := by
  cases x with
  | field => rw [Elem.mark]
  | node => rw [Elem.mark]; exact taker_node ..

theorem held_mark {n : NumLib} {e : Elem} (h : Held n e) : Held n e.mark := by
  induction h with
  | field h => rw [Elem.mark]; exact .field h
  | @node t a slots mis unk hc htext ha hslots hmis _ _ ih ihm =>
    rw [Elem.mark]
    refine .node hc htext ha ?_ ?_ ?_ ?_
    · intro m x hx
      rw [markAll_eq, List.mem_map] at hx
      obtain ⟨x, hx, rfl⟩ := hx
      obtain ⟨act, k1, k2, k3, k4⟩ := hslots m x hx
      refine ⟨act, by rw [mark_taker, k1], k2, ?_, fun hb => ?_⟩
      · rcases k3 with ⟨h1, t', s, rfl⟩ | h
        · exact .inl ⟨h1, t', s, by rw [Elem.mark]⟩
        · right
          cases x with
          | field => rw [Elem.mark]; exact h
          | node => rw [Elem.mark]; cases act <;> exact h
      · rw [k4 hb]
        simp only [Elem.markAll]
    · intro x hx
      rw [markAll_eq, List.mem_map] at hx
      obtain ⟨x, hx, rfl⟩ := hx
      rw [mark_taker]
      exact hmis x hx
    · intro m x hx
      rw [markAll_eq, List.mem_map] at hx
      obtain ⟨x, hx, rfl⟩ := hx
      exact ih m x hx
    · intro x hx
      rw [markAll_eq, List.mem_map] at hx
      obtain ⟨x, hx, rfl⟩ := hx
      exact ihm x hx
  | @text t a slots mis unk ht ha hs hmis _ ihm =>
    rw [Elem.mark]
    refine .text ht ha ?_ ?_ ?_
    · rcases hs with rfl | ⟨s, rfl⟩
      · left
        funext m
        simp only [Elem.markAll]
      · right
        refine ⟨s, ?_⟩
        funext m
        unfold textSlots setSlot
        split <;> simp only [Elem.markAll, Elem.mark]
    · intro x hx
      rw [markAll_eq, List.mem_map] at hx
      obtain ⟨x, hx, rfl⟩ := hx
      rw [mark_taker]
      exact hmis x hx
    · intro x hx
      rw [markAll_eq, List.mem_map] at hx
      obtain ⟨x, hx, rfl⟩ := hx
      exact ihm x hx
  | @points a pts unk ha =>
    rw [Elem.mark]
    have : (fun m => Elem.markAll (pointTextSlots pts m)) = pointTextSlots pts := by
      funext m
      unfold pointTextSlots setSlot
      split
      · rw [markAll_eq, List.map_map]
        refine List.map_congr_left fun x _ => ?_
        simp only [Function.comp, Elem.mark]
      · simp only [Elem.markAll]
    rw [this, Elem.markAll]
    exact .points ha

theorem tidy_mark {e : Elem} (h : Everywhere Tidy e) : Everywhere Tidy e.mark := by
  induction h with
  | field h => rw [Elem.mark]; exact .field trivial
  | @node t a slots mis unk h _ _ ih ihm =>
    rw [Elem.mark]
    refine .node ?_ ?_ ?_
    · intro x hx
      rw [markAll_eq, List.mem_map] at hx
      obtain ⟨x, hx, rfl⟩ := hx
      rw [mark_complex]
      exact h x hx
    · intro m x hx
      rw [markAll_eq, List.mem_map] at hx
      obtain ⟨x, hx, rfl⟩ := hx
      exact ih m x hx
    · intro x hx
      rw [markAll_eq, List.mem_map] at hx
      obtain ⟨x, hx, rfl⟩ := hx
      exact ihm x hx

theorem ok_mark {n : NumLib} {e : Elem} (h : OkTarget n e) : OkTarget n e.mark := ⟨held_mark h.1, tidy_mark h.2⟩

/-! ### What is left when the unknown elements are not looked at -/

mutual

/-- An element without unknown elements anywhere. -/
def Elem.bare : Elem → Elem
  | .field t s => .field t s
  | .node t a slots mis _ => .node t a (fun m => Elem.bareAll (slots m)) (Elem.bareAll mis) []

/-- The same for a list. -/
def Elem.bareAll : List Elem → List Elem
  | [] => []
  | e :: es => e.bare :: Elem.bareAll es

end

theorem bareAll_eq : ∀ (l : List Elem), Elem.bareAll l = l.map Elem.bare
  | [] => by rw [Elem.bareAll]; rfl
  | e :: l => by rw [Elem.bareAll, bareAll_eq l]; rfl

theorem bare_ty (e : Elem) : e.bare.ty = e.ty := by cases e <;> first | (simp only [Elem.bare]; done) | (simp only [Elem.bare]; rfl)
theorem bare_complex (e : Elem) : e.bare.complex = e.complex := by cases e <;> first | (simp only [Elem.bare]; done) | (simp only [Elem.bare]; rfl)
theorem bare_objectId (e : Elem) : e.bare.objectId = e.objectId := by cases e <;> first | (simp only [Elem.bare]; done) | (simp only [Elem.bare]; rfl)

theorem bare_child (e : Elem) (s : Step) : e.bare.child s = (e.child s).map Elem.bare := by
  cases e with
  | field => simp only [Elem.bare, Elem.child, Option.map_none]
  | node t a slots mis unk =>
    rw [Elem.bare]
    cases s <;> simp only [Elem.child, bareAll_eq, List.getElem?_map]

theorem bare_at : ∀ (p : List Step) (e : Elem), e.bare.at p = (e.at p).map Elem.bare
  | [], e => rfl
  | s :: p, e => by
    rw [Elem.at, Elem.at, bare_child]
    rcases Option.eq_none_or_eq_some (e.child s) with h | ⟨w, h⟩
    · rw [h]; rfl
    · rw [h]; exact bare_at p w

mutual

theorem bare_mark : ∀ (e : Elem), e.mark.bare = e.bare
  | .field t s => by rw [Elem.mark]
  | .node t a slots mis unk => by
    rw [Elem.mark, Elem.bare, Elem.bare]
    congr 1
    · funext m; exact bareAll_mark (slots m)
    · exact bareAll_mark mis

theorem bareAll_mark : ∀ (l : List Elem), Elem.bareAll (Elem.markAll l) = Elem.bareAll l
  | [] => by rw [Elem.markAll]
  | e :: l => by rw [Elem.markAll, Elem.bareAll, Elem.bareAll, bare_mark e, bareAll_mark l]

end

theorem changeAt_map {f g : Elem → Elem} {h : Elem → Elem} (hh : ∀ y, h (f y) = g (h y)) (l : List Elem) (i : Nat) :
    (changeAt l i f).map h = changeAt (l.map h) i g := by
  unfold changeAt
  rw [List.getElem?_map]
  rcases Option.eq_none_or_eq_some l[i]? with h1 | ⟨w, h1⟩
  · rw [h1]; rfl
  · rw [h1, Option.map_some]
    simp only [List.map_set, hh]

mutual

theorem bare_merged : ∀ (x y : Elem), (merged x y).bare = merged x.bare y.bare
  | .field t s, y => by simp only [merged, Elem.bare]
  | .node t a slots mis unk, .field t' s' => by simp only [merged, Elem.bare]
  | .node t a slots mis unk, .node t' a' slots' mis' unk' => by
    simp only [merged, Elem.bare]
    congr 1
    · funext m
      have h1 := bare_items (slots m) (slots' m) (slots' m)
      have h2 := bare_item (slots m) (slots' m)
      rw [← bareAll_eq, ← bareAll_eq, ← bareAll_eq] at h1
      rw [← bareAll_eq, ← bareAll_eq, ← bareAll_eq] at h2
      split
      · rfl
      · split
        · rfl
        · split
          · exact h1
          · exact h2
    · rw [bareAll_eq, bareAll_eq, bareAll_eq, List.map_append]
  termination_by structural x => x

theorem bare_item : ∀ (xs old : List Elem), (mergedItem xs old).map Elem.bare = mergedItem (xs.map Elem.bare) (old.map Elem.bare)
  | [], old => by simp only [mergedItem, List.map_nil]
  | x :: xs, old => by
    have hx := bare_merged x
    simp only [List.map_cons, mergedItem]
    cases old with
    | nil => rfl
    | cons y old =>
      cases old with
      | nil =>
        simp only [List.map_cons, List.map_nil, bare_ty]
        split
        · simp only [List.map_cons, List.map_nil, hx]
        · rfl
      | cons => rfl
  termination_by structural xs => xs

theorem bare_items : ∀ (xs had cur : List Elem),
    (mergedItems xs had cur).map Elem.bare = mergedItems (xs.map Elem.bare) (had.map Elem.bare) (cur.map Elem.bare)
  | [], had, cur => by simp only [mergedItems, List.map_nil]
  | x :: xs, had, cur => by
    have hx := bare_merged x
    have ih := fun cur => bare_items xs had cur
    simp only [List.map_cons, mergedItems, ih]
    congr 1
    rw [List.findIdx?_map]
    have : ((fun y : Elem => x.bare.complex && decide (y.ty = x.bare.ty)) ∘ Elem.bare) =
        fun y => x.complex && decide (y.ty = x.ty) := by
      funext y
      simp only [Function.comp, bare_complex, bare_ty]
    rw [this]
    cases had.findIdx? fun y => x.complex && decide (y.ty = x.ty) with
    | none => simp only [List.map_append, List.map_cons, List.map_nil]
    | some i => exact changeAt_map hx cur i
  termination_by structural xs => xs

end

/-- Two trees that differ in unknown elements only have elements of the same types and ids at the same places. -/
theorem bare_same {e e' : Elem} (h : e'.bare = e.bare) {p : List Step} {x : Elem} (hx : e.at p = some x) :
    ∃ x', e'.at p = some x' ∧ x'.ty = x.ty ∧ x'.objectId = x.objectId ∧ x'.complex = x.complex := by
  have h1 := bare_at p e'
  rw [h, bare_at, hx, Option.map_some] at h1
  rcases Option.eq_none_or_eq_some (e'.at p) with h2 | ⟨w, h2⟩
  · rw [h2] at h1; cases h1
  · rw [h2, Option.map_some] at h1
    have h1 : x.bare = w.bare := Option.some.inj h1
    refine ⟨w, h2, ?_, ?_, ?_⟩
    · rw [← bare_ty w, ← h1, bare_ty]
    · rw [← bare_objectId w, ← h1, bare_objectId]
    · rw [← bare_complex w, ← h1, bare_complex]

/-! ### Where the elements of the result of a merge come from -/

/-- An element with no mark and, if any, an id of `S`. -/
def Fresh (S : Str → Prop) (e : Elem) : Prop := e.marked = false ∧ ∀ id, e.objectId = some id → S id

/-- An element of a source: its known attributes are a map. -/
def Src (S : Str → Prop) (e : Elem) : Prop :=
  Fresh S e ∧ ∀ t a slots mis unk, e = .node t a slots mis unk → StdMap.Sorted a.known

/-- An element that is `z` after a merge: it has the same mark and the same id, or one of `S`. -/
def SameObject (S : Str → Prop) (z z' : Elem) : Prop :=
  z'.ty = z.ty ∧ z'.marked = z.marked ∧ (z'.objectId = z.objectId ∨ ∃ id, z'.objectId = some id ∧ S id)

/-- Every element of `Y'` is fresh or was at its place in `Y`. -/
def Origin (S : Str → Prop) (Y Y' : Elem) : Prop :=
  ∀ p z', Y'.at p = some z' → Fresh S z' ∨ ∃ z, Y.at p = some z ∧ SameObject S z z'

/-- The same for the items of lists. -/
def Origins (S : Str → Prop) (l l' : List Elem) : Prop :=
  ∀ (i : Nat) (y' : Elem), l'[i]? = some y' → (∀ p z', y'.at p = some z' → Fresh S z') ∨ ∃ y, l[i]? = some y ∧ Origin S y y'

theorem SameObject.fresh {S : Str → Prop} {z z' : Elem} (h : SameObject S z z') (hf : Fresh S z) : Fresh S z' := by
  obtain ⟨_, h2, h3⟩ := h
  refine ⟨by rw [h2, hf.1], fun id hid => ?_⟩
  rcases h3 with h3 | ⟨id', h3, h4⟩
  · exact hf.2 id (by rw [← h3, hid])
  · rw [hid] at h3
    cases h3
    exact h4

theorem SameObject.trans {S : Str → Prop} {z z' z'' : Elem} (h : SameObject S z z') (h' : SameObject S z' z'') :
    SameObject S z z'' := by
  obtain ⟨a1, a2, a3⟩ := h
  obtain ⟨b1, b2, b3⟩ := h'
  refine ⟨b1.trans a1, b2.trans a2, ?_⟩
  rcases b3 with b3 | b3
  · rcases a3 with a3 | ⟨id, a3, a4⟩
    · exact .inl (b3.trans a3)
    · exact .inr ⟨id, b3.trans a3, a4⟩
  · exact .inr b3

theorem SameObject.refl (S : Str → Prop) (z : Elem) : SameObject S z z := ⟨rfl, rfl, .inl rfl⟩

theorem Origin.refl (S : Str → Prop) (e : Elem) : Origin S e e := fun _ z hz => .inr ⟨z, hz, .refl S z⟩

theorem Origin.trans {S : Str → Prop} {a b c : Elem} (h : Origin S a b) (h' : Origin S b c) : Origin S a c := by
  intro p z' hz
  rcases h' p z' hz with h1 | ⟨z, h1, h2⟩
  · exact .inl h1
  · rcases h p z h1 with h3 | ⟨w, h3, h4⟩
    · exact .inl (h2.fresh h3)
    · exact .inr ⟨w, h3, h4.trans h2⟩

theorem Origins.refl (S : Str → Prop) (l : List Elem) : Origins S l l := fun _ y hy => .inr ⟨y, hy, .refl S y⟩

theorem Origins.trans {S : Str → Prop} {a b c : List Elem} (h : Origins S a b) (h' : Origins S b c) : Origins S a c := by
  intro i z' hz
  rcases h' i z' hz with h1 | ⟨z, h1, h2⟩
  · exact .inl h1
  · rcases h i z h1 with h3 | ⟨w, h3, h4⟩
    · left
      intro p u hu
      rcases h2 p u hu with h5 | ⟨v, h5, h6⟩
      · exact h5
      · exact h6.fresh (h3 p v h5)
    · exact .inr ⟨w, h3, h4.trans h2⟩

theorem fresh_all {S : Str → Prop} {x : Elem} (h : Everywhere (Src S) x) (p : List Step) (z : Elem) (hz : x.at p = some z) :
    Fresh S z := (everywhere_top (everywhere_at h hz)).1

theorem over_get : ∀ {new : StdMap Str} (old : StdMap Str), StdMap.Sorted new → ∀ k,
    (over old new).get k = (new.get k).or (old.get k)
  | [], old, _, k => by simp [over, StdMap.get]
  | (k0, v0) :: l, old, h, k => by
    cases h with
    | cons hlt hi =>
      have ih := over_get (new := l) (old.set k0 v0) hi k
      unfold over at ih ⊢
      rw [List.foldl_cons, ih, StdMap.get_set, StdMap.get]
      by_cases hk : k0 = k
      · subst hk
        rw [if_pos rfl, if_pos rfl, StdMap.get_none_of_lt fun e he => hlt e he]
        rfl
      · rw [if_neg hk, if_neg hk]

theorem node_objectId' (t : Ty) (a : Attrs) (slots : Mem → List Elem) (mis : List Elem) (unk : List Str)
    (a' : Attrs) (slots' : Mem → List Elem) (mis' : List Elem) (unk' : List Str) (h : a'.known.get (chars! "id") = a.known.get (chars! "id")) :
    (Elem.node t a' slots' mis' unk').objectId = (Elem.node t a slots mis unk).objectId := by
  show (if _ then a'.known.get _ else none) = if _ then a.known.get _ else none
  rw [h]
  rfl

mutual

theorem merged_origin {S : Str → Prop} : ∀ (x Y : Elem), Everywhere (Src S) x → Y.ty = x.ty → Origin S Y (merged x Y)
  | .field t s, Y, hx, _ => by
    intro p z' hz
    rw [merged] at hz
    exact .inl (fresh_all hx p z' hz)
  | .node t a slots mis unk, .field t' s', hx, _ => by
    rw [merged]
    exact .refl S _
  | .node t a slots mis unk, .node t' a' slots' mis' unk', hx, hty => by
    have htt : t' = t := hty
    subst htt
    have hi := fun m => items_origin (S := S) (slots m) (slots' m) (slots' m)
    have ho := fun m => item_origin (S := S) (slots m) (slots' m)
    cases hx with
    | node htop hslots hmis =>
    have hItems : ∀ m, Origins S (slots' m)
        (if t' = Ty.«coordinates» then slots m
          else if textual t' then slots' m
          else if holdsMany t' m then mergedItems (slots m) (slots' m) (slots' m)
          else mergedItem (slots m) (slots' m)) := by
      intro m
      split
      · intro i y' hy
        left
        exact fresh_all (hslots m y' (List.mem_of_getElem? hy))
      · split
        · exact .refl S _
        · split
          · exact hi m (hslots m) (fun i y hy => ⟨y, hy, rfl⟩)
          · exact ho m (hslots m)
    intro p z' hz
    cases p with
    | nil =>
      rw [merged, Elem.at] at hz
      cases hz
      refine .inr ⟨_, rfl, rfl, rfl, ?_⟩
      have hg := over_get a'.known (htop.2 t' a slots mis unk rfl) (chars! "id")
      rcases Option.eq_none_or_eq_some (a.known.get (chars! "id")) with hn | ⟨id, hs⟩
      · left
        refine node_objectId' _ _ _ _ _ _ _ _ _ ?_
        show (over a'.known a.known).get _ = _
        rw [hg, hn]
        rfl
      · have heq : (Elem.node t' (mergedAttrs a a')
            (fun m =>
              if t' = Ty.«coordinates» then slots m
              else if textual t' then slots' m
              else if holdsMany t' m then mergedItems (slots m) (slots' m) (slots' m)
              else mergedItem (slots m) (slots' m))
            (mis' ++ mis) unk').objectId = (Elem.node t' a slots mis unk).objectId := by
          refine node_objectId' _ _ _ _ _ _ _ _ _ ?_
          show (over a'.known a.known).get _ = _
          rw [hg, hs]
          rfl
        rcases Option.eq_none_or_eq_some ((Elem.node t' a slots mis unk).objectId) with hn' | ⟨id', hs'⟩
        · left
          rw [heq, hn']
          have hn' : (if (Elem.node t' a slots mis unk).isA Ty.«Object» then a.known.get (chars! "id") else none) = none := hn'
          show none = if (Elem.node t' a slots mis unk).isA Ty.«Object» then a'.known.get (chars! "id") else none
          split at hn'
          · rw [hs] at hn'; cases hn'
          · rename_i h
            exact (if_neg h).symm
        · right
          exact ⟨id', heq.trans hs', htop.1.2 id' hs'⟩
    | cons s p =>
      cases s with
      | mis i =>
        rw [merged, Elem.at, Elem.child] at hz
        by_cases hlt : i < mis'.length
        · rw [List.getElem?_append_left hlt] at hz
          refine .inr ⟨z', ?_, .refl S z'⟩
          rw [Elem.at, Elem.child]
          exact hz
        · rw [List.getElem?_append_right (Nat.le_of_not_lt hlt)] at hz
          rcases Option.eq_none_or_eq_some (mis[i - mis'.length]?) with h1 | ⟨w, h1⟩
          · rw [h1] at hz; cases hz
          · rw [h1] at hz
            exact .inl (fresh_all (hmis w (List.mem_of_getElem? h1)) p z' hz)
      | slot m i =>
        rw [merged, Elem.at, Elem.child] at hz
        rcases Option.eq_none_or_eq_some ((if t' = Ty.«coordinates» then slots m
          else if textual t' then slots' m
          else if holdsMany t' m then mergedItems (slots m) (slots' m) (slots' m)
          else mergedItem (slots m) (slots' m))[i]?) with h1 | ⟨w, h1⟩
        · rw [h1] at hz; cases hz
        · rw [h1] at hz
          have hz : w.at p = some z' := hz
          rcases hItems m i w h1 with h2 | ⟨y, h2, h3⟩
          · exact .inl (h2 p z' hz)
          · rcases h3 p z' hz with h4 | ⟨z, h4, h5⟩
            · exact .inl h4
            · refine .inr ⟨z, ?_, h5⟩
              rw [Elem.at, Elem.child, h2]
              exact h4
  termination_by structural x => x

theorem item_origin {S : Str → Prop} : ∀ (xs old : List Elem), (∀ x ∈ xs, Everywhere (Src S) x) → Origins S old (mergedItem xs old)
  | [], old, _ => by rw [mergedItem]; exact .refl S _
  | x :: xs, old, h => by
    have hx := fun Y => merged_origin (S := S) x Y
    have hself : Origins S old [x] := by
      intro i y' hy
      left
      have := List.mem_of_getElem? hy
      rw [List.mem_singleton] at this
      subst this
      exact fresh_all (h y' (by simp))
    rw [mergedItem]
    dsimp only
    split
    · rename_i y
      split
      · rename_i hty
        intro i y' hy
        cases i with
        | zero =>
          cases hy
          exact .inr ⟨y, rfl, hx y (h x (by simp)) hty.symm⟩
        | succ i => cases hy
      · exact hself
    · exact hself
  termination_by structural xs => xs

theorem items_origin {S : Str → Prop} : ∀ (xs had cur : List Elem), (∀ x ∈ xs, Everywhere (Src S) x) →
    (∀ (i : Nat) (y : Elem), had[i]? = some y → ∃ y' : Elem, cur[i]? = some y' ∧ y'.ty = y.ty) → Origins S cur (mergedItems xs had cur)
  | [], had, cur, _, _ => by rw [mergedItems]; exact .refl S _
  | x :: xs, had, cur, h, hk => by
    have hx := fun Y => merged_origin (S := S) x Y
    have ih := fun cur => items_origin xs had cur (fun y hy => h y (List.mem_cons_of_mem _ hy))
    rw [mergedItems]
    dsimp only
    cases hf : had.findIdx? fun y => x.complex && decide (y.ty = x.ty) with
    | none =>
      refine Origins.trans ?_ (ih (cur ++ [x]) ?_)
      · intro i y' hy
        by_cases hlt : i < cur.length
        · rw [List.getElem?_append_left hlt] at hy
          exact .inr ⟨y', hy, .refl S y'⟩
        · rw [List.getElem?_append_right (Nat.le_of_not_lt hlt)] at hy
          have := List.mem_of_getElem? hy
          rw [List.mem_singleton] at this
          subst this
          exact .inl (fresh_all (h y' (by simp)))
      · intro i y hy
        obtain ⟨y', h1, h2⟩ := hk i y hy
        refine ⟨y', ?_, h2⟩
        rw [List.getElem?_append_left (List.getElem?_eq_some_iff.1 h1).1]
        exact h1
    | some j =>
      obtain ⟨hj, hp, _⟩ := List.findIdx?_eq_some_iff_getElem.1 hf
      rw [Bool.and_eq_true] at hp
      have hty : had[j].ty = x.ty := of_decide_eq_true hp.2
      obtain ⟨y0, hy0, hty0⟩ := hk j had[j] (List.getElem?_eq_getElem hj)
      have horg := hx y0 (h x (by simp)) (hty0.trans hty)
      have hsame : (merged x y0).ty = y0.ty := by
        cases x with
        | field => cases hp.1
        | node =>
          cases y0 with
          | field => rfl
          | node => rw [merged]; exact (hty0.trans hty).symm
      have hget : ∀ i, (changeAt cur j (merged x))[i]? = if j = i then some (merged x y0) else cur[i]? := by
        intro i
        exact changeAt_get hy0 (merged x) i
      refine Origins.trans ?_ (ih (changeAt cur j (merged x)) ?_)
      · intro i y' hy
        rw [hget] at hy
        split at hy
        · rename_i hij
          subst hij
          cases hy
          exact .inr ⟨y0, hy0, horg⟩
        · exact .inr ⟨y', hy, .refl S y'⟩
      · intro i y hy
        obtain ⟨y', h1, h2⟩ := hk i y hy
        rw [hget]
        split
        · rename_i hij
          subst hij
          rw [hy0] at h1
          cases h1
          exact ⟨_, rfl, hsame.trans h2⟩
        · exact ⟨y', h1, h2⟩
  termination_by structural xs => xs

end

end Kml.Dom
