import Verif.Lemmas.UpdateTree
import Verif.Lemmas.StyleSplit
import Verif.Lemmas.Import

/-!
# Lemmas about updates
-/

namespace Kml.Dom

open Kml

/-! ### Facts about the tables -/

theorem container_takes : classes.all (fun p => !decide (Ty.«Container» ∈ p.2.isA) ||
    (!textual p.1 && !decide (p.1 = Ty.«kml») && classes.all fun f => !decide (Ty.«Feature» ∈ f.2.isA) ||
      taker p.1 (newNode f.1) == some (.many M.«feature_array»))) = true := by
  decide +kernel

theorem kml_takes : classes.all (fun p => !decide (Ty.«kml» ∈ p.2.isA) ||
    (p.1 == Ty.«kml» && !textual p.1 && !decide (Ty.«Container» ∈ p.2.isA) && !decide (Ty.«Object» ∈ p.2.isA) && classes.all fun f => !decide (Ty.«Feature» ∈ f.2.isA) ||
      taker p.1 (newNode f.1) == some (.one M.«feature»))) = true := by
  decide +kernel

theorem kml_nowhere : classes.all (fun p => taker p.1 (newNode Ty.«kml») == none || textual p.1) = true := by
  decide +kernel

theorem features_held : classes.all (fun p => !decide (Ty.«Feature» ∈ p.2.isA) || decide (Ty.«Object» ∈ p.2.isA)) = true := by
  decide +kernel

theorem kml_class : (newNode Ty.«kml»).isA Ty.«kml» = true := by decide +kernel

attribute [local irreducible] kml22Elements Xsd.tagToId classes

/-! ### What ids refer to -/

theorem relocate_get (f : Ref → Ref) : ∀ (ids : StdMap Ref) (id : Str), (relocate f ids).get id = (ids.get id).map f
  | [], id => rfl
  | (k, r) :: l, id => by
    have ih := relocate_get f l id
    unfold relocate at ih ⊢
    rw [List.map_cons, StdMap.get, StdMap.get, ih]
    split <;> rfl

theorem relocate_sorted {f : Ref → Ref} {ids : StdMap Ref} (h : StdMap.Sorted ids) : StdMap.Sorted (relocate f ids) := by
  unfold StdMap.Sorted relocate at *
  rw [List.pairwise_map]
  exact h

theorem names_iff (idMap : Option (StdMap Str)) (s : Elem) (id : Str) :
    Names idMap s id ↔ getTargetId idMap s = some id := by
  unfold Names getTargetId
  rcases Option.eq_none_or_eq_some s.targetId with h | ⟨t, h⟩
  · rw [h]; simp
  · rw [h]
    cases idMap with
    | none => simp [eq_comm]
    | some m => simp

/-! ### Elements -/

theorem clear_ty (e : Elem) : e.clearTargetId.ty = e.ty := by cases e <;> rfl
theorem clear_complex (e : Elem) : e.clearTargetId.complex = e.complex := by cases e <;> rfl
theorem clear_child (e : Elem) (s : Step) : e.clearTargetId.child s = e.child s := by cases e <;> cases s <;> rfl

theorem clear_objectId {n : NumLib} {e : Elem} (h : Held n e) : e.clearTargetId.objectId = e.objectId := by
  cases e with
  | field => rfl
  | node t a slots mis unk =>
    refine node_objectId' _ _ _ _ _ _ _ _ _ ?_
    show (a.known.erase _).get _ = _
    rw [StdMap.get_erase (held_attrs h).known_sorted, if_neg (by decide)]

theorem clear_at {n : NumLib} {e : Elem} (h : Held n e) (p : List Step) {z : Elem} (hz : e.at p = some z) :
    ∃ z', e.clearTargetId.at p = some z' ∧ z'.ty = z.ty ∧ z'.objectId = z.objectId ∧ z'.complex = z.complex := by
  cases p with
  | nil => cases hz; exact ⟨_, rfl, clear_ty e, clear_objectId h, clear_complex e⟩
  | cons s p =>
    refine ⟨z, ?_, rfl, rfl, rfl⟩
    rw [Elem.at, clear_child]
    exact hz

theorem clear_at_back {n : NumLib} {e : Elem} (h : Held n e) (p : List Step) {z : Elem} (hz : e.clearTargetId.at p = some z) :
    ∃ z', e.at p = some z' ∧ z'.objectId = z.objectId := by
  cases p with
  | nil => cases hz; exact ⟨_, rfl, (clear_objectId h).symm⟩
  | cons s p =>
    refine ⟨z, ?_, rfl⟩
    rw [Elem.at, clear_child] at hz
    exact hz

theorem ok_clear {n : NumLib} {e : Elem} (h : OkTarget n e) : OkTarget n e.clearTargetId := by
  cases e with
  | field => exact h
  | node t a slots mis unk =>
    obtain ⟨h1, h2⟩ := h
    have hattrs : ∀ {c : Class}, a.Held n c → Attrs.Held n c { a with known := a.known.erase (chars! "targetId") } := by
      intro c ha
      refine ⟨StdMap.sorted_erase ha.known_sorted _, ha.unknown_sorted, ha.xmlns_sorted, fun e he => ?_, ha.unknown⟩
      exact ha.known e ((StdMap.erase_sublist _ _).subset he)
    constructor
    · cases h1 with
      | node k1 k2 k3 k4 k5 k6 k7 => exact .node k1 k2 (hattrs k3) k4 k5 k6 k7
      | text k1 k2 k3 k4 k5 => exact .text k1 (hattrs k2) k3 k4 k5
      | points k1 => exact .points (hattrs k1)
    · cases h2 with
      | node k1 k2 k3 => exact .node k1 k2 k3

theorem complex_of_id {e : Elem} {id : Str} (h : e.objectId = some id) : e.complex = true := by
  cases e with
  | field => cases h
  | node => rfl

theorem ok_at {n : NumLib} {root x : Elem} {p : List Step} (h : OkTarget n root) (hx : root.at p = some x)
    (hc : x.complex = true) : OkTarget n x := ⟨held_at h.1 hx hc, everywhere_at h.2 hx⟩

/-- An element in the tree holds its children. -/
theorem at_prefix {e z : Elem} {p q : List Step} (h : e.at p = some z) (hq : q <+: p) : ∃ y, e.at q = some y := by
  obtain ⟨r, rfl⟩ := hq
  rw [at_append] at h
  rcases Option.eq_none_or_eq_some (e.at q) with h1 | h1
  · rw [h1] at h; cases h
  · exact h1

theorem at_snoc {e : Elem} {q : List Step} {s : Step} {z : Elem} (h : e.at (q ++ [s]) = some z) :
    ∃ y, e.at q = some y ∧ y.child s = some z := by
  rw [at_append] at h
  rcases Option.eq_none_or_eq_some (e.at q) with h1 | ⟨y, h1⟩
  · rw [h1] at h; cases h
  · rw [h1] at h
    refine ⟨y, h1, ?_⟩
    have h : (y.child s).bind (fun x => x.at []) = some z := h
    rcases Option.eq_none_or_eq_some (y.child s) with h2 | ⟨w, h2⟩
    · rw [h2] at h; cases h
    · rw [h2] at h
      rw [h2]
      exact h

/-- The items before an item are there. -/
theorem at_before {e : Elem} {q : List Step} {m : Mem} {i : Nat} {z : Elem} (h : e.at (q ++ [.slot m i]) = some z) {j : Nat}
    (hj : j < i) : ∃ y, e.at (q ++ [.slot m j]) = some y := by
  obtain ⟨y, h1, h2⟩ := at_snoc h
  rw [at_append, h1]
  cases y with
  | field => cases h2
  | node t a slots mis unk =>
    have h2 : (slots m)[i]? = some z := h2
    have hlt := (List.getElem?_eq_some_iff.1 h2).1
    refine ⟨(slots m)[j], ?_⟩
    show ((slots m)[j]?).bind _ = _
    rw [List.getElem?_eq_getElem (Nat.lt_trans hj hlt)]
    rfl

/-! ### Change -/

theorem change_eq {n : NumLib} {idMap : Option (StdMap Str)} {file : UpdateFile} {s x : Elem} {id : Str} {p : List Step}
    (hn : getTargetId idMap s = some id) (hid : file.ids.get id = some (.place p)) (hx : file.root.at p = some x)
    (hok : OkTarget n file.root) (hs : Source n s) (hxc : x.complex = true) (hty : x.ty = s.ty) :
    file.change n idMap s = .ok ⟨Elem.put (merged s x).clearTargetId p file.root,
      relocate (Ref.afterMerge (Elem.put (merged s x.mark) p file.root.mark)) file.ids⟩ ∧
    OkTarget n (merged s x) := by
  have hox := ok_at hok hx hxc
  obtain ⟨hm, hokm⟩ := merge_main hs.held hs.clonable hs.lossless hs.tidy hs.complex x hox hxc hty
  have hxm : file.root.mark.at p = some x.mark := by rw [mark_at, hx]; rfl
  obtain ⟨hm', _⟩ := merge_main hs.held hs.clonable hs.lossless hs.tidy hs.complex x.mark (ok_mark hox)
    (by rw [mark_complex, hxc]) (by rw [mark_ty, hty])
  refine ⟨?_, hokm⟩
  unfold UpdateFile.change
  rw [hn, Option.bind_some, hid]
  have h1 := modifyAt_put (f := fun target => do
      let e ← mergeElements n s target
      Outcome.ok e.clearTargetId) (x := x) (y := (merged s x).clearTargetId) (by rw [hm]; rfl) hx
  have h2 := modifyAt_put (f := mergeElements n s) hm' hxm
  simp only [h1, h2]
  rfl

theorem change_none {n : NumLib} {idMap : Option (StdMap Str)} {file : UpdateFile} {s : Elem}
    (h : ∀ id p, getTargetId idMap s = some id → file.ids.get id ≠ some (.place p)) : file.change n idMap s = .ok file := by
  unfold UpdateFile.change
  rcases Option.eq_none_or_eq_some (getTargetId idMap s) with h1 | ⟨id, h1⟩
  · rw [h1]; rfl
  · rw [h1, Option.bind_some]
    rcases Option.eq_none_or_eq_some (file.ids.get id) with h2 | ⟨r, h2⟩
    · rw [h2]
    · rw [h2]
      cases r with
      | place p => exact absurd h2 (h id p h1)
      | _ => rfl

theorem src_of {n : NumLib} {s : Elem} (h : Held n s) : Everywhere Unmarked s → ∀ {S : Str → Prop},
    Everywhere (fun e => ∀ id, e.objectId = some id → S id) s → Everywhere (Src S) s := by
  induction h with
  | field => intro _ S _; exact .field ⟨⟨rfl, fun id h => by cases h⟩, fun _ _ _ _ _ h => by cases h⟩
  | @node t a slots mis unk _ _ ha _ _ _ _ ih ihm =>
    intro h1 S h2
    cases h1 with
    | node u1 u2 u3 =>
      cases h2 with
      | node v1 v2 v3 =>
        refine .node ⟨⟨u1, v1⟩, fun _ _ _ _ _ h => ?_⟩ (fun m x hx => ih m x hx (u2 m x hx) (v2 m x hx))
          (fun x hx => ihm x hx (u3 x hx) (v3 x hx))
        cases h
        exact ha.known_sorted
  | @text t a slots mis unk _ ha hs _ _ ihm =>
    intro h1 S h2
    cases h1 with
    | node u1 u2 u3 =>
      cases h2 with
      | node v1 v2 v3 =>
        refine .node ⟨⟨u1, v1⟩, fun _ _ _ _ _ h => ?_⟩ (fun m x hx => ?_)
          (fun x hx => ihm x hx (u3 x hx) (v3 x hx))
        · cases h
          exact ha.known_sorted
        · have : ∃ s, x = .field Ty.Unknown s := by
            rcases hs with rfl | ⟨s, rfl⟩
            · cases hx
            · unfold textSlots setSlot at hx
              split at hx
              · exact ⟨s, List.mem_singleton.1 hx⟩
              · cases hx
          obtain ⟨s, rfl⟩ := this
          exact .field ⟨⟨rfl, fun id h => by cases h⟩, fun _ _ _ _ _ h => by cases h⟩
  | @points a pts unk ha =>
    intro h1 S h2
    cases h1 with
    | node u1 u2 u3 =>
      cases h2 with
      | node v1 v2 v3 =>
        refine .node ⟨⟨u1, v1⟩, fun _ _ _ _ _ h => ?_⟩ (fun m x hx => ?_) (fun x hx => by cases hx)
        · cases h
          exact ha.known_sorted
        · have : ∃ s, x = .field Ty.Unknown s := by
            unfold pointTextSlots setSlot at hx
            split at hx
            · obtain ⟨s, _, rfl⟩ := List.mem_map.1 hx
              exact ⟨s, rfl⟩
            · cases hx
          obtain ⟨s, rfl⟩ := this
          exact .field ⟨⟨rfl, fun id h => by cases h⟩, fun _ _ _ _ _ h => by cases h⟩

theorem stays_iff (T : Elem) (q : List Step) : stays T q = true ↔ ∃ z, T.at q = some z ∧ z.marked = true := by
  unfold stays
  rw [goto_at]
  rcases Option.eq_none_or_eq_some (T.at q) with h | ⟨z, h⟩
  · rw [h]; simp
  · rw [h]; simp

theorem bare_trace (s x : Elem) : (merged s x.mark).bare = (merged s x).bare := by
  rw [bare_merged, bare_merged, bare_mark]

section
variable {n : NumLib} {root s x : Elem} {p : List Step}

/-- What is not in the changed object stays. -/
theorem stays_other {y : Elem} {q : List Step} {z : Elem} (hz : root.at q = some z)
    (hzc : z.complex = true) (hq : ¬ p <+: q) : stays (Elem.put y p root.mark) q = true := by
  rw [stays_iff]
  have hzm : root.mark.at q = some z.mark := by rw [mark_at, hz]; rfl
  obtain ⟨z', h1, h2⟩ := put_keeps (y := y) hzm hq
  refine ⟨z', h1, ?_⟩
  rw [← shell_marked, h2, shell_marked, mark_marked, hzc]

/-- The changed object stays. -/
theorem stays_target (hx : root.at p = some x) (hxc : x.complex = true) (hs : s.complex = true) :
    stays (Elem.put (merged s x.mark) p root.mark) p = true := by
  rw [stays_iff]
  have hxm : root.mark.at p = some x.mark := by rw [mark_at, hx]; rfl
  refine ⟨_, put_here _ hxm, ?_⟩
  cases s with
  | field => cases hs
  | node =>
    cases x with
    | field => cases hxc
    | node =>
      rw [Elem.mark, merged]
      rfl

/-- What stays has its type and, unless the source gives it another, its id. -/
theorem stays_same {S : Str → Prop} (hsrc : Everywhere (Src S) s) (hx : root.at p = some x)
    (hty : x.ty = s.ty) (hokm : OkTarget n (merged s x)) {q : List Step}
    (hst : stays (Elem.put (merged s x.mark) p root.mark) q = true) :
    ∃ z z', root.at q = some z ∧ (Elem.put (merged s x).clearTargetId p root).at q = some z' ∧ z'.ty = z.ty ∧
      z'.complex = true ∧ (z'.objectId = z.objectId ∨ ∃ id, z'.objectId = some id ∧ S id) := by
  rw [stays_iff] at hst
  obtain ⟨w, hw, hwm⟩ := hst
  have hwc : w.complex = true := by
    cases w with
    | field => cases hwm
    | node => rfl
  have hxm : root.mark.at p = some x.mark := by rw [mark_at, hx]; rfl
  by_cases hpq : p <+: q
  · obtain ⟨r, rfl⟩ := hpq
    rw [put_at _ hxm] at hw
    have horg := merged_origin s x.mark hsrc (by rw [mark_ty, hty])
    rcases horg r w hw with hf | ⟨z, hz, h1, h2, h3⟩
    · rw [hf.1] at hwm; cases hwm
    · rw [mark_at] at hz
      rcases Option.eq_none_or_eq_some (x.at r) with hn | ⟨z0, hz0⟩
      · rw [hn] at hz; cases hz
      · rw [hz0] at hz
        cases hz
        obtain ⟨w', k1, k2, k3, k4⟩ := bare_same (bare_trace s x).symm hw
        obtain ⟨w'', j1, j2, j3, j4⟩ := clear_at hokm.1 r k1
        refine ⟨z0, w'', ?_, ?_, ?_, ?_, ?_⟩
        · rw [at_append, hx]; exact hz0
        · rw [put_at _ hx]; exact j1
        · rw [j2, k2, h1, mark_ty]
        · rw [j4, k4, hwc]
        · rw [j3, k3]
          rw [mark_objectId] at h3
          exact h3
  · have hex : ∃ z, root.at q = some z := by
      by_cases hqp : q <+: p
      · exact at_prefix hx hqp
      · rw [(put_only _ p root.mark).outside q hpq hqp, mark_at] at hw
        rcases Option.eq_none_or_eq_some (root.at q) with h | h
        · rw [h] at hw; cases hw
        · exact h
    obtain ⟨z, hz⟩ := hex
    obtain ⟨z', h1, h2⟩ := put_keeps (y := (merged s x).clearTargetId) hz hpq
    have hzm : root.mark.at q = some z.mark := by rw [mark_at, hz]; rfl
    obtain ⟨w', h3, h4⟩ := put_keeps (y := merged s x.mark) hzm hpq
    rw [hw] at h3
    cases h3
    have hzc : z.complex = true := by rw [← mark_complex, ← shell_complex, ← h4, shell_complex, hwc]
    refine ⟨z, z', hz, h1, ?_, ?_, .inl ?_⟩
    · rw [← shell_ty, h2, shell_ty]
    · rw [← shell_complex, h2, shell_complex, hzc]
    · rw [← shell_objectId, h2, shell_objectId]

/-- An object with an id that the source does not have was there. -/
theorem id_stays {S : Str → Prop} (hsrc : Everywhere (Src S) s) (hx : root.at p = some x)
    (hty : x.ty = s.ty) (hokm : OkTarget n (merged s x)) {q : List Step} {z' : Elem} {id : Str}
    (hz' : (Elem.put (merged s x).clearTargetId p root).at q = some z') (hid : z'.objectId = some id) (hS : ¬ S id) :
    stays (Elem.put (merged s x.mark) p root.mark) q = true ∧ ∃ z, root.at q = some z ∧ z.objectId = some id := by
  have hxm : root.mark.at p = some x.mark := by rw [mark_at, hx]; rfl
  by_cases hpq : p <+: q
  · obtain ⟨r, rfl⟩ := hpq
    rw [put_at _ hx] at hz'
    obtain ⟨z'', h1, h2⟩ := clear_at_back hokm.1 r hz'
    obtain ⟨w, k1, k2, k3, k4⟩ := bare_same (bare_trace s x) h1
    have hwid : w.objectId = some id := by rw [k3, h2, hid]
    have horg := merged_origin s x.mark hsrc (by rw [mark_ty, hty])
    rcases horg r w k1 with hf | ⟨z, hz, e1, e2, e3⟩
    · exact absurd (hf.2 id hwid) hS
    · rw [mark_at] at hz
      rcases Option.eq_none_or_eq_some (x.at r) with hn | ⟨z0, hz0⟩
      · rw [hn] at hz; cases hz
      · rw [hz0] at hz
        cases hz
        have hz0id : z0.objectId = some id := by
          rcases e3 with e3 | ⟨id', e3, e4⟩
          · rw [mark_objectId] at e3
            rw [← e3, hwid]
          · rw [hwid] at e3
            cases e3
            exact absurd e4 hS
        refine ⟨?_, z0, by rw [at_append, hx]; exact hz0, hz0id⟩
        rw [stays_iff]
        refine ⟨w, by rw [put_at _ hxm]; exact k1, ?_⟩
        rw [e2, mark_marked, complex_of_id hz0id]
  · have hex : ∃ z, root.at q = some z := by
      by_cases hqp : q <+: p
      · exact at_prefix hx hqp
      · rw [(put_only _ p root).outside q hpq hqp] at hz'
        exact ⟨z', hz'⟩
    obtain ⟨z, hz⟩ := hex
    obtain ⟨z1, h1, h2⟩ := put_keeps (y := (merged s x).clearTargetId) hz hpq
    rw [hz'] at h1
    cases h1
    have hzid : z.objectId = some id := by rw [← shell_objectId, ← h2, shell_objectId, hid]
    exact ⟨stays_other hz (complex_of_id hzid) hpq, z, hz, hzid⟩

end

/-! ### The root -/

theorem isA_node {t : Ty} {c : Class} (hc : classOf t = some c) (a : Attrs) (slots : Mem → List Elem) (mis : List Elem)
    (unk : List Str) (T : Ty) : (Elem.node t a slots mis unk).isA T = decide (T ∈ c.isA) := by
  simp only [Elem.isA, hc]

/-- A kml element is no object and no container. -/
theorem kml_only {n : NumLib} {e : Elem} (h : Held n e) (hc : e.complex = true) (hk : e.isA Ty.«kml» = true) :
    e.ty = Ty.«kml» ∧ textual e.ty = false ∧ e.isA Ty.«Container» = false ∧ e.isA Ty.«Object» = false := by
  cases e with
  | field => cases hc
  | node t a slots mis unk =>
    rcases Option.eq_none_or_eq_some (classOf t) with hcl | ⟨c, hcl⟩
    · have : t = Ty.«kml» := by
        simp only [Elem.isA, hcl] at hk
        exact of_decide_eq_true hk
      subst this
      have := kml_class
      have h2 : (classOf Ty.«kml»).isSome = true := by
        cases h with
        | node h => exact h
        | text h => rcases h with h | h | h <;> exact absurd h (by decide)
      rw [hcl] at h2
      cases h2
    · have := List.all_eq_true.1 kml_takes _ (classOf_pair hcl)
      rw [isA_node hcl] at hk
      simp only [hk, Bool.not_true, Bool.false_or, Bool.and_eq_true, beq_iff_eq, Bool.not_eq_true'] at this
      obtain ⟨⟨⟨⟨h1, h2⟩, h3⟩, h4⟩, _⟩ := this
      refine ⟨h1, h2, ?_, ?_⟩
      · rw [isA_node hcl]; exact h3
      · rw [isA_node hcl]; exact h4

theorem objectId_isA {e : Elem} {id : Str} (h : e.objectId = some id) : e.isA Ty.«Object» = true := by
  cases e with
  | field => cases h
  | node t a slots mis unk =>
    have h : (if (Elem.node t a slots mis unk).isA Ty.«Object» then a.known.get (chars! "id") else none) = some id := h
    split at h
    · assumption
    · cases h

theorem ty_isA {e : Elem} (hc : e.complex = true) (h : e.ty = Ty.«kml») : e.isA Ty.«kml» = true := by
  cases e with
  | field => cases hc
  | node t a slots mis unk =>
    have : t = Ty.«kml» := h
    subst this
    exact kml_class

theorem put_inside {y : Elem} {s : Step} {p : List Step} {e : Elem} {m : Mem} (h : e.inside m = []) :
    (Elem.put y (s :: p) e).inside m = [] := by
  cases e with
  | field => cases s <;> exact h
  | node t a slots mis unk =>
    have h : slots m = [] := h
    cases s with
    | mis i =>
      rw [Elem.put]
      split <;> exact h
    | slot m' i =>
      rw [Elem.put]
      split
      · show setSlot _ _ _ m = []
        unfold setSlot
        split
        · rename_i hm
          subst hm
          rw [h]
          rfl
        · exact h
      · exact h

theorem put_complex {y : Elem} {p : List Step} {e : Elem} (hy : y.complex = true) (he : e.complex = true) :
    (Elem.put y p e).complex = true := by
  cases p with
  | nil => exact hy
  | cons s p => rw [← shell_complex, put_shell, shell_complex, he]

/-! ### Sound files -/

theorem Sound.ok {n : NumLib} {file : UpdateFile} (h : Sound n file) : OkTarget n file.root := ⟨h.held, h.tidy⟩

theorem afterMerge_place {T : Elem} {r : Ref} {q : List Step} (h : Ref.afterMerge T r = .place q) :
    r = .place q ∧ stays T q = true := by
  cases r with
  | place p =>
    rw [Ref.afterMerge] at h
    split at h
    · cases h; exact ⟨rfl, by assumption⟩
    · cases h
  | orphan p =>
    rw [Ref.afterMerge] at h
    split at h <;> cases h
  | loose => cases h
  | dangling => cases h

theorem afterMerge_orphan {T : Elem} {r : Ref} {q : List Step} (h : Ref.afterMerge T r = .orphan q) :
    r = .orphan q ∧ stays T q = true := by
  cases r with
  | place p =>
    rw [Ref.afterMerge] at h
    split at h <;> cases h
  | orphan p =>
    rw [Ref.afterMerge] at h
    split at h
    · cases h; exact ⟨rfl, by assumption⟩
    · cases h
  | loose => cases h
  | dangling => cases h

theorem afterMerge_dangling {T : Elem} {r : Ref} (h : Ref.afterMerge T r = .dangling) : r = .dangling := by
  cases r with
  | place p =>
    rw [Ref.afterMerge] at h
    split at h <;> cases h
  | orphan p =>
    rw [Ref.afterMerge] at h
    split at h <;> cases h
  | loose => cases h
  | dangling => rfl

theorem map_inv {α β : Type} {f : α → β} {o : Option α} {b : β} (h : o.map f = some b) : ∃ a, o = some a ∧ f a = b := by
  cases o with
  | none => cases h
  | some a => exact ⟨a, rfl, Option.some.inj h⟩

theorem change_sound {n : NumLib} {file : UpdateFile} {s x : Elem} {id : Str} {p : List Step} (h : Sound n file)
    (hid : file.ids.get id = some (.place p)) (hx : file.root.at p = some x) (hs : Source n s)
    (hu : Everywhere Unmarked s) (hni : Everywhere NoId s) (hxi : x.objectId = some id) (hty : x.ty = s.ty)
    (hokm : OkTarget n (merged s x)) :
    Sound n ⟨Elem.put (merged s x).clearTargetId p file.root,
      relocate (Ref.afterMerge (Elem.put (merged s x.mark) p file.root.mark)) file.ids⟩ := by
  have hxc := complex_of_id hxi
  have hsrc : Everywhere (Src fun _ => False) s := by
    refine src_of hs.held hu ?_
    have : ∀ {e : Elem}, Everywhere NoId e → Everywhere (fun e => ∀ id, e.objectId = some id → False) e := by
      intro e he
      induction he with
      | field h => exact .field fun id hid => by rw [show _ = none from h] at hid; cases hid
      | node h _ _ ih ihm => exact .node (fun id hid => by rw [show _ = none from h] at hid; cases hid) ih ihm
    exact this hni
  obtain ⟨mt, mc⟩ := merged_ty hs.complex hxc hty
  have hyc : (merged s x).clearTargetId.complex = true := by rw [clear_complex, mc]
  have hyt : (merged s x).clearTargetId.ty = x.ty := by rw [clear_ty, mt, hty]
  have hok := ok_put (ok_clear hokm) hyc h.ok hx hxc hyt
  have same : ∀ {q : List Step}, stays (Elem.put (merged s x.mark) p file.root.mark) q = true →
      ∃ z z', file.root.at q = some z ∧ (Elem.put (merged s x).clearTargetId p file.root).at q = some z' ∧ z'.ty = z.ty ∧
        z'.complex = true ∧ z'.objectId = z.objectId := by
    intro q hq
    obtain ⟨z, z', h1, h2, h3, h4, h5⟩ := stays_same hsrc hx hty hokm hq
    refine ⟨z, z', h1, h2, h3, h4, ?_⟩
    rcases h5 with h5 | ⟨_, _, h5⟩
    · exact h5
    · exact h5.elim
  have back : ∀ {q : List Step} {z' : Elem} {id : Str}, (Elem.put (merged s x).clearTargetId p file.root).at q = some z' →
      z'.objectId = some id → stays (Elem.put (merged s x.mark) p file.root.mark) q = true ∧
        ∃ z, file.root.at q = some z ∧ z.objectId = some id :=
    fun h1 h2 => id_stays hsrc hx hty hokm h1 h2 (fun h => h)
  have kept : ∀ {id q}, file.ids.get id = some (.place q) → stays (Elem.put (merged s x.mark) p file.root.mark) q = true →
      (relocate (Ref.afterMerge (Elem.put (merged s x.mark) p file.root.mark)) file.ids).get id = some (.place q) := by
    intro id q h1 h2
    rw [relocate_get, h1, Option.map_some, Ref.afterMerge, if_pos h2]
  refine ⟨hok.1, hok.2, put_complex hyc h.complex, relocate_sorted h.sorted, ?_, ?_, ?_, ?_, ?_, ?_⟩
  · intro id' q hq
    dsimp only at hq
    rw [relocate_get] at hq
    obtain ⟨r, hr, hf⟩ := map_inv hq
    obtain ⟨rfl, hst⟩ := afterMerge_place hf
    obtain ⟨z, hz, hzi⟩ := h.ids id' q hr
    obtain ⟨z1, z', h1, h2, _, _, h5⟩ := same hst
    rw [hz] at h1
    cases h1
    exact ⟨z', h2, by rw [h5, hzi]⟩
  · intro id' q m i hq j hj y hy hyi
    dsimp only at hq hy
    rw [relocate_get] at hq
    obtain ⟨r, hr, hf⟩ := map_inv hq
    obtain ⟨rfl, hst⟩ := afterMerge_place hf
    obtain ⟨_, z, hz, hzi⟩ := back hy hyi
    exact h.first id' q m i hr j hj z hz hzi
  · intro id' q hq q' hq' y id'' hy hyi
    dsimp only at hq hy
    obtain ⟨hst, z, hz, hzi⟩ := back hy hyi
    refine kept (h.above id' q ?_ q' hq' z id'' hz hzi) hst
    rw [relocate_get] at hq
    rcases hq with hq | hq
    · obtain ⟨r, hr, hf⟩ := map_inv hq
      rw [(afterMerge_place hf).1] at hr
      exact .inl hr
    · obtain ⟨r, hr, hf⟩ := map_inv hq
      rw [(afterMerge_orphan hf).1] at hr
      exact .inr hr
  · intro id' q hq
    dsimp only at hq ⊢
    rw [relocate_get] at hq
    obtain ⟨r, hr, hf⟩ := map_inv hq
    obtain ⟨z, z', _, h2, _, h4, _⟩ := same (afterMerge_orphan hf).2
    exact ⟨z', h2, h4⟩
  · intro id' hq
    dsimp only at hq
    rw [relocate_get] at hq
    obtain ⟨r, hr, hf⟩ := map_inv hq
    rw [afterMerge_dangling hf] at hr
    exact h.alive id' hr
  · intro id' hq hk
    dsimp only at hq hk ⊢
    rw [relocate_get] at hq
    obtain ⟨r, hr, hf⟩ := map_inv hq
    rw [(afterMerge_orphan hf).1] at hr
    cases p with
    | nil =>
      cases hx
      have hk : (merged s file.root).clearTargetId.ty = Ty.«kml» := hk
      rw [hyt] at hk
      have := (kml_only h.held hxc (ty_isA hxc hk)).2.2.2
      rw [objectId_isA hxi] at this
      cases this
    | cons st p =>
      refine put_inside (h.emptied id' hr ?_)
      rw [← shell_ty, put_shell, shell_ty] at hk
      exact hk

/-! ### Create -/

theorem items_inside (e : Elem) (m : Mem) : e.items m = e.inside m := by cases e <;> rfl

theorem class_of_held {n : NumLib} {t : Ty} {a : Attrs} {slots : Mem → List Elem} {mis : List Elem} {unk : List Str}
    (h : Held n (.node t a slots mis unk)) : ∃ c, classOf t = some c := by
  cases h with
  | node h => exact Option.isSome_iff_exists.1 h
  | text h =>
    refine Option.isSome_iff_exists.1 ?_
    rcases h with rfl | rfl | rfl <;> decide +kernel
  | points =>
    refine Option.isSome_iff_exists.1 ?_
    decide +kernel

/-- What a container does with features. -/
theorem container_taker {n : NumLib} {e f : Elem} (he : Held n e) (hc : e.isA Ty.«Container» = true) (hec : e.complex = true)
    (hf : Held n f) (hfc : f.complex = true) (hff : f.isA Ty.«Feature» = true) :
    textual e.ty = false ∧ e.ty ≠ Ty.«kml» ∧ taker e.ty f = some (.many M.«feature_array») := by
  cases e with
  | field => cases hec
  | node t a slots mis unk =>
    cases f with
    | field => cases hfc
    | node t' a' slots' mis' unk' =>
      obtain ⟨c, hcl⟩ := class_of_held he
      obtain ⟨c', hcl'⟩ := class_of_held hf
      rw [isA_node hcl] at hc
      rw [isA_node hcl'] at hff
      have := List.all_eq_true.1 container_takes _ (classOf_pair hcl)
      simp only [hc, Bool.not_true, Bool.false_or, Bool.and_eq_true, Bool.not_eq_true', decide_eq_false_iff_not] at this
      obtain ⟨⟨h1, h2⟩, h3⟩ := this
      have := List.all_eq_true.1 h3 _ (classOf_pair hcl')
      simp only [hff, Bool.not_true, Bool.false_or, beq_iff_eq] at this
      refine ⟨h1, h2, ?_⟩
      rw [← this]
      exact taker_node ..

/-- A container is none of the elements with text and no kml. -/
theorem container_plain {n : NumLib} {e : Elem} (he : Held n e) (hc : e.isA Ty.«Container» = true) (hec : e.complex = true) :
    textual e.ty = false ∧ e.ty ≠ Ty.«kml» := by
  cases e with
  | field => cases hec
  | node t a slots mis unk =>
    obtain ⟨c, hcl⟩ := class_of_held he
    rw [isA_node hcl] at hc
    have := List.all_eq_true.1 container_takes _ (classOf_pair hcl)
    simp only [hc, Bool.not_true, Bool.false_or, Bool.and_eq_true, Bool.not_eq_true', decide_eq_false_iff_not] at this
    exact this.1

theorem container_rules : classes.all (fun p => !decide (Ty.«Container» ∈ p.2.isA) || p.2.rules.all fun r =>
    r.2.mem != M.«feature_array» || (r.1 == .isA Ty.«Feature» && r.2 == .many M.«feature_array»)) = true := by
  decide +kernel

/-- What a container has in its array are features. -/
theorem array_feature {n : NumLib} {e f : Elem} (he : Held n e) (hc : e.isA Ty.«Container» = true) (hec : e.complex = true)
    (hf : f ∈ e.inside M.«feature_array») : f.isA Ty.«Feature» = true := by
  cases e with
  | field => cases hec
  | node t a slots mis unk =>
    have htx := (container_plain he hc hec).1
    obtain ⟨c, hcl⟩ := class_of_held he
    rw [isA_node hcl] at hc
    cases he with
    | points => cases htx
    | text h => rcases h with rfl | rfl | rfl <;> cases htx
    | node _ _ _ hslots =>
      obtain ⟨act, h1, h2, _⟩ := hslots _ f hf
      obtain ⟨c', test, k1, _, _, k4, k5⟩ := taker_rule h1
      rw [hcl] at k1
      cases k1
      have := List.all_eq_true.1 container_rules _ (classOf_pair hcl)
      simp only [hc, Bool.not_true, Bool.false_or] at this
      have := List.all_eq_true.1 this _ k4
      simp only [h2, bne_self_eq_false, Bool.false_or, Bool.and_eq_true, beq_iff_eq] at this
      rw [this.1] at k5
      exact k5

theorem feature_complex {n : NumLib} {f : Elem} (h : Held n f) (hf : f.isA Ty.«Feature» = true) : f.complex = true := by
  cases h with
  | @field t s h =>
    have : t = Ty.«Feature» := of_decide_eq_true hf
    rw [this, abstract_types _ (by simp)] at h
    cases h
  | node => rfl
  | text => rfl
  | points => rfl

theorem withItems_shell (e : Elem) (m : Mem) (l : List Elem) : (e.withItems m l).shell = e.shell := by cases e <;> rfl
theorem withItems_ty (e : Elem) (m : Mem) (l : List Elem) : (e.withItems m l).ty = e.ty := by cases e <;> rfl
theorem withItems_complex (e : Elem) (m : Mem) (l : List Elem) : (e.withItems m l).complex = e.complex := by
  cases e <;> rfl

theorem withItems_self (e : Elem) (m : Mem) : e.withItems m (e.inside m) = e := by
  cases e with
  | field => rfl
  | node t a slots mis unk =>
    simp only [Elem.withItems, Elem.inside]
    congr 1
    funext m'
    unfold setSlot
    split
    · rename_i h; rw [h]
    · rfl

theorem addFeature_items (e x : Elem) (l : List Elem) (he : e.complex = true) :
    (e.withItems M.«feature_array» l).addFeature x = e.withItems M.«feature_array» (l ++ [x]) := by
  cases e with
  | field => cases he
  | node t a slots mis unk =>
    simp only [Elem.withItems, Elem.addFeature]
    congr 1
    funext m
    unfold setSlot
    split <;> simp

theorem copy_eq {n : NumLib} {e : Elem} (he : e.complex = true) : ∀ (xs l : List Elem),
    (∀ x ∈ xs, Held n x ∧ Everywhere Clonable x ∧ Everywhere Lossless x ∧ x.complex = true ∧ x.isA Ty.«Feature» = true) →
    copyFeatures n xs (e.withItems M.«feature_array» l) = .ok (e.withItems M.«feature_array» (l ++ xs))
  | [], l, _ => by rw [copyFeatures, List.append_nil]
  | x :: xs, l, h => by
    obtain ⟨h1, h2, h3, h4, h5⟩ := h x (by simp)
    have ih := copy_eq he xs (l ++ [x]) (fun y hy => h y (List.mem_cons_of_mem _ hy))
    rw [copyFeatures, clone_self h1 h2 h3 h4]
    show (if x.isA Ty.«Feature» then _ else _) = _
    rw [if_pos h5, addFeature_items e x l he, ih, List.append_assoc]
    rfl

/-- The features of a source can be copied. -/
theorem source_features {n : NumLib} {s : Elem} (hs : Source n s) (hc : s.isA Ty.«Container» = true) :
    ∀ x ∈ s.inside M.«feature_array», Held n x ∧ Everywhere Clonable x ∧ Everywhere Lossless x ∧ x.complex = true ∧
      x.isA Ty.«Feature» = true ∧ Everywhere Tidy x := by
  intro x hx
  have hf := array_feature hs.held hc hs.complex hx
  cases s with
  | field => cases hx
  | node t a slots mis unk =>
    have htx := (container_plain hs.held hc hs.complex).1
    have hc := hs.clonable
    have hl := hs.lossless
    have ht := hs.tidy
    have hh : Held n x := by
      cases hs.held with
      | points => cases htx
      | text h => rcases h with rfl | rfl | rfl <;> cases htx
      | node _ _ _ _ _ h => exact h _ x hx
    cases hc with
    | node _ c1 _ =>
      cases hl with
      | node _ l1 _ =>
        cases ht with
        | node _ t1 _ => exact ⟨hh, c1 _ x hx, l1 _ x hx, feature_complex hh hf, hf, t1 _ x hx⟩

theorem create_eq {n : NumLib} {idMap : Option (StdMap Str)} {file : UpdateFile} {s x : Elem} {id : Str} {p : List Step}
    (hn : getTargetId idMap s = some id) (hid : file.ids.get id = some (.place p)) (hx : file.root.at p = some x)
    (hok : OkTarget n file.root) (hs : Source n s) (hsc : s.isA Ty.«Container» = true) (hxc : x.complex = true)
    (hxk : x.isA Ty.«Container» = true) :
    file.create n idMap s = .ok { file with
      root := Elem.put (x.withItems M.«feature_array» (x.inside M.«feature_array» ++ s.inside M.«feature_array»)) p file.root } ∧
    OkTarget n (x.withItems M.«feature_array» (x.inside M.«feature_array» ++ s.inside M.«feature_array»)) := by
  have hox := ok_at hok hx hxc
  have hfs := source_features hs hsc
  have hcopy := copy_eq hxc (s.inside M.«feature_array») (x.inside M.«feature_array»)
    (fun y hy => ⟨(hfs y hy).1, (hfs y hy).2.1, (hfs y hy).2.2.1, (hfs y hy).2.2.2.1, (hfs y hy).2.2.2.2.1⟩)
  rw [withItems_self] at hcopy
  constructor
  · unfold UpdateFile.create
    rw [hn, Option.bind_some, hid]
    have h1 := modifyAt_put (f := fun target => if target.isA Ty.«Container» then
      copyFeatures n (s.items M.«feature_array») target else .ok target) (x := x) (by rw [if_pos hxk, items_inside, hcopy]) hx
    simp only [h1]
    rfl
  · cases x with
    | field => cases hxc
    | node t a slots mis unk =>
      have htx := (container_plain hox.1 hxk hxc).1
      refine ok_setItems hox htx ?_ ?_
      · intro y hy
        rcases List.mem_append.1 hy with hy | hy
        · exact (fits_item hox htx hy).1
        · obtain ⟨h1, _, _, h4, h5, h6⟩ := hfs y hy
          exact ⟨⟨_, (container_taker hox.1 hxk hxc h1 h4 h5).2.2, rfl, .inr trivial⟩, h1, h6⟩
      · intro y hy act hact hb
        have hmany : taker t y = some (.many M.«feature_array») := by
          rcases List.mem_append.1 hy with hy | hy
          · have hf := array_feature hox.1 hxk hxc hy
            have hh := (fits_item hox htx hy).1.2.1
            exact (container_taker hox.1 hxk hxc hh (feature_complex hh hf) hf).2.2
          · obtain ⟨h1, _, _, h4, h5, h6⟩ := hfs y hy
            exact (container_taker hox.1 hxk hxc h1 h4 h5).2.2
        rw [hmany] at hact
        cases hact
        cases hb

theorem create_other {n : NumLib} {idMap : Option (StdMap Str)} {file : UpdateFile} {s x : Elem} {id : Str} {p : List Step}
    (hn : getTargetId idMap s = some id) (hid : file.ids.get id = some (.place p)) (hx : file.root.at p = some x)
    (hxk : x.isA Ty.«Container» = false) : file.create n idMap s = .ok { file with root := Elem.put x p file.root } := by
  unfold UpdateFile.create
  rw [hn, Option.bind_some, hid]
  have h1 := modifyAt_put (f := fun target => if target.isA Ty.«Container» then
      copyFeatures n (s.items M.«feature_array») target else .ok target) (x := x) (y := x)
      (by rw [if_neg (by rw [hxk]; decide)]) hx
  simp only [h1]
  rfl

theorem put_self : ∀ {p : List Step} {e x : Elem}, e.at p = some x → Elem.put x p e = e
  | [], e, x, h => by cases h; rfl
  | .slot m i :: p, .field t s, x, h => by cases h
  | .mis i :: p, .field t s, x, h => by cases h
  | .slot m i :: p, .node t a slots mis unk, x, h => by
    rw [Elem.at, Elem.child] at h
    rcases Option.eq_none_or_eq_some ((slots m)[i]?) with h1 | ⟨w, h1⟩
    · rw [h1] at h; cases h
    · rw [h1] at h
      rw [Elem.put, h1]
      simp only
      rw [put_self (p := p) (e := w) h]
      congr 1
      funext m'
      unfold setSlot
      split
      · rename_i hm
        subst hm
        obtain ⟨hlt, rfl⟩ := List.getElem?_eq_some_iff.1 h1
        rw [List.set_getElem_self]
      · rfl
  | .mis i :: p, .node t a slots mis unk, x, h => by
    rw [Elem.at, Elem.child] at h
    rcases Option.eq_none_or_eq_some (mis[i]?) with h1 | ⟨w, h1⟩
    · rw [h1] at h; cases h
    · rw [h1] at h
      rw [Elem.put, h1]
      simp only
      rw [put_self (p := p) (e := w) h]
      obtain ⟨hlt, rfl⟩ := List.getElem?_eq_some_iff.1 h1
      rw [List.set_getElem_self]

theorem create_none {n : NumLib} {idMap : Option (StdMap Str)} {file : UpdateFile} {s : Elem}
    (h : ∀ id p, getTargetId idMap s = some id → file.ids.get id ≠ some (.place p)) : file.create n idMap s = .ok file := by
  unfold UpdateFile.create
  rcases Option.eq_none_or_eq_some (getTargetId idMap s) with h1 | ⟨id, h1⟩
  · rw [h1]; rfl
  · rw [h1, Option.bind_some]
    rcases Option.eq_none_or_eq_some (file.ids.get id) with h2 | ⟨r, h2⟩
    · rw [h2]
    · rw [h2]
      cases r with
      | place p => exact absurd h2 (h id p h1)
      | _ => rfl

/-- Adding features moves no element. -/
theorem grown_at {root x : Elem} {p : List Step} {m : Mem} {xs : List Elem} (hx : root.at p = some x) {q : List Step}
    {z : Elem} (hz : root.at q = some z) :
    ∃ z', (Elem.put (x.withItems m (x.inside m ++ xs)) p root).at q = some z' ∧ z'.shell = z.shell := by
  by_cases hpq : p <+: q
  · obtain ⟨r, rfl⟩ := hpq
    rw [put_at _ hx]
    rw [at_append, hx] at hz
    have hz : x.at r = some z := hz
    cases r with
    | nil => cases hz; exact ⟨_, rfl, withItems_shell ..⟩
    | cons st r =>
      refine ⟨z, ?_, rfl⟩
      rw [Elem.at] at hz ⊢
      cases x with
      | field => exact hz
      | node t a slots mis unk =>
        cases st with
        | mis i => exact hz
        | slot m' i =>
          by_cases hm : m' = m
          · subst hm
            rw [Elem.child] at hz
            show ((setSlot slots m' (slots m' ++ xs) m')[i]?).bind _ = _
            rw [setSlot, if_pos rfl]
            rcases Option.eq_none_or_eq_some ((slots m')[i]?) with h1 | ⟨w, h1⟩
            · rw [h1] at hz; cases hz
            · rw [List.getElem?_append_left (List.getElem?_eq_some_iff.1 h1).1]
              exact hz
          · show ((setSlot slots m _ m')[i]?).bind _ = _
            rw [setSlot, if_neg hm]
            exact hz
  · exact put_keeps hz hpq

theorem create_sound {n : NumLib} {file : UpdateFile} {x : Elem} {p : List Step} {xs : List Elem} (h : Sound n file)
    (hx : file.root.at p = some x) (hxc : x.complex = true) (hxk : x.isA Ty.«Container» = true)
    (hok : OkTarget n (x.withItems M.«feature_array» (x.inside M.«feature_array» ++ xs))) :
    Sound n { file with
      root := Elem.put (x.withItems M.«feature_array» (x.inside M.«feature_array» ++ xs)) p file.root } := by
  have hyc : (x.withItems M.«feature_array» (x.inside M.«feature_array» ++ xs)).complex = true := by
    rw [withItems_complex, hxc]
  have hok' := ok_put hok hyc h.ok hx hxc (withItems_ty ..)
  have back : ∀ {q : List Step} {z z' : Elem}, file.root.at q = some z →
      (Elem.put (x.withItems M.«feature_array» (x.inside M.«feature_array» ++ xs)) p file.root).at q = some z' →
      z'.objectId = z.objectId := by
    intro q z z' h1 h2
    obtain ⟨w, h3, h4⟩ := grown_at (m := M.«feature_array») (xs := xs) hx h1
    rw [h2] at h3
    cases h3
    rw [← shell_objectId, h4, shell_objectId]
  refine ⟨hok'.1, hok'.2, put_complex hyc h.complex, h.sorted, ?_, ?_, ?_, ?_, h.alive, ?_⟩
  · intro id q hq
    obtain ⟨z, hz, hzi⟩ := h.ids id q hq
    obtain ⟨z', h1, h2⟩ := grown_at (m := M.«feature_array») (xs := xs) hx hz
    exact ⟨z', h1, by rw [← shell_objectId, h2, shell_objectId, hzi]⟩
  · intro id q m i hq j hj y hy hyi
    obtain ⟨z, hz, hzi⟩ := h.ids id _ hq
    obtain ⟨w, hw⟩ := at_before hz hj
    exact h.first id q m i hq j hj w hw (by rw [← back hw hy, hyi])
  · intro id q hq q' hq' y id' hy hyi
    have hex : ∃ z, file.root.at q = some z := by
      rcases hq with hq | hq
      · obtain ⟨z, hz, _⟩ := h.ids id q hq; exact ⟨z, hz⟩
      · obtain ⟨z, hz, _⟩ := h.parent id q hq; exact ⟨z, hz⟩
    obtain ⟨z, hz⟩ := hex
    obtain ⟨w, hw⟩ := at_prefix hz hq'
    exact h.above id q hq q' hq' w id' hw (by rw [← back hw hy, hyi])
  · intro id q hq
    obtain ⟨z, hz, hzc⟩ := h.parent id q hq
    obtain ⟨z', h1, h2⟩ := grown_at (m := M.«feature_array») (xs := xs) hx hz
    exact ⟨z', h1, by rw [← shell_complex, h2, shell_complex, hzc]⟩
  · intro id hq hk
    cases p with
    | nil =>
      cases hx
      have hk : (file.root.withItems M.«feature_array» _).ty = Ty.«kml» := hk
      rw [withItems_ty] at hk
      exact absurd hk (container_plain h.held hxk hxc).2
    | cons st p =>
      refine put_inside (h.emptied id hq ?_)
      dsimp only at hk
      rw [← shell_ty, put_shell, shell_ty] at hk
      exact hk

/-! ### Taking an item out -/

theorem erase_inr {q : List Step} {m : Mem} {i : Nat} (r : List Step) :
    afterErase q m i (q ++ .slot m i :: r) = .inr r := by
  unfold afterErase
  rw [if_pos (List.isPrefixOf_iff_prefix.2 (List.prefix_append ..)), List.drop_left]
  simp

theorem erase_later {q : List Step} {m : Mem} {i j : Nat} (h : i < j) (r : List Step) :
    afterErase q m i (q ++ .slot m j :: r) = .inl (q ++ .slot m (j - 1) :: r) := by
  unfold afterErase
  rw [if_pos (List.isPrefixOf_iff_prefix.2 (List.prefix_append ..)), List.drop_left]
  simp only [if_true]
  rw [if_neg (by omega), if_pos h]

theorem erase_same {q : List Step} {m : Mem} {i : Nat} {p : List Step} (h : ∀ j r, p = q ++ .slot m j :: r → j < i) :
    afterErase q m i p = .inl p := by
  unfold afterErase
  split
  · rename_i hp
    obtain ⟨r, rfl⟩ := List.isPrefixOf_iff_prefix.1 hp
    rw [List.drop_left]
    split
    · split
      · rename_i hm
        subst hm
        have := h _ _ rfl
        rw [if_neg (by omega), if_neg (by omega)]
      · rfl
    · rfl
  · rfl

theorem prefix_split {α : Type} {u a b : List α} (h : u <+: a ++ b) : u <+: a ∨ ∃ r, u = a ++ r ∧ r <+: b := by
  rcases Nat.le_total u.length a.length with hl | hl
  · exact .inl (List.prefix_of_prefix_length_le h (List.prefix_append ..) hl)
  · obtain ⟨r, rfl⟩ := List.prefix_of_prefix_length_le (List.prefix_append a b) h hl
    exact .inr ⟨r, rfl, (List.prefix_append_right_inj _).1 h⟩

/-- The three kinds of places. -/
theorem erase_cases (q : List Step) (m : Mem) (i : Nat) (p : List Step) :
    (∃ r, p = q ++ .slot m i :: r) ∨ (∃ j r, i < j ∧ p = q ++ .slot m j :: r) ∨ ∀ j r, p = q ++ .slot m j :: r → j < i := by
  by_cases h : ∃ j r, p = q ++ .slot m j :: r
  · obtain ⟨j, r, rfl⟩ := h
    rcases Nat.lt_trichotomy j i with h | rfl | h
    · right; right
      intro j' r' hj
      have := List.append_cancel_left hj
      simp only [List.cons.injEq, Step.slot.injEq, true_and] at this
      omega
    · exact .inl ⟨r, rfl⟩
    · exact .inr (.inl ⟨j, r, h, rfl⟩)
  · exact .inr (.inr fun j r hj => absurd ⟨j, r, hj⟩ h)

section
variable {root e : Elem} {q : List Step} {m : Mem} {i : Nat}

theorem without_shell (e : Elem) : (e.without m i).shell = e.shell := by cases e <;> rfl

theorem without_slot (e : Elem) (j : Nat) (r : List Step) (h : i < j) :
    (e.without m i).at (.slot m (j - 1) :: r) = e.at (.slot m j :: r) := by
  rw [Elem.at, Elem.at]
  cases e with
  | field => rfl
  | node t a slots mis unk =>
    show ((setSlot slots m _ m)[j - 1]?).bind _ = ((slots m)[j]?).bind _
    rw [setSlot, if_pos rfl, List.getElem?_eraseIdx_of_ge (by omega)]
    congr 2
    omega

theorem without_other (e : Elem) (s : Step) (r : List Step) (h : ∀ j, s = .slot m j → j < i) :
    (e.without m i).at (s :: r) = e.at (s :: r) := by
  rw [Elem.at, Elem.at]
  cases e with
  | field => rfl
  | node t a slots mis unk =>
    cases s with
    | mis => rfl
    | slot m' j =>
      show ((setSlot slots m _ m')[j]?).bind _ = ((slots m')[j]?).bind _
      by_cases hm : m' = m
      · subst hm
        rw [setSlot, if_pos rfl, List.getElem?_eraseIdx_of_lt (h j rfl)]
      · rw [setSlot, if_neg hm]

/-- An element after the item that was taken out. -/
theorem erased_later (he : root.at q = some e) {j : Nat} (h : i < j) (r : List Step) :
    (Elem.put (e.without m i) q root).at (q ++ .slot m (j - 1) :: r) = root.at (q ++ .slot m j :: r) := by
  rw [put_at _ he, at_append, he, without_slot e j r h]
  rfl

/-- An element that holds the item, or is no item of its array, or is before it. -/
theorem erased_same (he : root.at q = some e) {p : List Step} (h : ∀ j r, p = q ++ .slot m j :: r → j < i) :
    ((Elem.put (e.without m i) q root).at p).map Elem.shell = (root.at p).map Elem.shell ∧
    (¬ p <+: q → (Elem.put (e.without m i) q root).at p = root.at p) := by
  by_cases hpq : q <+: p
  · obtain ⟨r, rfl⟩ := hpq
    rw [put_at _ he, at_append, he]
    cases r with
    | nil =>
      refine ⟨?_, fun hn => absurd (by rw [List.append_nil]; exact List.prefix_rfl) hn⟩
      show some _ = some _
      rw [without_shell]
    | cons s r =>
      have := without_other (m := m) (i := i) e s r (fun j hj => h j r (by rw [hj]))
      rw [this]
      exact ⟨rfl, fun _ => rfl⟩
  · by_cases hqp : p <+: q
    · refine ⟨(put_only _ q root).above p hqp (fun hh => hpq (hh ▸ List.prefix_rfl)), fun hn => absurd hqp hn⟩
    · have := (put_only (e.without m i) q root).outside p hpq hqp
      rw [this]
      exact ⟨rfl, fun _ => rfl⟩

/-- A place that is not in the item: the element is still there, at another place. -/
theorem erased_at (he : root.at q = some e) {p p' : List Step} (h : afterErase q m i p = .inl p') {z : Elem}
    (hz : root.at p = some z) : ∃ z', (Elem.put (e.without m i) q root).at p' = some z' ∧ z'.shell = z.shell := by
  rcases erase_cases q m i p with ⟨r, rfl⟩ | ⟨j, r, hj, rfl⟩ | hs
  · rw [erase_inr] at h; cases h
  · rw [erase_later hj] at h
    cases h
    exact ⟨z, by rw [erased_later he hj, hz], rfl⟩
  · rw [erase_same hs] at h
    cases h
    have := (erased_same he hs).1
    rw [hz] at this
    obtain ⟨z', h1, h2⟩ := map_inv this
    exact ⟨z', h1, h2⟩

/-- Where the elements above a place were. -/
theorem erased_above (he : root.at q = some e) {p p' : List Step} (h : afterErase q m i p = .inl p') {u' : List Step}
    (hu : u' <+: p') {z' : Elem} (hz : (Elem.put (e.without m i) q root).at u' = some z') :
    ∃ u z, u <+: p ∧ afterErase q m i u = .inl u' ∧ root.at u = some z ∧ z'.shell = z.shell := by
  rcases erase_cases q m i p with ⟨r, rfl⟩ | ⟨j, r, hj, rfl⟩ | hs
  · rw [erase_inr] at h; cases h
  · rw [erase_later hj] at h
    cases h
    rcases prefix_split hu with h1 | ⟨r', rfl, h1⟩
    · have hu2 : ∀ j r, u' = q ++ .slot m j :: r → j < i := by
        rintro j' r' rfl
        have := h1.length_le
        simp at this
      have := (erased_same he hu2).1
      rw [hz] at this
      obtain ⟨z, k1, k2⟩ := map_inv this.symm
      exact ⟨u', z, h1.trans (List.prefix_append ..), erase_same hu2, k1, k2.symm⟩
    · cases r' with
      | nil =>
        rw [List.append_nil] at hz ⊢
        have hu2 : ∀ j r, q = q ++ .slot m j :: r → j < i := by
          intro j' r' hq
          have := congrArg List.length hq
          simp at this
        have := (erased_same he hu2).1
        rw [hz] at this
        obtain ⟨z, k1, k2⟩ := map_inv this.symm
        exact ⟨q, z, List.prefix_append .., erase_same hu2, k1, k2.symm⟩
      | cons s r' =>
        rw [List.cons_prefix_cons] at h1
        obtain ⟨rfl, h1⟩ := h1
        rw [erased_later he hj] at hz
        refine ⟨_, z', ?_, erase_later hj r', hz, rfl⟩
        exact List.prefix_append_right_inj _ |>.2 ((List.cons_prefix_cons).2 ⟨rfl, h1⟩)
  · rw [erase_same hs] at h
    cases h
    have hu2 : ∀ j r, u' = q ++ .slot m j :: r → j < i := by
      rintro j' r' rfl
      obtain ⟨t, ht⟩ := hu
      exact hs j' (r' ++ t) (by rw [← ht]; simp)
    have := (erased_same he hu2).1
    rw [hz] at this
    obtain ⟨z, k1, k2⟩ := map_inv this.symm
    exact ⟨u', z, hu, erase_same hu2, k1, k2.symm⟩

/-- Where the items before an item were. -/
theorem erased_before (he : root.at q = some e) {p u : List Step} {m1 : Mem} {k : Nat}
    (h : afterErase q m i p = .inl (u ++ [.slot m1 k])) {j : Nat} (hj : j < k) {z' : Elem}
    (hz : (Elem.put (e.without m i) q root).at (u ++ [.slot m1 j]) = some z') :
    ∃ u0 k0 j0 z, p = u0 ++ [.slot m1 k0] ∧ j0 < k0 ∧ root.at (u0 ++ [.slot m1 j0]) = some z ∧ z'.shell = z.shell := by
  rcases erase_cases q m i p with ⟨r, rfl⟩ | ⟨l, r, hl, rfl⟩ | hs
  · rw [erase_inr] at h; cases h
  · rw [erase_later hl] at h
    have h : q ++ .slot m (l - 1) :: r = u ++ [.slot m1 k] := Sum.inl.inj h
    rcases List.eq_nil_or_concat r with rfl | ⟨r0, s, rfl⟩
    · have := List.append_inj' h rfl
      obtain ⟨rfl, h2⟩ := this
      simp only [List.cons.injEq, Step.slot.injEq, and_true] at h2
      obtain ⟨rfl, rfl⟩ := h2
      by_cases hji : j < i
      · have hu2 : ∀ j' r, q ++ [.slot m j] = q ++ .slot m j' :: r → j' < i := by
          intro j' r hq
          have := List.append_cancel_left hq
          simp only [List.cons.injEq, Step.slot.injEq, true_and] at this
          omega
        have := (erased_same he hu2).1
        rw [hz] at this
        obtain ⟨z, k1, k2⟩ := map_inv this.symm
        exact ⟨q, l, j, z, rfl, by omega, k1, k2.symm⟩
      · have := erased_later (m := m) (i := i) he (j := j + 1) (by omega) []
        rw [Nat.add_sub_cancel] at this
        rw [hz] at this
        exact ⟨q, l, j + 1, z', rfl, by omega, this.symm, rfl⟩
    · have h' : (q ++ .slot m (l - 1) :: r0) ++ [s] = u ++ [.slot m1 k] := by rw [← h]; simp
      obtain ⟨rfl, h2⟩ := List.append_inj' h' rfl
      simp only [List.cons.injEq, and_true] at h2
      subst h2
      have hz' : (Elem.put (e.without m i) q root).at (q ++ .slot m (l - 1) :: (r0 ++ [.slot m1 j])) = some z' := by
        rw [← hz]; simp
      rw [erased_later he hl] at hz'
      exact ⟨q ++ .slot m l :: r0, k, j, z', by simp, hj, by rw [← hz']; simp, rfl⟩
  · rw [erase_same hs] at h
    have h : p = u ++ [.slot m1 k] := Sum.inl.inj h
    subst h
    have hu2 : ∀ j' r, u ++ [.slot m1 j] = q ++ .slot m j' :: r → j' < i := by
      intro j' r hq
      rcases List.eq_nil_or_concat r with rfl | ⟨r0, s, rfl⟩
      · obtain ⟨rfl, h2⟩ := List.append_inj' hq rfl
        simp only [List.cons.injEq, Step.slot.injEq, and_true] at h2
        obtain ⟨rfl, rfl⟩ := h2
        have := hs k [] rfl
        omega
      · have hq' : u ++ [.slot m1 j] = (q ++ .slot m j' :: r0) ++ [s] := by rw [hq]; simp
        obtain ⟨rfl, h2⟩ := List.append_inj' hq' rfl
        exact hs j' (r0 ++ [.slot m1 k]) (by simp)
    have := (erased_same he hu2).1
    rw [hz] at this
    obtain ⟨z, k1, k2⟩ := map_inv this.symm
    exact ⟨u, k, j, z, rfl, hj, k1, k2.symm⟩

end

theorem without_items (e : Elem) (m : Mem) (i : Nat) : e.without m i = e.withItems m ((e.inside m).eraseIdx i) := by
  cases e <;> rfl

theorem child_inside {e F : Elem} {m : Mem} {i : Nat} (h : e.child (.slot m i) = some F) : (e.inside m)[i]? = some F := by
  cases e with
  | field => cases h
  | node => exact h

/-- Without one of its items an element is as the parser leaves it. -/
theorem ok_without {n : NumLib} {e F : Elem} {m : Mem} {i : Nat} (h : OkTarget n e) (htx : textual e.ty = false)
    (hF : e.child (.slot m i) = some F) : OkTarget n (e.without m i) := by
  cases e with
  | field => cases hF
  | node t a slots mis unk =>
    have hF : (slots m)[i]? = some F := hF
    refine ok_setItems h htx ?_ ?_
    · intro y hy
      exact (fits_item h htx (List.mem_of_mem_eraseIdx hy)).1
    · intro y hy act hact harr
      have := (fits_item h htx (List.mem_of_mem_eraseIdx hy)).2 act hact harr
      rw [this] at hF hy
      cases i with
      | zero => cases hy
      | succ i => cases hF

theorem refersTo_get {ids : StdMap Ref} {id : Str} {p : List Step} (h : ids.get id = some (.place p)) :
    refersTo ids p = true := by
  unfold refersTo
  rw [List.any_eq_true]
  exact ⟨_, StdMap.mem_of_get h, by simp⟩

theorem livesOn_top {ids : StdMap Ref} {top : List Step} (h : refersTo ids top = true) : ∀ below, livesOn ids top below = true
  | [] => h
  | s :: below => by rw [livesOn, h]; rfl

section
variable {root : Elem} {ids : StdMap Ref} {q : List Step} {m : Mem} {i : Nat}

theorem afterErase_place {r : Ref} {p' : List Step} (h : Ref.afterErase root ids q m i r = .place p') :
    ∃ p, r = .place p ∧ afterErase q m i p = .inl p' := by
  cases r with
  | place p =>
    unfold Ref.afterErase at h
    dsimp only at h
    rcases ha : Kml.Dom.afterErase q m i p with p1 | r
    · rw [ha] at h
      cases h
      exact ⟨p, rfl, ha⟩
    · rw [ha] at h
      cases r with
      | nil => cases h
      | cons s r =>
        dsimp only at h
        split at h
        · split at h <;> cases h
        · cases h
  | orphan p =>
    unfold Ref.afterErase at h
    dsimp only at h
    rcases ha : Kml.Dom.afterErase q m i p with p1 | r
    · rw [ha] at h; cases h
    · rw [ha] at h
      dsimp only at h
      split at h <;> cases h
  | loose => cases h
  | dangling => cases h

theorem afterErase_orphan {r : Ref} {p' : List Step} (h : Ref.afterErase root ids q m i r = .orphan p') :
    (r = .place (q ++ [.slot m i]) ∧ p' = q) ∨ ∃ p, r = .orphan p ∧ afterErase q m i p = .inl p' := by
  cases r with
  | place p =>
    unfold Ref.afterErase at h
    dsimp only at h
    rcases erase_cases q m i p with ⟨r, rfl⟩ | ⟨j, r, hj, rfl⟩ | hs
    · rw [erase_inr] at h
      cases r with
      | nil => cases h; exact .inl ⟨rfl, rfl⟩
      | cons s r =>
        dsimp only at h
        split at h
        · split at h <;> cases h
        · cases h
    · rw [erase_later hj] at h; cases h
    · rw [erase_same hs] at h; cases h
  | orphan p =>
    unfold Ref.afterErase at h
    dsimp only at h
    rcases ha : Kml.Dom.afterErase q m i p with p1 | r
    · rw [ha] at h
      cases h
      exact .inr ⟨p, rfl, ha⟩
    · rw [ha] at h
      dsimp only at h
      split at h <;> cases h
  | loose => cases h
  | dangling => cases h

theorem afterErase_dangling {r : Ref} (h : Ref.afterErase root ids q m i r = .dangling) :
    r = .dangling ∨ refersTo ids (q ++ [.slot m i]) = false ∧
      ∃ b, r = .place (q ++ .slot m i :: b) ∨ r = .orphan (q ++ .slot m i :: b) := by
  by_cases hr : refersTo ids (q ++ [.slot m i]) = true
  · left
    have hl := livesOn_top hr
    cases r with
    | place p =>
      unfold Ref.afterErase at h
      dsimp only at h
      rcases ha : Kml.Dom.afterErase q m i p with p1 | r
      · rw [ha] at h; cases h
      · rw [ha] at h
        cases r with
        | nil => cases h
        | cons s r =>
          dsimp only at h
          split at h
          · rw [hl] at h; cases h
          · cases h
    | orphan p =>
      unfold Ref.afterErase at h
      dsimp only at h
      rcases ha : Kml.Dom.afterErase q m i p with p1 | r
      · rw [ha] at h; cases h
      · rw [ha] at h
        dsimp only at h
        rw [hl] at h
        cases h
    | loose => cases h
    | dangling => rfl
  · rw [Bool.not_eq_true] at hr
    cases r with
    | place p =>
      refine .inr ⟨hr, ?_⟩
      rcases erase_cases q m i p with ⟨r, rfl⟩ | ⟨j, r, hj, rfl⟩ | hs
      · exact ⟨r, .inl rfl⟩
      · unfold Ref.afterErase at h
        dsimp only at h
        rw [erase_later hj] at h; cases h
      · unfold Ref.afterErase at h
        dsimp only at h
        rw [erase_same hs] at h; cases h
    | orphan p =>
      refine .inr ⟨hr, ?_⟩
      rcases erase_cases q m i p with ⟨r, rfl⟩ | ⟨j, r, hj, rfl⟩ | hs
      · exact ⟨r, .inr rfl⟩
      · unfold Ref.afterErase at h
        dsimp only at h
        rw [erase_later hj] at h; cases h
      · unfold Ref.afterErase at h
        dsimp only at h
        rw [erase_same hs] at h; cases h
    | loose => cases h
    | dangling => exact .inl rfl

end

theorem erase_sound {n : NumLib} {file : UpdateFile} {e F : Elem} {q : List Step} {m : Mem} {i : Nat} {id : Str}
    (h : Sound n file) (he : file.root.at q = some e) (hec : e.complex = true) (htx : textual e.ty = false)
    (hF : e.child (.slot m i) = some F) (hid : F.objectId = some id)
    (hk : q = [] → e.ty = Ty.«kml» → m = M.«feature» ∧ e.inside M.«feature» = [F]) :
    file.erase q m i = .ok ⟨Elem.put (e.without m i) q file.root, relocate (Ref.afterErase file.root file.ids q m i) file.ids⟩ ∧
    Sound n ⟨Elem.put (e.without m i) q file.root, relocate (Ref.afterErase file.root file.ids q m i) file.ids⟩ := by
  have hq : (Elem.without m i e).complex = true := by rw [without_items, withItems_complex, hec]
  have hok' : OkTarget n (Elem.put (e.without m i) q file.root) :=
    ok_put (ok_without (ok_at h.ok he hec) htx hF) hq h.ok he hec (by rw [without_items, withItems_ty])
  have htop : file.root.at (q ++ [.slot m i]) = some F := by
    rw [at_append, he]
    show e.at [.slot m i] = some F
    rw [Elem.at, hF]
    rfl
  refine ⟨?_, hok'.1, hok'.2, put_complex hq h.complex, relocate_sorted h.sorted, ?_, ?_, ?_, ?_, ?_, ?_⟩
  · unfold UpdateFile.erase
    rw [modifyAt_put (f := fun e => .ok (e.without m i)) (x := e) rfl he]
    rfl
  · intro id' p' hp
    dsimp only at hp ⊢
    rw [relocate_get] at hp
    obtain ⟨r, hr, hr2⟩ := map_inv hp
    obtain ⟨p, rfl, hp2⟩ := afterErase_place hr2
    obtain ⟨z, hz, hzi⟩ := h.ids id' p hr
    obtain ⟨z', h1, h2⟩ := erased_at he hp2 hz
    exact ⟨z', h1, by rw [← shell_objectId, h2, shell_objectId, hzi]⟩
  · intro id' u m1 k hp j hj y hy hyi
    dsimp only at hp hy
    rw [relocate_get] at hp
    obtain ⟨r, hr, hr2⟩ := map_inv hp
    obtain ⟨p, rfl, hp2⟩ := afterErase_place hr2
    obtain ⟨u0, k0, j0, z, rfl, hj0, hz, hsh⟩ := erased_before he hp2 hj hy
    exact h.first id' u0 m1 k0 hr j0 hj0 z hz (by rw [← shell_objectId, ← hsh, shell_objectId, hyi])
  · have key : ∀ id' p, file.ids.get id' = some (.place p) ∨ file.ids.get id' = some (.orphan p) → ∀ p',
        afterErase q m i p = .inl p' → ∀ u', u' <+: p' → ∀ y id'',
        (Elem.put (e.without m i) q file.root).at u' = some y → y.objectId = some id'' →
        (relocate (Ref.afterErase file.root file.ids q m i) file.ids).get id'' = some (.place u') := by
      intro id' p hp p' hp' u' hu y id'' hy hyi
      obtain ⟨u, z, hup, hu2, hz, hsh⟩ := erased_above he hp' hu hy
      have := h.above id' p hp u hup z id'' hz (by rw [← shell_objectId, ← hsh, shell_objectId, hyi])
      rw [relocate_get, this]
      show some (Ref.afterErase _ _ _ _ _ _) = _
      unfold Ref.afterErase
      dsimp only
      rw [hu2]
    intro id' p' hp u' hu y id'' hy hyi
    dsimp only at hp hy ⊢
    rcases hp with hp | hp
    · rw [relocate_get] at hp
      obtain ⟨r, hr, hr2⟩ := map_inv hp
      obtain ⟨p, rfl, hp2⟩ := afterErase_place hr2
      exact key id' p (.inl hr) p' hp2 u' hu y id'' hy hyi
    · rw [relocate_get] at hp
      obtain ⟨r, hr, hr2⟩ := map_inv hp
      rcases afterErase_orphan hr2 with ⟨rfl, rfl⟩ | ⟨p, rfl, hp2⟩
      · -- what holds the item that was taken out
        have hq2 : ∀ j r, u' = p' ++ .slot m j :: r → j < i := by
          rintro j r rfl
          have := hu.length_le
          simp at this
        have hs := (erased_same (m := m) (i := i) he hq2).1
        rw [hy] at hs
        obtain ⟨z, k1, k2⟩ := map_inv hs.symm
        have := h.above id' _ (.inl hr) u' (hu.trans (List.prefix_append ..)) z id'' k1
          (by rw [← shell_objectId, k2, shell_objectId, hyi])
        rw [relocate_get, this]
        show some (Ref.afterErase _ _ _ _ _ _) = _
        unfold Ref.afterErase
        dsimp only
        rw [erase_same hq2]
      · exact key id' p (.inr hr) p' hp2 u' hu y id'' hy hyi
  · intro id' p' hp
    dsimp only at hp ⊢
    rw [relocate_get] at hp
    obtain ⟨r, hr, hr2⟩ := map_inv hp
    rcases afterErase_orphan hr2 with ⟨rfl, rfl⟩ | ⟨p, rfl, hp2⟩
    · exact ⟨_, put_here _ he, hq⟩
    · obtain ⟨z, hz, hzc⟩ := h.parent id' p hr
      obtain ⟨z', h1, h2⟩ := erased_at he hp2 hz
      exact ⟨z', h1, by rw [← shell_complex, h2, shell_complex, hzc]⟩
  · intro id' hp
    dsimp only at hp
    rw [relocate_get] at hp
    obtain ⟨r, hr, hr2⟩ := map_inv hp
    rcases afterErase_dangling hr2 with rfl | ⟨hn, b, hb⟩
    · exact h.alive id' hr
    · have := h.above id' (q ++ .slot m i :: b) (by
        rcases hb with rfl | rfl
        · exact .inl hr
        · exact .inr hr) (q ++ [.slot m i]) (by simp) F id htop hid
      rw [refersTo_get this] at hn
      cases hn
  · intro id' hp hty
    dsimp only at hp hty ⊢
    rw [relocate_get] at hp
    obtain ⟨r, hr, hr2⟩ := map_inv hp
    have hrk : file.root.ty = Ty.«kml» := by
      rw [← hty, ← shell_ty (Elem.put _ _ _)]
      cases q with
      | nil => cases he; show _ = (Elem.without m i file.root).shell.ty; rw [without_shell, shell_ty]
      | cons s q => rw [put_shell, shell_ty]
    cases q with
    | nil =>
      cases he
      obtain ⟨rfl, hin⟩ := hk rfl hrk
      have := child_inside hF
      rw [hin] at this
      show (Elem.without M.«feature» i file.root).inside M.«feature» = []
      rw [without_items, hin]
      cases i with
      | succ i => cases this
      | zero =>
        cases hr : file.root with
        | field => rw [hr] at hec; cases hec
        | node => simp [Elem.withItems, Elem.inside, setSlot]
    | cons s q =>
      rcases afterErase_orphan hr2 with ⟨rfl, h0⟩ | ⟨p, rfl, hp2⟩
      · cases h0
      · refine put_inside (h.emptied id' ?_ hrk)
        rcases erase_cases (s :: q) m i p with ⟨r, rfl⟩ | ⟨j, r, hj, rfl⟩ | hs
        · rw [erase_inr] at hp2; cases hp2
        · rw [erase_later hj] at hp2; cases hp2
        · rw [erase_same hs] at hp2; cases hp2; exact hr

/-! ### Deleting -/

theorem goto_some {e x : Elem} {p : List Step} (h : e.at p = some x) : e.goto p = some x := by rw [goto_at, h]

theorem featureIndex_some {id : Str} {l : List Elem} {i : Nat} (h : featureIndex id l = some i) :
    ∃ F, l[i]? = some F ∧ F.objectId = some id ∧ ∀ j < i, ∀ y, l[j]? = some y → y.objectId ≠ some id := by
  unfold featureIndex at h
  rw [List.findIdx?_eq_some_iff_getElem] at h
  obtain ⟨hl, h1, h2⟩ := h
  refine ⟨l[i], List.getElem?_eq_getElem hl, by simpa using h1, ?_⟩
  intro j hj y hy hyi
  have := h2 j hj
  rw [List.getElem?_eq_getElem (by omega)] at hy
  cases hy
  simp [hyi] at this

theorem featureIndex_of {id : Str} {l : List Elem} {i : Nat} {F : Elem} (h1 : l[i]? = some F) (h2 : F.objectId = some id)
    (h3 : ∀ j < i, ∀ y, l[j]? = some y → y.objectId ≠ some id) : featureIndex id l = some i := by
  unfold featureIndex
  rw [List.findIdx?_eq_some_iff_getElem]
  obtain ⟨hl, hF⟩ := List.getElem?_eq_some_iff.1 h1
  refine ⟨hl, by rw [hF]; simp [h2], ?_⟩
  intro j hj
  have := h3 j hj _ (List.getElem?_eq_getElem (by omega))
  simp [this]

theorem inside_child {e F : Elem} {m : Mem} {i : Nat} (h : (e.inside m)[i]? = some F) : e.child (.slot m i) = some F := by
  cases e with
  | field => simp [Elem.inside] at h
  | node => exact h

theorem at_item {root e : Elem} {q : List Step} (he : root.at q = some e) {m : Mem} {i : Nat} {F : Elem}
    (hF : (e.inside m)[i]? = some F) : root.at (q ++ [.slot m i]) = some F := by
  rw [at_append, he]
  show e.at [.slot m i] = some F
  rw [Elem.at, inside_child hF]
  rfl

theorem item_at {root e : Elem} {q : List Step} (he : root.at q = some e) {m : Mem} {i : Nat} {F : Elem}
    (hF : root.at (q ++ [.slot m i]) = some F) : (e.inside m)[i]? = some F := by
  obtain ⟨y, h1, h2⟩ := at_snoc hF
  rw [he] at h1
  cases h1
  exact child_inside h2

theorem kml_taker {n : NumLib} {e f : Elem} (he : Held n e) (hc : e.isA Ty.«kml» = true) (hec : e.complex = true)
    (hf : Held n f) (hfc : f.complex = true) (hff : f.isA Ty.«Feature» = true) : taker e.ty f = some (.one M.«feature») := by
  cases e with
  | field => cases hec
  | node t a slots mis unk =>
    cases f with
    | field => cases hfc
    | node t' a' slots' mis' unk' =>
      obtain ⟨c, hcl⟩ := class_of_held he
      obtain ⟨c', hcl'⟩ := class_of_held hf
      rw [isA_node hcl] at hc
      rw [isA_node hcl'] at hff
      have := List.all_eq_true.1 kml_takes _ (classOf_pair hcl)
      simp only [hc, Bool.not_true, Bool.false_or, Bool.and_eq_true, Bool.not_eq_true', decide_eq_false_iff_not] at this
      have := List.all_eq_true.1 this.2 _ (classOf_pair hcl')
      simp only [hff, Bool.not_true, Bool.false_or, beq_iff_eq] at this
      rw [← this]
      exact taker_node ..

/-- The member in which an element is. -/
theorem item_fits {n : NumLib} {e F : Elem} (h : OkTarget n e) (htx : textual e.ty = false) {m : Mem} {i : Nat}
    (hF : (e.inside m)[i]? = some F) : Fits n e.ty m F ∧ ∀ act, taker e.ty F = some act → act.isArray = false → e.inside m = [F] := by
  cases e with
  | field => simp [Elem.inside] at hF
  | node t a slots mis unk => exact fits_item h htx (List.mem_of_getElem? hF)

/-- There is no kml in another element. -/
theorem kml_root {n : NumLib} {root e : Elem} {q : List Step} (h : OkTarget n root) (he : root.at q = some e)
    (hec : e.complex = true) (hk : e.isA Ty.«kml» = true) : q = [] := by
  rcases List.eq_nil_or_concat q with rfl | ⟨u, s, rfl⟩
  · rfl
  · exfalso
    rw [List.concat_eq_append] at he
    obtain ⟨y, h1, h2⟩ := at_snoc he
    have hy : y.complex = true := by
      cases y with
      | field => cases s <;> cases h2
      | node => rfl
    have hyo := ok_at h h1 hy
    have hh : y.at [s] = some e := by rw [Elem.at, h2]; rfl
    obtain ⟨t, a, slots, mis, unk, m, i, w, rfl, rfl, htx, hw, hwc, hwx⟩ := member_of hyo hh hec
    cases hwx
    have hkt := (kml_only (held_at h.1 he hec) hec hk).1
    obtain ⟨⟨act, hact, _⟩, _⟩ := (fits_item hyo htx (List.mem_of_getElem? hw)).1
    obtain ⟨c, hcl⟩ := class_of_held hyo.1
    have := List.all_eq_true.1 kml_nowhere _ (classOf_pair hcl)
    dsimp only at this
    rw [htx, Bool.or_false, beq_iff_eq] at this
    cases e with
    | field => cases hec
    | node t' a' slots' mis' unk' =>
      have hkt : t' = Ty.«kml» := hkt
      subst hkt
      have h3 : taker t (newNode Ty.«kml») = taker t (.node Ty.«kml» a' slots' mis' unk') := (taker_node ..).symm
      rw [h3, hact] at this
      cases this

/-- A feature in a container is in its array, one in a kml is its only feature. -/
theorem feature_place {n : NumLib} {root e F : Elem} {q : List Step} {m : Mem} {i : Nat} (h : OkTarget n root)
    (he : root.at q = some e) (hF : root.at (q ++ [.slot m i]) = some F) (hff : F.isA Ty.«Feature» = true)
    (hFc : F.complex = true) :
    e.complex = true ∧ (e.isA Ty.«Container» = true → textual e.ty = false ∧ e.isA Ty.«kml» = false ∧ m = M.«feature_array») ∧
    (e.isA Ty.«kml» = true → textual e.ty = false ∧ e.isA Ty.«Container» = false ∧ m = M.«feature» ∧ i = 0 ∧
      e.inside M.«feature» = [F]) := by
  have hi := item_at he hF
  have hec : e.complex = true := by
    cases e with
    | field => simp [Elem.inside] at hi
    | node => rfl
  have hFh := held_at h.1 hF hFc
  have heo := ok_at h he hec
  refine ⟨hec, ?_, ?_⟩
  · intro hc
    obtain ⟨h1, h2, h3⟩ := container_taker heo.1 hc hec hFh hFc hff
    refine ⟨h1, ?_, ?_⟩
    · rcases Bool.eq_false_or_eq_true (e.isA Ty.«kml») with hk | hk
      · exact absurd (kml_only heo.1 hec hk).1 h2
      · exact hk
    · obtain ⟨⟨act, hact, hm, _⟩, _⟩ := (item_fits heo h1 hi).1
      rw [h3] at hact
      cases hact
      exact hm.symm
  · intro hk
    obtain ⟨_, h1, h2, _⟩ := kml_only heo.1 hec hk
    have h3 := kml_taker heo.1 hk hec hFh hFc hff
    obtain ⟨⟨⟨act, hact, hm, _⟩, _⟩, hone⟩ := item_fits heo h1 hi
    have hin := hone _ h3 rfl
    rw [h3] at hact
    cases hact
    have hm : m = M.«feature» := hm.symm
    subst hm
    refine ⟨h1, h2, rfl, ?_, hin⟩
    rw [hin] at hi
    cases i with
    | zero => rfl
    | succ i => cases hi

/-- A feature is taken out of a container or a kml. -/
theorem delete_place {n : NumLib} {file : UpdateFile} {e F : Elem} {q : List Step} {m : Mem} {i : Nat} {id : Str}
    (h : Sound n file) (hid : file.ids.get id = some (.place (q ++ [.slot m i])))
    (hF : file.root.at (q ++ [.slot m i]) = some F) (hff : F.isA Ty.«Feature» = true) (he : file.root.at q = some e)
    (hck : e.isA Ty.«Container» = true ∨ e.isA Ty.«kml» = true) :
    file.deleteById id = .ok ⟨Elem.put (e.without m i) q file.root,
      relocate (Ref.afterErase file.root file.ids q m i) file.ids⟩ ∧
    Sound n ⟨Elem.put (e.without m i) q file.root, relocate (Ref.afterErase file.root file.ids q m i) file.ids⟩ := by
  obtain ⟨F', hF', hFi⟩ := h.ids id _ hid
  rw [hF] at hF'
  cases hF'
  have hFc := complex_of_id hFi
  obtain ⟨hec, h1, h2⟩ := feature_place h.ok he hF hff hFc
  have hi := item_at he hF
  have hch := inside_child hi
  have hdel : file.deleteById id = file.erase q m i := by
    unfold UpdateFile.deleteById
    rw [hid]
    dsimp only
    rw [goto_some hF]
    dsimp only
    have hpp : parentPlace (q ++ [.slot m i]) = some q := by simp [parentPlace]
    rw [if_pos hff, hpp]
    dsimp only
    unfold UpdateFile.deleteIn
    rw [goto_some he]
    dsimp only
    rcases hck with hc | hk
    · obtain ⟨_, _, rfl⟩ := h1 hc
      rw [if_pos hc, items_inside, featureIndex_of hi hFi (fun j hj y hy => h.first id q _ i hid j hj y (at_item he hy))]
    · obtain ⟨_, hnc, rfl, rfl, hin⟩ := h2 hk
      rw [if_neg (by rw [hnc]; decide), if_pos hk, items_inside, hin, if_neg (by simp)]
  rw [hdel]
  refine erase_sound h he hec ?_ hch hFi ?_
  · rcases hck with hc | hk
    · exact (h1 hc).1
    · exact (h2 hk).1
  · intro _ hty
    have hk := ty_isA hec hty
    exact ⟨(h2 hk).2.2.1, (h2 hk).2.2.2.2⟩

/-- What is no feature in a container or a kml is not taken out. -/
theorem delete_elsewhere {file : UpdateFile} {x : Elem} {p : List Step} {id : Str}
    (hid : file.ids.get id = some (.place p)) (hx : file.root.at p = some x)
    (hn : ∀ q m i e, p = q ++ [.slot m i] → file.root.at q = some e → x.isA Ty.«Feature» = true →
      e.isA Ty.«Container» = false ∧ e.isA Ty.«kml» = false) : file.deleteById id = .ok file := by
  unfold UpdateFile.deleteById
  rw [hid]
  dsimp only
  rw [goto_some hx]
  dsimp only
  split
  · rename_i hff
    rcases List.eq_nil_or_concat p with rfl | ⟨q, s, rfl⟩
    · rfl
    · rw [List.concat_eq_append] at *
      cases s with
      | mis i => simp [parentPlace]
      | slot m i =>
        have hpp : parentPlace (q ++ [.slot m i]) = some q := by simp [parentPlace]
        rw [hpp]
        obtain ⟨e, he, _⟩ := at_snoc hx
        obtain ⟨h1, h2⟩ := hn q m i e rfl he hff
        dsimp only
        unfold UpdateFile.deleteIn
        rw [goto_some he]
        dsimp only
        rw [if_neg (by rw [h1]; decide), if_neg (by rw [h2]; decide)]
  · rfl

/-- A second deletion of the same id: of the features of the container the first with that id. -/
theorem delete_orphan {n : NumLib} {file : UpdateFile} {e : Elem} {q : List Step} {id : Str}
    (h : Sound n file) (hid : file.ids.get id = some (.orphan q)) (he : file.root.at q = some e) :
    file.deleteById id = .ok file ∨ ∃ i F, e.isA Ty.«Container» = true ∧ (e.inside M.«feature_array»)[i]? = some F ∧
      F.objectId = some id ∧ (∀ j < i, ∀ y, (e.inside M.«feature_array»)[j]? = some y → y.objectId ≠ some id) ∧
      file.deleteById id = .ok ⟨Elem.put (e.without M.«feature_array» i) q file.root,
        relocate (Ref.afterErase file.root file.ids q M.«feature_array» i) file.ids⟩ ∧
      Sound n ⟨Elem.put (e.without M.«feature_array» i) q file.root,
        relocate (Ref.afterErase file.root file.ids q M.«feature_array» i) file.ids⟩ := by
  obtain ⟨e', he', hec⟩ := h.parent id q hid
  rw [he] at he'
  cases he'
  have hdel : file.deleteById id = file.deleteIn q id := by
    unfold UpdateFile.deleteById
    rw [hid]
  rw [hdel]
  unfold UpdateFile.deleteIn
  rw [goto_some he]
  dsimp only
  by_cases hc : e.isA Ty.«Container» = true
  · rw [if_pos hc, items_inside]
    rcases Option.eq_none_or_eq_some (featureIndex id (e.inside M.«feature_array»)) with hf | ⟨i, hf⟩
    · rw [hf]; exact .inl rfl
    · rw [hf]
      right
      obtain ⟨F, hF, hFi, hfirst⟩ := featureIndex_some hf
      have heo := ok_at h.ok he hec
      obtain ⟨htx, hnk⟩ := container_plain heo.1 hc hec
      exact ⟨i, F, hc, hF, hFi, hfirst, erase_sound h he hec htx (inside_child hF) hFi (fun _ hk => absurd hk hnk)⟩
  · rw [if_neg hc]
    left
    by_cases hk : e.isA Ty.«kml» = true
    · have := kml_root h.ok he hec hk
      subst this
      cases he
      have := h.emptied id hid (kml_only h.held hec hk).1
      rw [if_pos hk, items_inside, this]
      rfl
    · rw [if_neg hk]

theorem delete_none {idMap : Option (StdMap Str)} {file : UpdateFile} {s : Elem}
    (h : ∀ id, getTargetId idMap s = some id → file.ids.get id = none ∨ file.ids.get id = some .loose) :
    file.delete idMap s = .ok file := by
  unfold UpdateFile.delete
  rcases Option.eq_none_or_eq_some (getTargetId idMap s) with h1 | ⟨id, h1⟩
  · rw [h1]
  · rw [h1]
    dsimp only
    unfold UpdateFile.deleteById
    rcases h id h1 with h2 | h2 <;> rw [h2]

/-! ### Histories -/

theorem found_relocate (f : Ref → Ref) (root root' : Elem) (ids : StdMap Ref) (id : Str) :
    UpdateFile.finds ⟨root', relocate f ids⟩ id = UpdateFile.finds ⟨root, ids⟩ id := by
  unfold UpdateFile.finds
  dsimp only
  rw [relocate_get, Option.isSome_map]

theorem Later.refl {n : NumLib} {file : UpdateFile} (_ : Sound n file) : Later file file :=
  ⟨fun _ p x h1 h2 => ⟨p, x, h1, h2, rfl⟩, fun _ => rfl⟩

theorem noId_src {n : NumLib} {s : Elem} (hs : Held n s) (hu : Everywhere Unmarked s) (hni : Everywhere NoId s) :
    Everywhere (Src fun _ => False) s := by
  refine src_of hs hu ?_
  have : ∀ {e : Elem}, Everywhere NoId e → Everywhere (fun e => ∀ id, e.objectId = some id → False) e := by
    intro e he
    induction he with
    | field h => exact .field fun id hid => by rw [show _ = none from h] at hid; cases hid
    | node h _ _ ih ihm => exact .node (fun id hid => by rw [show _ = none from h] at hid; cases hid) ih ihm
  exact this hni

theorem change_later {n : NumLib} {file : UpdateFile} {s x : Elem} {p : List Step}
    (hx : file.root.at p = some x) (hs : Source n s) (hu : Everywhere Unmarked s) (hni : Everywhere NoId s)
    (hty : x.ty = s.ty) (hokm : OkTarget n (merged s x)) :
    Later file ⟨Elem.put (merged s x).clearTargetId p file.root,
      relocate (Ref.afterMerge (Elem.put (merged s x.mark) p file.root.mark)) file.ids⟩ := by
  refine ⟨?_, fun id => found_relocate _ _ _ _ _⟩
  intro id p' x' h1 h2
  dsimp only at h1 h2
  rw [relocate_get] at h1
  obtain ⟨r, hr, hf⟩ := map_inv h1
  obtain ⟨rfl, hst⟩ := afterMerge_place hf
  obtain ⟨z, z', k1, k2, k3, _⟩ := stays_same (noId_src hs.held hu hni) hx hty hokm hst
  rw [h2] at k2
  cases k2
  exact ⟨p', z, hr, k1, k3⟩

theorem create_later {n : NumLib} {file : UpdateFile} {x : Elem} {p : List Step} {xs : List Elem} (h : Sound n file)
    (hx : file.root.at p = some x) :
    Later file { file with
      root := Elem.put (x.withItems M.«feature_array» (x.inside M.«feature_array» ++ xs)) p file.root } := by
  refine ⟨?_, fun id => rfl⟩
  intro id p' x' h1 h2
  obtain ⟨z, hz, _⟩ := h.ids id p' h1
  obtain ⟨z', k1, k2⟩ := grown_at (m := M.«feature_array») (xs := xs) hx hz
  rw [h2] at k1
  cases k1
  exact ⟨p', z, h1, hz, by rw [← shell_ty, k2, shell_ty]⟩

theorem erase_later' {n : NumLib} {file : UpdateFile} {e : Elem} {q : List Step} {m : Mem} {i : Nat}
    (h : Sound n file) (he : file.root.at q = some e) :
    Later file ⟨Elem.put (e.without m i) q file.root, relocate (Ref.afterErase file.root file.ids q m i) file.ids⟩ := by
  refine ⟨?_, fun id => found_relocate _ _ _ _ _⟩
  intro id p' x' h1 h2
  dsimp only at h1 h2
  rw [relocate_get] at h1
  obtain ⟨r, hr, hf⟩ := map_inv h1
  obtain ⟨p, rfl, hp⟩ := afterErase_place hf
  obtain ⟨z, hz, _⟩ := h.ids id p hr
  obtain ⟨z', k1, k2⟩ := erased_at he hp hz
  rw [h2] at k1
  cases k1
  exact ⟨p, z, hr, hz, by rw [← shell_ty, k2, shell_ty]⟩

theorem Later.fit {n : NumLib} {idMap : Option (StdMap Str)} {file file' : UpdateFile} {a : Action} (h : Later file file')
    (hf : Fit n idMap file a) : Fit n idMap file' a := by
  refine ⟨hf.source, hf.unmarked, hf.noId, hf.container, ?_⟩
  intro s hs id p x h1 h2 h3
  obtain ⟨p0, x0, k1, k2, k3⟩ := h.types id p x h2 h3
  rw [k3]
  exact hf.target s hs id p0 x0 h1 k1 k2

/-- Nothing that is asked for goes wrong in a file whose ids are in order, and they stay in order. -/
theorem perform_sound {n : NumLib} {idMap : Option (StdMap Str)} {file : UpdateFile} {a : Action} (h : Sound n file)
    (hf : Fit n idMap file a) : ∃ file', file.perform n idMap a = .ok file' ∧ Sound n file' ∧ Later file file' := by
  cases a with
  | change s =>
    by_cases hn : ∃ id p, getTargetId idMap s = some id ∧ file.ids.get id = some (.place p)
    · obtain ⟨id, p, h1, h2⟩ := hn
      obtain ⟨x, hx, hxi⟩ := h.ids id p h2
      have hty := hf.target s rfl id p x ((names_iff ..).2 h1) h2 hx
      obtain ⟨h3, h4⟩ := change_eq h1 h2 hx h.ok hf.source (complex_of_id hxi) hty
      exact ⟨_, h3, change_sound h h2 hx hf.source hf.unmarked (hf.noId s rfl) hxi hty h4,
        change_later hx hf.source hf.unmarked (hf.noId s rfl) hty h4⟩
    · exact ⟨file, change_none fun id p h1 h2 => hn ⟨id, p, h1, h2⟩, h, .refl h⟩
  | create s =>
    by_cases hn : ∃ id p, getTargetId idMap s = some id ∧ file.ids.get id = some (.place p)
    · obtain ⟨id, p, h1, h2⟩ := hn
      obtain ⟨x, hx, hxi⟩ := h.ids id p h2
      by_cases hk : x.isA Ty.«Container» = true
      · obtain ⟨h3, h4⟩ := create_eq h1 h2 hx h.ok hf.source (hf.container s rfl) (complex_of_id hxi) hk
        exact ⟨_, h3, create_sound h hx (complex_of_id hxi) hk h4, create_later h hx⟩
      · rw [Bool.not_eq_true] at hk
        have := create_other (n := n) h1 h2 hx hk
        rw [put_self hx] at this
        exact ⟨file, this, h, .refl h⟩
    · exact ⟨file, create_none fun id p h1 h2 => hn ⟨id, p, h1, h2⟩, h, .refl h⟩
  | delete s =>
    show ∃ file', file.delete idMap s = .ok file' ∧ Sound n file' ∧ Later file file'
    rcases Option.eq_none_or_eq_some (getTargetId idMap s) with h1 | ⟨id, h1⟩
    · exact ⟨file, delete_none (fun id hid => by rw [h1] at hid; cases hid), h, .refl h⟩
    · have hd : file.delete idMap s = file.deleteById id := by unfold UpdateFile.delete; rw [h1]
      rw [hd]
      rcases Option.eq_none_or_eq_some (file.ids.get id) with h2 | ⟨r, h2⟩
      · exact ⟨file, by unfold UpdateFile.deleteById; rw [h2], h, .refl h⟩
      · cases r with
        | place p =>
          obtain ⟨x, hx, hxi⟩ := h.ids id p h2
          by_cases hn : ∃ q m i e, p = q ++ [.slot m i] ∧ file.root.at q = some e ∧ x.isA Ty.«Feature» = true ∧
              (e.isA Ty.«Container» = true ∨ e.isA Ty.«kml» = true)
          · obtain ⟨q, m, i, e, rfl, he, hff, hck⟩ := hn
            obtain ⟨h3, h4⟩ := delete_place h h2 hx hff he hck
            exact ⟨_, h3, h4, erase_later' h he⟩
          · refine ⟨file, delete_elsewhere h2 hx ?_, h, .refl h⟩
            intro q m i e hp he hff
            constructor
            · rw [← Bool.not_eq_true]
              exact fun hc => hn ⟨q, m, i, e, hp, he, hff, .inl hc⟩
            · rw [← Bool.not_eq_true]
              exact fun hc => hn ⟨q, m, i, e, hp, he, hff, .inr hc⟩
        | orphan q =>
          obtain ⟨e, he, _⟩ := h.parent id q h2
          rcases delete_orphan h h2 he with h3 | ⟨i, F, _, _, _, _, h3, h4⟩
          · exact ⟨file, h3, h, .refl h⟩
          · exact ⟨_, h3, h4, erase_later' h he⟩
        | loose => exact ⟨file, by unfold UpdateFile.deleteById; rw [h2], h, .refl h⟩
        | dangling => exact absurd h2 (h.alive id)

theorem eachDo_append {α σ : Type} (f : σ → α → Outcome σ) : ∀ (l l' : List α) (s : σ),
    eachDo f (l ++ l') s = (eachDo f l s).bind (eachDo f l')
  | [], l', s => rfl
  | x :: l, l', s => by
    show (f s x).bind _ = ((f s x).bind _).bind _
    cases f s x with
    | ok s' => exact eachDo_append f l l' s'
    | throws => rfl
    | ub => rfl

theorem eachDo_map {α β σ : Type} (f : σ → β → Outcome σ) (g : α → β) : ∀ (l : List α) (s : σ),
    eachDo f (l.map g) s = eachDo (fun s a => f s (g a)) l s
  | [], s => rfl
  | x :: l, s => by
    show (f s (g x)).bind _ = (f s (g x)).bind _
    cases f s (g x) with
    | ok s' => exact eachDo_map f g l s'
    | throws => rfl
    | ub => rfl

theorem operation_eq (n : NumLib) (idMap : Option (StdMap Str)) (file : UpdateFile) (op : Elem) :
    file.operation n idMap op = eachDo (UpdateFile.perform n idMap) (operationActions op) file := by
  unfold UpdateFile.operation operationActions
  split
  · rw [eachDo_map, items_inside]; rfl
  · split
    · rw [eachDo_map, items_inside]; rfl
    · split
      · rw [eachDo_map, items_inside]; rfl
      · rfl

theorem operations_eq (n : NumLib) (idMap : Option (StdMap Str)) : ∀ (ops : List Elem) (file : UpdateFile),
    eachDo (UpdateFile.operation n idMap) ops file = eachDo (UpdateFile.perform n idMap) (ops.flatMap operationActions) file
  | [], file => rfl
  | op :: ops, file => by
    rw [List.flatMap_cons, eachDo_append, ← operation_eq]
    show (file.operation n idMap op).bind _ = _
    cases file.operation n idMap op with
    | ok s' => exact operations_eq n idMap ops s'
    | throws => rfl
    | ub => rfl

theorem process_eq (n : NumLib) (idMap : Option (StdMap Str)) (update : Elem) (file : UpdateFile) :
    processUpdate n idMap update file = eachDo (UpdateFile.perform n idMap) (actionsOf update) file := by
  unfold processUpdate actionsOf
  rw [operations_eq, items_inside]

theorem steps_iff {α σ : Type} (f : σ → α → Outcome σ) : ∀ (l : List α) (s s' : σ),
    eachDo f l s = .ok s' ↔ Steps (fun a s s' => f s a = .ok s') l s s'
  | [], s, s' => by
    constructor
    · intro h; cases h; exact .nil
    · intro h; cases h; rfl
  | x :: l, s, s' => by
    constructor
    · intro h
      have h : (f s x).bind (eachDo f l) = .ok s' := h
      cases hx : f s x with
      | ok s1 => rw [hx] at h; exact .cons hx ((steps_iff f l s1 s').1 h)
      | throws => rw [hx] at h; cases h
      | ub => rw [hx] at h; cases h
    · intro h
      cases h with
      | cons h1 h2 =>
        show (f s x).bind (eachDo f l) = .ok s'
        rw [h1]
        exact (steps_iff f l _ s').2 h2

/-- Nothing goes wrong in an update, and the ids stay in order. -/
theorem all_sound {n : NumLib} {idMap : Option (StdMap Str)} : ∀ (l : List Action) {file : UpdateFile}, Sound n file →
    (∀ a ∈ l, Fit n idMap file a) → ∃ file', eachDo (UpdateFile.perform n idMap) l file = .ok file' ∧ Sound n file'
  | [], file, h, _ => ⟨file, rfl, h⟩
  | a :: l, file, h, hf => by
    obtain ⟨f1, h1, h2, h3⟩ := perform_sound h (hf a (by simp))
    obtain ⟨f2, k1, k2⟩ := all_sound l h2 (fun b hb => h3.fit (hf b (List.mem_cons_of_mem _ hb)))
    refine ⟨f2, ?_, k2⟩
    show (file.perform n idMap a).bind _ = _
    rw [h1]
    exact k1

end Kml.Dom
