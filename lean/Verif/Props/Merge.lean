import Verif.Lemmas.Merge
import Verif.Props.Clone

/-!
# C36: merging

`Overrides` (Spec/Merge.lean) is the property in words; `merged` is the whole result.  `Held`, `Clonable` and `Lossless`
are those of C35; `Tidy` (Spec/Place.lean): nothing but simple elements is misplaced.
-/

namespace Kml.Dom

open Kml

theorem over_again {old new : StdMap Str} (hn : StdMap.Sorted new) (ho : StdMap.Sorted old) :
    over (over old new) new = over old new := by
  obtain ⟨h1, h2⟩ := over_spec hn ho
  obtain ⟨h3, h4⟩ := over_spec hn h1
  refine StdMap.ext h3 h1 fun k => ?_
  rw [h4, h2]
  cases new.get k <;> rfl

theorem over_self {m : StdMap Str} (h : StdMap.Sorted m) : over m m = m := by
  obtain ⟨h1, h2⟩ := over_spec h h
  refine StdMap.ext h1 h fun k => ?_
  rw [h2]
  cases m.get k <;> rfl

theorem held_attrs {n : NumLib} {t : Ty} {a : Attrs} {slots : Mem → List Elem} {mis : List Elem} {unk : List Str}
    (h : Held n (.node t a slots mis unk)) : a.Held n (classAt t) := by
  cases h with
  | node _ _ h => exact h
  | text _ h => exact h
  | points h => exact h

theorem held_class {n : NumLib} {t : Ty} {a : Attrs} {slots : Mem → List Elem} {mis : List Elem} {unk : List Str}
    (h : Held n (.node t a slots mis unk)) (htext : textual t = false) : ∃ c, classOf t = some c := by
  cases h with
  | node h => exact Option.isSome_iff_exists.1 h
  | text h => rcases h with rfl | rfl | rfl <;> cases htext
  | points => cases htext

/-- **C36, the whole merge.** Merging a source into a target of the same type always ends, touches no memory it should
not, and leaves the target as `merged` says.

Missing from the full property: misplaced elements in the source, whose attributes and fields are set in the target
(`C36_misplaced_violated`), and what cannot be copied (C35). -/
theorem C36_merge_partial (n : NumLib) (source target : Elem) (hs : Held n source) (ht : Held n target)
    (hc : Everywhere Clonable source) (hl : Everywhere Lossless source) (hsm : Everywhere Tidy source)
    (htm : Everywhere Tidy target) (hsx : source.complex = true) (htx : target.complex = true)
    (hty : target.ty = source.ty) : mergeElements n source target = .ok (merged source target) :=
  (merge_main hs hc hl hsm hsx target ⟨ht, htm⟩ htx hty).1

theorem held_one {n : NumLib} {t : Ty} {a : Attrs} {slots : Mem → List Elem} {mis : List Elem} {unk : List Str}
    (h : Held n (.node t a slots mis unk)) (htext : textual t = false) {m : Mem} (hm : holdsMany t m = false) {x : Elem}
    (hx : x ∈ slots m) : slots m = [x] := by
  obtain ⟨c, hc⟩ := held_class h htext
  cases h with
  | text h => rcases h with rfl | rfl | rfl <;> cases htext
  | points => cases htext
  | node _ _ _ hslots =>
    obtain ⟨act, h1, h2, _, h4⟩ := hslots m x hx
    exact h4 (by rw [← holdsMany_act hc h1, h2, hm])

/-- **C36, in words, for the merge of elements.** Every simple field and every attribute of the source is set, every
other field is kept.

Missing from the full property: as for `C36_merge_partial`, and the elements with text (`C36_snippet_violated`). -/
theorem C36_overrides_partial (n : NumLib) (source target : Elem) (hs : Held n source) (ht : Held n target)
    (hc : Everywhere Clonable source) (hl : Everywhere Lossless source) (hsm : Everywhere Tidy source)
    (htm : Everywhere Tidy target) (hsx : source.complex = true) (htx : target.complex = true)
    (hty : target.ty = source.ty) (htext : textual source.ty = false) :
    ∃ result, mergeElements n source target = .ok result ∧ Overrides source target result := by
  refine ⟨_, C36_merge_partial n source target hs ht hc hl hsm htm hsx htx hty, ?_⟩
  cases source with
  | field => cases hsx
  | node t a slots mis unk =>
    cases target with
    | field => cases htx
    | node t' a' slots' mis' unk' =>
      have : t' = t := hty
      subst this
      have htext : textual t' = false := htext
      obtain ⟨c, hcl⟩ := held_class hs htext
      rw [merged_node htext]
      refine ⟨rfl, ?_, ?_, ?_⟩
      · intro m hm tf v hv
        have hm : holdsMany t' m = false := hm
        show mergedSlots t' slots slots' m = _
        have hone := held_one hs htext hm hv
        unfold mergedSlots
        rw [hm, hone]
        simp only [Bool.false_eq_true, if_false, mergedItem]
        split
        · split <;> rfl
        · rfl
      · intro m hm
        have hm : slots m = [] := hm
        show mergedSlots t' slots slots' m = slots' m
        unfold mergedSlots
        rw [hm]
        split <;> rfl
      · intro k
        have hcat := classAt_eq hcl
        have h1 := held_attrs hs
        have h2 := held_attrs ht
        show (serializeAttributes (classAt t') _).get k = _
        rw [hcat] at h1 h2 ⊢
        rw [mergedAttrs_get hcl h1 h2]
        show _ = ((serializeAttributes (classAt t') a).get k).or ((serializeAttributes (classAt t') a').get k)
        rw [hcat]

/-- **C36, in words, for the merge of fields.** The same for `MergeFields`, which leaves all complex children as they
are. -/
theorem C36_fields_partial (n : NumLib) (source target : Elem) (hs : Held n source) (ht : Held n target)
    (hc : Clonable source) (hl : Lossless source) (hsm : Tidy source) (hsx : source.complex = true)
    (htx : target.complex = true) (hty : target.ty = source.ty) (htext : textual source.ty = false) :
    ∃ result, mergeFields n source target = .ok result ∧ Overrides source target result ∧
      ∀ m, (∃ x ∈ target.inside m, x.complex = true) → result.inside m = target.inside m := by
  cases source with
  | field => cases hsx
  | node t a slots mis unk =>
    cases target with
    | field => cases htx
    | node t' a' slots' mis' unk' =>
      have : t' = t := hty
      subst this
      have htext : textual t' = false := htext
      obtain ⟨c, hcl⟩ := held_class hs htext
      have hcat := classAt_eq hcl
      have hP := held_placed htext hs hc hl
      have h1 := held_attrs hs
      have h2 := held_attrs ht
      refine ⟨_, mergeFields_node hcl htext hP hsm h1 h2 unk unk' slots' mis', ⟨rfl, ?_, ?_, ?_⟩, ?_⟩
      · intro m hm tf v hv
        have hm : holdsMany t' m = false := hm
        have hv : Elem.field tf v ∈ slots m := hv
        show fieldSlots t' slots slots' m = _
        have hone := held_one hs htext hm hv
        have hval : isValue c m = true := by
          obtain ⟨act, k1, k2, k3, _⟩ := hP.placed m _ hv
          have hun : t' = Ty.«XalLocality» → act.mem ≠ M.«localityname» := by
            intro hu1 hu2
            have hl := hP.locality hu1
            rw [← hu2, k2, hone] at hl
            cases hl
          obtain ⟨w, hw1, hw2, _⟩ := write_of hcl k1 htext hun
          unfold isValue
          rw [List.any_eq_true]
          refine ⟨w, hw1, ?_⟩
          cases hsv : w.saves with
          | false => simp [hw2, k2]
          | true =>
            exfalso
            have := (held_saves hs hv).2 ⟨w, by rw [hcat]; exact hw1, hsv, by rw [member_mem, hw2, k2]⟩
            cases this
        unfold fieldSlots overValues
        rw [hcat, hval, hm, hone]
        simp
      · intro m hm
        have hm : slots m = [] := hm
        show fieldSlots t' slots slots' m = slots' m
        unfold fieldSlots
        rw [hm, overValues_nil]
        split <;> rfl
      · intro k
        show (serializeAttributes (classAt t') _).get k = _
        rw [hcat] at h1 h2 ⊢
        rw [mergedAttrs_get hcl h1 h2]
        show _ = ((serializeAttributes (classAt t') a).get k).or ((serializeAttributes (classAt t') a').get k)
        rw [hcat]
      · rintro m ⟨x, hx, hxc⟩
        show fieldSlots t' slots slots' m = slots' m
        obtain ⟨w, hw1, hw2, hw3⟩ := (held_saves ht hx).1 hxc
        unfold fieldSlots
        rw [if_neg]
        rw [hcat]
        unfold isValue
        rw [List.any_eq_true]
        rintro ⟨w', h1', h2'⟩
        simp only [Bool.and_eq_true, decide_eq_true_eq, Bool.not_eq_true'] at h2'
        rw [hcat] at hw1
        rw [member_mem] at hw3
        have : w' = w := nodup_map_inj (nodup_writes (classOf_pair hcl)) h1' hw1 (by rw [h2'.1, hw3])
        subst this
        rw [hw2] at h2'
        cases h2'.2

/-! ### Twice -/

/-- **C36, twice, for fields and attributes.** Merging the source once more changes no field for one value and no
attribute. -/
theorem C36_again_partial (n : NumLib) (source target : Elem) (hs : Held n source) (ht : Held n target)
    (hc : Everywhere Clonable source) (hl : Everywhere Lossless source) (hsm : Everywhere Tidy source)
    (htm : Everywhere Tidy target) (hsx : source.complex = true) (htx : target.complex = true)
    (hty : target.ty = source.ty) (htext : textual source.ty = false) :
    ∃ once twice, mergeElements n source target = .ok once ∧ mergeElements n source once = .ok twice ∧
      (∀ k, twice.attr k = once.attr k) ∧
      (∀ m, holdsMany source.ty m = false → (∀ x ∈ source.inside m, x.complex = false) → twice.inside m = once.inside m) := by
  have hm := merge_main hs hc hl hsm hsx target ⟨ht, htm⟩ htx hty
  have hmt := merged_ty hsx htx hty
  obtain ⟨r, h1, h2⟩ := C36_overrides_partial n source target hs ht hc hl hsm htm hsx htx hty htext
  rw [hm.1] at h1
  cases h1
  obtain ⟨r', h3, h4⟩ := C36_overrides_partial n source _ hs hm.2.1 hc hl hsm hm.2.2 hsx hmt.2 hmt.1 htext
  refine ⟨_, r', hm.1, h3, ?_, ?_⟩
  · intro k
    rw [h4.attrs, h2.attrs]
    cases source.attr k <;> rfl
  · intro m hmany hx
    cases hs' : source.inside m with
    | nil => rw [h4.kept m hs']
    | cons x xs =>
      have hxc := hx x (by rw [hs']; simp)
      cases x with
      | node => cases hxc
      | field tf v =>
        have hin : Elem.field tf v ∈ source.inside m := by rw [hs']; simp
        rw [h4.set m hmany tf v hin, h2.set m hmany tf v hin]

theorem mergedSelf {n : NumLib} {s : Elem} (h : Held n s) : Everywhere Single s → merged s s = s := by
  induction h with
  | field => intro _; rfl
  | @points a pts unk ha =>
    intro _
    rw [merged]
    simp only [if_true, mergedAttrs, over_self ha.known_sorted, over_self ha.unknown_sorted, over_self ha.xmlns_sorted,
      List.append_nil]
  | @text t a slots mis unk ht ha hs hmis hmk ihm =>
    intro h
    have htext : textual t = true := (textual_sets t).2 (by rcases ht with h | h | h <;> simp [h])
    have hnc : t ≠ Ty.«coordinates» := by rcases ht with rfl | rfl | rfl <;> decide
    have := (everywhere_top h).1
    subst this
    rw [merged]
    simp only [if_neg hnc, htext, if_true, mergedAttrs, over_self ha.known_sorted, over_self ha.unknown_sorted,
      over_self ha.xmlns_sorted, List.append_nil]
  | @node t a slots mis unk hclass htext ha hslots hmis hk hmk ihs ihm =>
    intro h
    have hnc : t ≠ Ty.«coordinates» := by rintro rfl; cases htext
    obtain ⟨hm0, hmany⟩ := everywhere_top h
    subst hm0
    rw [merged_node htext]
    simp only [mergedAttrs, over_self ha.known_sorted, over_self ha.unknown_sorted, over_self ha.xmlns_sorted,
      List.append_nil, Elem.node.injEq, true_and, and_true]
    funext m
    unfold mergedSlots
    cases hmm : holdsMany t m with
    | true =>
      rw [hmany hnc m hmm]
      rfl
    | false =>
      simp only [Bool.false_eq_true, if_false]
      cases hs : slots m with
      | nil => rfl
      | cons x xs =>
        have hone := held_one (.node (unk := unk) hclass htext ha hslots hmis hk hmk) htext hmm (x := x) (by rw [hs]; simp)
        rw [hs] at hone
        simp only [List.cons.injEq, true_and] at hone
        subst hone
        have : Everywhere Single x := by
          cases h with
          | node _ h1 _ => exact h1 m x (by rw [hs]; simp)
        rw [mergedItem]
        simp only [if_true, ihs m x (by rw [hs]; simp) this]

theorem mergedTwice {n : NumLib} {s : Elem} (h : Held n s) : Everywhere Single s → ∀ y, Held n y →
    y.complex = s.complex → y.ty = s.ty → merged s (merged s y) = merged s y := by
  induction h with
  | field => intro _ y _ _ _; rfl
  | @points a pts unk ha =>
    intro _ y hy hyc hty
    cases y with
    | field => cases hyc
    | node t' a' slots' mis' unk' =>
      have : t' = Ty.«coordinates» := hty
      subst this
      have ha' := held_attrs hy
      simp only [merged, if_true, mergedAttrs, over_again ha.known_sorted ha'.known_sorted,
        over_again ha.unknown_sorted ha'.unknown_sorted, over_again ha.xmlns_sorted ha'.xmlns_sorted,
        List.append_nil]
  | @text t a slots mis unk ht ha hs hmis hmk ihm =>
    intro h y hy hyc hty
    have htext : textual t = true := (textual_sets t).2 (by rcases ht with h | h | h <;> simp [h])
    have hnc : t ≠ Ty.«coordinates» := by rcases ht with rfl | rfl | rfl <;> decide
    have := (everywhere_top h).1
    subst this
    cases y with
    | field => cases hyc
    | node t' a' slots' mis' unk' =>
      have : t' = t := hty
      subst this
      have ha' := held_attrs hy
      simp only [merged, if_neg hnc, htext, if_true, mergedAttrs, over_again ha.known_sorted ha'.known_sorted,
        over_again ha.unknown_sorted ha'.unknown_sorted, over_again ha.xmlns_sorted ha'.xmlns_sorted,
        List.append_nil]
  | @node t a slots mis unk hclass htext ha hslots hmis hk hmk ihs ihm =>
    intro h y hy hyc hty
    have hnc : t ≠ Ty.«coordinates» := by rintro rfl; cases htext
    obtain ⟨hm0, hmany⟩ := everywhere_top h
    subst hm0
    cases y with
    | field => cases hyc
    | node t' a' slots' mis' unk' =>
      have : t' = t := hty
      subst this
      have ha' := held_attrs hy
      rw [merged_node htext, merged_node htext]
      simp only [mergedAttrs, over_again ha.known_sorted ha'.known_sorted,
        over_again ha.unknown_sorted ha'.unknown_sorted, over_again ha.xmlns_sorted ha'.xmlns_sorted,
        List.append_nil, Elem.node.injEq, true_and, and_true]
      funext m
      unfold mergedSlots
      cases hmm : holdsMany t' m with
      | true =>
        rw [hmany hnc m hmm]
        rfl
      | false =>
        simp only [Bool.false_eq_true, if_false]
        cases hs : slots m with
        | nil => rfl
        | cons x xs =>
          have hxin : x ∈ slots m := by rw [hs]; simp
          have hx : Everywhere Single x := by
            cases h with
            | node _ h1 _ => exact h1 m x hxin
          have hself := mergedSelf (hk m x hxin) hx
          have hsx : ∀ l, mergedItem (x :: xs) l = [x] → mergedItem (x :: xs) (mergedItem (x :: xs) l) = mergedItem (x :: xs) l := by
            intro l hl
            rw [hl, mergedItem]
            simp only [if_true, hself]
          rcases hs' : slots' m with _ | ⟨y, _ | ⟨z, ys⟩⟩
          · exact hsx _ rfl
          · by_cases hxy : x.ty = y.ty
            · have hyin : y ∈ slots' m := by rw [hs']; simp
              have hyh : Held n y := by
                cases hy with
                | node _ _ _ _ _ h1 => exact h1 m y hyin
                | text h => rcases h with rfl | rfl | rfl <;> cases htext
                | points => cases htext
              have hcx : y.complex = x.complex := by
                have e1 := held_saves (.node (unk := unk) hclass htext ha hslots hmis hk hmk) hxin
                have e2 := held_saves hy hyin
                rw [Bool.eq_iff_iff, e1, e2]
              have : mergedItem (x :: xs) [y] = [merged x y] := by
                rw [mergedItem]
                simp only [if_pos hxy]
              rw [this, mergedItem]
              have hmt : x.ty = (merged x y).ty := by
                cases x with
                | field tx sx => rfl
                | node =>
                  cases y with
                  | field => cases hcx
                  | node => rfl
              simp only [if_pos hmt, ihs m x hxin hx y hyh hcx hxy.symm]
            · refine hsx _ ?_
              rw [mergedItem]
              simp only [if_neg hxy]
          · exact hsx _ rfl

/-- **C36, twice.** If the source has only fields for one value or one element, all the way down, and nothing is
misplaced, then merging it twice is merging it once.

Missing: fields for many values, where it is false (`C36_twice_violated`). -/
theorem C36_twice_partial (n : NumLib) (source target : Elem) (hs : Held n source) (ht : Held n target)
    (hc : Everywhere Clonable source) (hl : Everywhere Lossless source) (hsm : Everywhere Single source)
    (htm : Everywhere Tidy target) (hsx : source.complex = true) (htx : target.complex = true)
    (hty : target.ty = source.ty) :
    ∃ once, mergeElements n source target = .ok once ∧ mergeElements n source once = .ok once := by
  have hsingle : ∀ {e : Elem}, Everywhere Single e → Everywhere Tidy e := by
    intro e he
    induction he with
    | field => exact .field trivial
    | node h _ _ ih1 ih2 =>
      refine .node ?_ ih1 ih2
      intro x hx
      rw [h.1] at hx
      cases hx
  have hm := merge_main hs hc hl (hsingle hsm) hsx target ⟨ht, htm⟩ htx hty
  have hmt := merged_ty hsx htx hty
  refine ⟨_, hm.1, ?_⟩
  rw [(merge_main hs hc hl (hsingle hsm) hsx _ hm.2 hmt.2 hmt.1).1,
    mergedTwice hs hsm target ht (by rw [hsx, htx]) hty]

/-! ### Elements that can be merged -/

/-- `<Placemark id="p"><name>a</name></Placemark>` -/
def mSource : Elem :=
  .node Ty.«Placemark» ⟨[(chars! "id", ['p'])], [], []⟩
    (setSlot (fun _ => []) M.«name» [.field Ty.«name» ['a']]) [] []

/-- `<Placemark id="q" foo="x"><name>b</name><visibility>0</visibility></Placemark>` -/
def mTarget : Elem :=
  .node Ty.«Placemark» ⟨[(chars! "id", ['q'])], [(chars! "foo", ['x'])], []⟩
    (setSlot (setSlot (fun _ => []) M.«name» [.field Ty.«name» ['b']]) M.«visibility» [.field Ty.«visibility» ['0']]) [] []

set_option maxRecDepth 100000 in
theorem mSource_held : Held NumLib.integers mSource :=
  parse_held (os := ([] : List (Observer Unit))) (s := ()) (s' := ()) (evs :=
    [.start (chars! "Placemark") [(chars! "id", ['p'])], .start (chars! "name") [], .chars ['a'], .stop (chars! "name"),
      .stop (chars! "Placemark")]) rfl

set_option maxRecDepth 100000 in
theorem mTarget_held : Held NumLib.integers mTarget :=
  parse_held (os := ([] : List (Observer Unit))) (s := ()) (s' := ()) (evs :=
    [.start (chars! "Placemark") [(chars! "id", ['q']), (chars! "foo", ['x'])], .start (chars! "name") [], .chars ['b'],
      .stop (chars! "name"), .start (chars! "visibility") [], .chars ['0'], .stop (chars! "visibility"),
      .stop (chars! "Placemark")]) rfl

theorem mSource_all {P : Elem → Prop} (h : P mSource) (hf : ∀ t s, P (.field t s)) : Everywhere P mSource := by
  refine .node h ?_ (by intro x hx; cases hx)
  intro m x hx
  unfold setSlot at hx
  split at hx
  · rw [List.mem_singleton.1 hx]; exact .field (hf _ _)
  · cases hx

theorem mTarget_tidy : Everywhere Tidy mTarget := by
  refine .node (by intro x hx; cases hx) ?_ (by intro x hx; cases hx)
  intro m x hx
  unfold setSlot at hx
  split at hx
  · rw [List.mem_singleton.1 hx]; exact .field trivial
  · split at hx
    · rw [List.mem_singleton.1 hx]; exact .field trivial
    · cases hx

theorem mSource_clonable : Clonable mSource := by
  refine ⟨?_, fun h => absurd h (by decide)⟩
  intro m x hx act t' s ht hc he
  unfold setSlot at hx
  split at hx
  · rw [List.mem_singleton.1 hx] at ht
    have : taker Ty.«Placemark» (.field Ty.«name» ['a']) = some (.field M.«name» .str) := by decide +kernel
    rw [this] at ht
    cases ht
    cases hc
  · cases hx

theorem mSource_lossless : Lossless mSource :=
  ⟨fun h => absurd h (by decide), fun h => absurd h (by decide), fun h => absurd h (by decide)⟩

theorem mSource_single : Single mSource := by
  refine ⟨rfl, fun _ m hm => ?_⟩
  show setSlot _ _ _ _ = _
  unfold setSlot
  split
  · rename_i h
    subst h
    have : holdsMany Ty.«Placemark» M.«name» = false := by decide +kernel
    rw [this] at hm
    cases hm
  · rfl

example : mergeElements NumLib.integers mSource mTarget = .ok (merged mSource mTarget) :=
  C36_merge_partial _ _ _ mSource_held mTarget_held (mSource_all mSource_clonable fun _ _ => trivial)
    (mSource_all mSource_lossless fun _ _ => trivial) (mSource_all (by intro x hx; cases hx) fun _ _ => trivial)
    mTarget_tidy rfl rfl rfl

example : ∃ result, mergeElements NumLib.integers mSource mTarget = .ok result ∧ Overrides mSource mTarget result :=
  C36_overrides_partial _ _ _ mSource_held mTarget_held (mSource_all mSource_clonable fun _ _ => trivial)
    (mSource_all mSource_lossless fun _ _ => trivial) (mSource_all (by intro x hx; cases hx) fun _ _ => trivial)
    mTarget_tidy rfl rfl rfl (by decide)

example : ∃ result, mergeFields NumLib.integers mSource mTarget = .ok result ∧ Overrides mSource mTarget result ∧
    ∀ m, (∃ x ∈ mTarget.inside m, x.complex = true) → result.inside m = mTarget.inside m :=
  C36_fields_partial _ _ _ mSource_held mTarget_held mSource_clonable mSource_lossless (by intro x hx; cases hx)
    rfl rfl rfl (by decide)

example : ∃ once twice, mergeElements NumLib.integers mSource mTarget = .ok once ∧
    mergeElements NumLib.integers mSource once = .ok twice ∧ (∀ k, twice.attr k = once.attr k) ∧
    (∀ m, holdsMany mSource.ty m = false → (∀ x ∈ mSource.inside m, x.complex = false) →
      twice.inside m = once.inside m) :=
  C36_again_partial _ _ _ mSource_held mTarget_held (mSource_all mSource_clonable fun _ _ => trivial)
    (mSource_all mSource_lossless fun _ _ => trivial) (mSource_all (by intro x hx; cases hx) fun _ _ => trivial)
    mTarget_tidy rfl rfl rfl (by decide)

example : ∃ once, mergeElements NumLib.integers mSource mTarget = .ok once ∧
    mergeElements NumLib.integers mSource once = .ok once :=
  C36_twice_partial _ _ _ mSource_held mTarget_held (mSource_all mSource_clonable fun _ _ => trivial)
    (mSource_all mSource_lossless fun _ _ => trivial) (mSource_all mSource_single fun _ _ => trivial) mTarget_tidy
    rfl rfl rfl

/-- Merge the source `k` times. -/
def mergeTimes (s : Elem) : Nat → Outcome Elem → Outcome Elem
  | 0, r => r
  | k + 1, r => mergeTimes s k (r.bind (mergeElements NumLib.integers s))

/-- The text of the result of merging the root of a document into the root of another, `k` times. -/
def mergeOf (source target : List Ev) (k : Nat) : Option Str :=
  match parseEvents NumLib.integers ([] : List (Observer Unit)) () source,
      parseEvents NumLib.integers ([] : List (Observer Unit)) () target with
  | .ok (some s, _), .ok (some y, _) =>
    match mergeTimes s k (.ok y) with
    | .ok r =>
      match serializeRaw r with
      | .ok text => some text
      | _ => none
    | _ => none
  | _, _ => none

/-- A document with one element with a text in it, inside an element. -/
def fieldEvents (outer : Str) (attrs : Attributes.Attributes) (inner : Str) (text : Str) : List Ev :=
  [.start outer attrs, .start inner []] ++ charEvents text ++ [.stop inner, .stop outer]

/-- The name and the id are those of the source, the other attribute is kept. -/
example : mergeOf (fieldEvents (chars! "Placemark") [(chars! "id", ['p'])] (chars! "name") (chars! "a"))
    (fieldEvents (chars! "Placemark") [(chars! "id", ['q']), (chars! "foo", ['x'])] (chars! "name") (chars! "b")) 1 =
    some (chars! "<Placemark foo=\"x\" id=\"p\"><name>a</name></Placemark>") := by decide +kernel

/-! ### Where it is false -/

/-- **C36 fails: misplaced elements.** The id and the name of a `Folder` that is misplaced in the source become those of
the target, and the `Folder` itself is not there.  The source is `<Placemark><Folder id="f"><name>x</name></Folder></Placemark>`, which has neither an
id nor a name; the target is `<Placemark id="q"><name>b</name></Placemark>`. -/
theorem C36_misplaced_violated :
    mergeOf [.start (chars! "Placemark") [], .start (chars! "Folder") [(chars! "id", ['f'])], .start (chars! "name") [],
        .chars ['x'], .stop (chars! "name"), .stop (chars! "Folder"), .stop (chars! "Placemark")]
      (fieldEvents (chars! "Placemark") [(chars! "id", ['q'])] (chars! "name") (chars! "b")) 1 =
    some (chars! "<Placemark id=\"f\"><name>x</name></Placemark>") := by
  decide +kernel

/-- **C36 fails: the text of a `Snippet`** is not merged: the target keeps its own. -/
theorem C36_snippet_violated :
    mergeOf (fieldEvents (chars! "Placemark") [] (chars! "Snippet") (chars! "a"))
      (fieldEvents (chars! "Placemark") [] (chars! "Snippet") (chars! "b")) 1 =
    some (chars! "<Placemark><Snippet>b</Snippet></Placemark>") := by decide +kernel

/-- **C36 fails: a simple field for many values** is added to, so merging twice is not merging once. -/
theorem C36_twice_violated :
    mergeOf (fieldEvents (chars! "gx:Track") [] (chars! "when") (chars! "1")) [.start (chars! "gx:Track") [],
      .stop (chars! "gx:Track")] 1 = some (chars! "<gx:Track><when>1</when></gx:Track>") ∧
    mergeOf (fieldEvents (chars! "gx:Track") [] (chars! "when") (chars! "1")) [.start (chars! "gx:Track") [],
      .stop (chars! "gx:Track")] 2 = some (chars! "<gx:Track><when>1</when><when>1</when></gx:Track>") := by
  decide +kernel

end Kml.Dom
