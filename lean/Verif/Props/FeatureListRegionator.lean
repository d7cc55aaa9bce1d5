import Verif.Model.FeatureListRegionator
import Verif.Spec.FeatureListRegionator
import Verif.Props.FeatureList
import Verif.Model.Lit
/-! Property C88: a feature list made into a hierarchy of files. -/
namespace Kml.Geo
variable {K : Type u} [LinearOrder K] {A L : Type} {M : Type}

theorem Climbs.append {a b c : Nat} {l m : List Nat} (h1 : Climbs a b l) (h2 : Climbs b c m) : Climbs a c (l ++ m) := by
  induction h1 with
  | stay => exact h2
  | step h _ ih => exact .step h (ih h2)

theorem toldAll_append (ask : M → Nat → Nat → Bool × M) (total : Nat) (m : M) (l l' : List Nat) :
    toldAll ask total m (l ++ l') = toldAll ask total (toldAll ask total m l) l' := List.foldl_append ..

/-- What a split does, whatever the maximum. -/
theorem split_any (l : List (Item K)) (b : Bbox K) (max : Nat) :
    ∃ front back, l = front ++ back ∧
      (bboxSplit l b max).1 = front.filter (Item.inside b) ∧
      (bboxSplit l b max).2 = front.filter (fun i => !i.inside b) ++ back ∧
      (max = 0 ∨ (bboxSplit l b max).1.length ≤ max) ∧
      (((bboxSplit l b max).1.length = max ∧ 0 < max) ∨ back = []) := by
  rcases Nat.eq_zero_or_pos max with rfl | h
  · exact ⟨l, [], by simp, by rw [C60_split_all], by rw [C60_split_all]; simp, .inl rfl, .inr rfl⟩
  · obtain ⟨front, back, e1, e2, e3, e4, e5⟩ := C60_split l b max h
    exact ⟨front, back, e1, e2, e3, .inr e4, e5.imp (fun e => ⟨e, h⟩) id⟩

/-- What visiting some regions does, when the monitor never stops: the features `taken` are in new files. -/
structure FlrStep (mid : K → K → K) (root : Bbox K) (max total : Nat) (ask : Option (M → Nat → Nat → Bool × M))
    (below : Str → Prop) (taken : Item K → Bool) (st st' : RState (FlrState K M) (List (Item K))) : Prop where
  free : Free st'.h.fl
  list : st'.h.fl.list = st.h.fl.list.filter fun i => !taken i
  nulls : st'.nulls = st.nulls
  files : ∃ new, st'.saved = st.saved ++ new ∧ (new.flatMap File.feature).Perm (st.h.fl.list.filter taken) ∧
    (∀ f ∈ new, FlrFile mid root max f ∧ below f.id) ∧ ∀ f ∈ new, ∀ g ∈ new, Above max f g
  told : ∀ a, ask = some a → ∃ counts, Climbs (total - st.h.fl.list.length) (total - st'.h.fl.list.length) counts ∧
    st'.h.mon = toldAll a total st.h.mon counts

omit [LinearOrder K] in
theorem perm_two (p q : Item K → Bool) (l : List (Item K)) :
    (l.filter p ++ (l.filter (fun i => !p i)).filter q).Perm (l.filter fun i => p i || q i) := by
  induction l with
  | nil => simp
  | cons i l ih =>
    cases hp : p i <;> cases hq : q i <;> simp [hp, hq] at ih ⊢
    · exact ih
    · exact (List.perm_middle).trans (ih.cons i)
    · exact ih
    · exact ih

theorem FlrStep.trans {mid : K → K → K} {root : Bbox K} {max total : Nat} {ask : Option (M → Nat → Nat → Bool × M)}
    {x y : Str → Prop} {p q : Item K → Bool} {a b c : RState (FlrState K M) (List (Item K))}
    (hxy : ∀ k k', x k → y k' → ¬ k <+: k' ∧ ¬ k' <+: k)
    (h1 : FlrStep mid root max total ask x p a b) (h2 : FlrStep mid root max total ask y q b c) :
    FlrStep mid root max total ask (fun k => x k ∨ y k) (fun i => p i || q i) a c := by
  obtain ⟨n1, e1, e2, e3, e4⟩ := h1.files
  obtain ⟨n2, f1, f2, f3, f4⟩ := h2.files
  refine ⟨h2.free, ?_, by rw [h2.nulls, h1.nulls], ⟨n1 ++ n2, ?_, ?_, ?_, ?_⟩, ?_⟩
  · rw [h2.list, h1.list, List.filter_filter]
    apply List.filter_congr
    intro i _
    cases p i <;> cases q i <;> rfl
  · rw [f1, e1, List.append_assoc]
  · rw [List.flatMap_append]
    refine (e2.append f2).trans ?_
    rw [h1.list]
    exact perm_two p q _
  · intro f hf
    rcases List.mem_append.1 hf with hf | hf
    · exact ⟨(e3 f hf).1, .inl (e3 f hf).2⟩
    · exact ⟨(f3 f hf).1, .inr (f3 f hf).2⟩
  · intro f hf g hg
    rcases List.mem_append.1 hf with hf | hf <;> rcases List.mem_append.1 hg with hg | hg
    · exact e4 f hf g hg
    · exact fun h => absurd h (hxy _ _ (e3 f hf).2 (f3 g hg).2).1
    · exact fun h => absurd h (hxy _ _ (e3 g hg).2 (f3 f hf).2).2
    · exact f4 f hf g hg
  · intro m hm
    obtain ⟨c1, g1, g2⟩ := h1.told m hm
    obtain ⟨c2, g3, g4⟩ := h2.told m hm
    exact ⟨c1 ++ c2, g1.append g3, by rw [g4, g2, toldAll_append]⟩

theorem childQid_apart {id : Str} {p q : Quadrant} (h : p ≠ q) {k k' : Str} (h1 : childQid id p <+: k)
    (h2 : childQid id q <+: k') : ¬ k <+: k' ∧ ¬ k' <+: k :=
  ⟨fun e => h (childQid_prefix (h1.trans e) h2), fun e => h (childQid_prefix h1 (h2.trans e))⟩

/-- The children of a region, given what happens in each. -/
theorem flr_children (mid : K → K → K) (root : Bbox K) (max total : Nat) (ask : Option (M → Nat → Nat → Bool × M))
    (n : Nat) (name : Option Str) (r : Region K A L) (b : Bbox K)
    (ih : ∀ (q : Quadrant) (st : RState (FlrState K M) (List (Item K))), Free st.h.fl → st.h.fl.list.length < n →
      ByScore st.h.fl.list → st.h.fl.list.length ≤ total →
      ∃ res st', regionate mid (flrHandler (A := A) (L := L) max total ask) name n st
          { createChildRegion mid r q with id := childQid r.id q } = some (res, st') ∧
        FlrStep mid root max total ask (childQid r.id q <+: ·) (Item.inside (childBox mid b q)) st st' ∧
        ∀ k, ¬ childQid r.id q <+: k → st'.h.fl.map k = st.h.fl.map k) :
    ∀ (qs : List Quadrant) (st : RState (FlrState K M) (List (Item K))), qs.Nodup → Free st.h.fl → st.h.fl.list.length < n →
      ByScore st.h.fl.list → st.h.fl.list.length ≤ total →
      ∃ cs st', recurseAll mid (regionate mid (flrHandler (A := A) (L := L) max total ask) name n) r qs st = some (cs, st') ∧
        FlrStep mid root max total ask (fun k => ∃ q ∈ qs, childQid r.id q <+: k)
          (fun i => qs.any fun q => i.inside (childBox mid b q)) st st' ∧
        st'.h.fl.map r.id = st.h.fl.map r.id ∧ ∀ k, ¬ r.id <+: k → st'.h.fl.map k = st.h.fl.map k := by
  intro qs
  induction qs with
  | nil =>
    intro st _ hf _ _ _
    exact ⟨[], st, rfl, ⟨hf, by simp, rfl, ⟨[], by simp⟩, fun _ _ => ⟨[], .stay, rfl⟩⟩, rfl, fun _ _ => rfl⟩
  | cons q qs ihq =>
    intro st hnd hf hlen hs ht
    obtain ⟨hq, hnd⟩ := List.nodup_cons.1 hnd
    obtain ⟨res, st1, e1, s1, m1⟩ := ih q st hf hlen hs ht
    have hle : st1.h.fl.list.length ≤ st.h.fl.list.length := by
      rw [s1.list]
      exact List.length_filter_le _ _
    obtain ⟨cs, st2, e2, s2, m2, m3⟩ := ihq st1 hnd s1.free (by omega) (by
      rw [s1.list]; exact hs.sublist List.filter_sublist) (by omega)
    refine ⟨if res then { createChildRegion mid r q with id := childQid r.id q } :: cs else cs, st2, ?_, ?_, ?_, ?_⟩
    · simp only [recurseAll, e1, e2]
    · have := s1.trans (y := fun k => ∃ q ∈ qs, childQid r.id q <+: k) (fun k k' hk ⟨q', hq', hk'⟩ =>
        childQid_apart (fun (e : q = q') => hq (e ▸ hq')) hk hk') s2
      simpa only [List.any_cons, List.mem_cons, exists_eq_or_imp] using this
    · rw [m2, m1 _ (fun h => by have := h.length_le; rw [childQid_length] at this; omega)]
    · intro k hk
      rw [m3 k hk, m1 k (fun h => hk ((List.prefix_append _ _).trans h))]

/-- `HasData`, with a monitor that never stops. -/
theorem flr_hasData (max total : Nat) (ask : Option (M → Nat → Nat → Bool × M))
    (hyes : ∀ a, ask = some a → ∀ m c, (a m c total).1 = true) (s : FlrState K M) (hf : Free s.fl) (r : Region K A L)
    (b : Bbox K) (a : A) (hb : r.box = some (b, a)) :
    ((flrHandler (A := A) (L := L) max total ask).hasData s r = (false, s) ∧ ∀ i ∈ s.fl.list, i.inside b = false) ∨
    ∃ out s', (flrHandler (A := A) (L := L) max total ask).hasData s r = (true, s') ∧ out ≠ [] ∧
      (max = 0 ∨ out.length ≤ max) ∧
      (∀ i ∈ out, i.inside b = true) ∧ Free s'.fl ∧ s'.fl.list.length < s.fl.list.length ∧
      s'.fl.list.Sublist s.fl.list ∧ out.Sublist s.fl.list ∧
      s'.fl.list.filter (fun i => !i.inside b) = s.fl.list.filter (fun i => !i.inside b) ∧
      (out ++ s'.fl.list.filter (Item.inside b)).Perm (s.fl.list.filter (Item.inside b)) ∧
      (∀ j ∈ s'.fl.list, j.inside b = true → out.length = max ∧ (ByScore s.fl.list → ∀ i ∈ out, j.score ≤ i.score)) ∧
      s'.fl.map r.id = some out ∧ (∀ k, k ≠ r.id → s'.fl.map k = s.fl.map k) ∧
      (∀ a, ask = some a → s'.mon = (a s.mon (total - s'.fl.list.length) total).2) := by
  obtain ⟨front, back, e1, e2, e3, e4, e5⟩ := split_any s.fl.list b max
  have hsplit : regionSplit s.fl.list r max = bboxSplit s.fl.list b max := by simp [regionSplit, hb]
  by_cases hout : (bboxSplit s.fl.list b max).1.length > 0
  · right
    have hperm := C60_conserves s.fl.list b max
    have hnd : ((bboxSplit s.fl.list b max).1.map Item.uid ++ (bboxSplit s.fl.list b max).2.map Item.uid).Nodup := by
      rw [← List.map_append]
      exact (hperm.map _).nodup_iff.2 hf.1
    rw [List.nodup_append] at hnd
    have hsave := save_spec (bboxSplit s.fl.list b max).1 s.fl.attached hnd.1
      (fun i hi => hf.2 i (hperm.mem_iff.1 (List.mem_append_left _ hi)))
    refine ⟨(bboxSplit s.fl.list b max).1,
      ⟨{ list := (bboxSplit s.fl.list b max).2, attached := (save (bboxSplit s.fl.list b max).1 s.fl.attached).2,
         map := fun k => if k = r.id then some (bboxSplit s.fl.list b max).1 else s.fl.map k },
       match ask with
       | some a => (a s.mon (total - (bboxSplit s.fl.list b max).2.length) total).2
       | none => s.mon⟩, ?_, ?_, e4, ?_, ⟨hnd.2.1, ?_⟩, ?_, ?_, ?_, ?_, ?_, ?_, ?_, ?_, ?_⟩
    · cases ask with
      | none => simp [flrHandler, hsplit, hout, hsave.1]
      | some a => simp [flrHandler, hsplit, hout, hsave.1, hyes a rfl]
    · intro h; rw [h] at hout; simp at hout
    · intro i hi
      rw [e2] at hi
      exact (List.mem_filter.1 hi).2
    · intro i hi
      simp only [hsave.2, not_or]
      refine ⟨hf.2 i (hperm.mem_iff.1 (List.mem_append_right _ hi)), ?_⟩
      intro hm
      exact hnd.2.2 _ hm _ (List.mem_map.2 ⟨i, hi, rfl⟩) rfl
    · have := hperm.length_eq
      simp only [List.length_append] at this
      simp only
      omega
    · simp only
      rw [e3]
      conv => rhs; rw [e1]
      exact List.filter_sublist.append (List.Sublist.refl _)
    · rw [e2]
      conv => rhs; rw [e1]
      exact List.filter_sublist.trans (List.sublist_append_left _ _)
    · simp only
      rw [e3]
      conv => rhs; rw [e1]
      simp [List.filter_filter]
    · simp only
      rw [e3, e2]
      conv => rhs; rw [e1]
      simp [List.filter_filter]
    · intro j hj hin
      simp only at hj
      rw [e3] at hj
      have hj : j ∈ back := by
        rcases List.mem_append.1 hj with hj | hj
        · have := (List.mem_filter.1 hj).2
          rw [hin] at this
          cases this
        · exact hj
      refine ⟨?_, ?_⟩
      · rcases e5 with e5 | rfl
        · exact e5.1
        · cases hj
      · intro hs i hi
        rw [e2] at hi
        rw [e1] at hs
        exact (List.pairwise_append.1 hs).2.2 i (List.mem_filter.1 hi).1 j hj
    · simp
    · intro k hk; simp [hk]
    · intro a ha
      subst ha
      rfl
  · left
    have h0 : (bboxSplit s.fl.list b max).1.length = 0 := by omega
    have hback : back = [] := by
      rcases e5 with e5 | e5
      · omega
      · exact e5
    subst hback
    have hnone : ∀ i ∈ s.fl.list, i.inside b = false := by
      intro i hi
      rw [e1] at hi
      have hz := List.length_eq_zero_iff.1 h0
      rw [e2, List.filter_eq_nil_iff] at hz
      simpa using hz i (by simpa using hi)
    refine ⟨?_, hnone⟩
    have hl : (bboxSplit s.fl.list b max).2 = s.fl.list := by
      rw [e3]
      simp only [List.append_nil] at e1 ⊢
      rw [← e1, List.filter_eq_self]
      intro i hi; simp [hnone i hi]
    simp [flrHandler, hsplit, hout, hl]

theorem inside_pos {b : Bbox K} {i : Item K} (h : i.inside b = true) : ∃ p, i.pos = some p ∧ Covers b p.1 p.2 := by
  unfold Item.inside at h
  cases hp : i.pos with
  | none => simp [hp] at h
  | some p =>
    simp only [hp, contains_iff] at h
    exact ⟨p, rfl, h⟩

theorem flr_region (mid : K → K → K) (hm : Between mid) (root : Bbox K) (max total : Nat)
    (ask : Option (M → Nat → Nat → Bool × M)) (hyes : ∀ a, ask = some a → ∀ m c, (a m c total).1 = true)
    (name : Option Str) (n : Nat) :
    ∀ (st : RState (FlrState K M) (List (Item K))) (r : Region K A L) (path : List Quadrant) (a : A),
      Free st.h.fl → st.h.fl.list.length < n → ByScore st.h.fl.list → st.h.fl.list.length ≤ total →
      r.id = qidAt path → r.box = some (cellAt mid root path, a) →
      ∃ res st', regionate mid (flrHandler (A := A) (L := L) max total ask) name n st r = some (res, st') ∧
        FlrStep mid root max total ask (r.id <+: ·) (Item.inside (cellAt mid root path)) st st' ∧
        ∀ k, ¬ r.id <+: k → st'.h.fl.map k = st.h.fl.map k := by
  induction n with
  | zero => intro st r path a _ h; omega
  | succ n ih =>
    intro st r path a hf hlen hs ht hid hb
    rcases flr_hasData max total ask hyes st.h hf r _ a hb with
      ⟨h1, h2⟩ | ⟨out, s', h1, h4, h5, h6, h7, h8, hsub, hsub', h9, h10, hrest, h11, h12, hmon⟩
    · refine ⟨false, st, ?_, ⟨hf, ?_, rfl, ⟨[], by simp, ?_, by simp, by simp⟩, fun _ _ => ⟨[], .stay, rfl⟩⟩, fun _ _ => rfl⟩
      · simp only [regionate, h1, if_true]
      · symm
        rw [List.filter_eq_self]
        intro i hi; simp [h2 i hi]
      · have : st.h.fl.list.filter (Item.inside (cellAt mid root path)) = [] := by
          rw [List.filter_eq_nil_iff]
          intro i hi; simp [h2 i hi]
        simp [this]
    · have hchild : ∀ (q : Quadrant) (st : RState (FlrState K M) (List (Item K))), Free st.h.fl → st.h.fl.list.length < n →
          ByScore st.h.fl.list → st.h.fl.list.length ≤ total →
          ∃ res st', regionate mid (flrHandler (A := A) (L := L) max total ask) name n st
              { createChildRegion mid r q with id := childQid r.id q } = some (res, st') ∧
            FlrStep mid root max total ask (childQid r.id q <+: ·) (Item.inside (childBox mid (cellAt mid root path) q)) st st' ∧
            ∀ k, ¬ childQid r.id q <+: k → st'.h.fl.map k = st.h.fl.map k := by
        intro q st hf hl hs ht
        obtain ⟨res, st', e1, e2, e3⟩ := ih st { createChildRegion mid r q with id := childQid r.id q } (path ++ [q]) a hf hl hs ht
          (by simp [qidAt_child, hid]) (by simp [createChildRegion, hb, cellAt])
        have hc : cellAt mid root (path ++ [q]) = childBox mid (cellAt mid root path) q := by simp [cellAt]
        rw [hc] at e2
        exact ⟨res, st', e1, e2, e3⟩
      obtain ⟨cs, st2, e1, e2, e3, e4⟩ := flr_children mid root max total ask n name r _ hchild [.nw, .ne, .sw, .se]
        { st with h := s', count := st.count + 1, map := fun k => if k = r.id then st.count + 1 else st.map k }
        (by decide) h7 (by simp only; omega) (hs.sublist hsub) (by simp only; omega)
      simp only at e3 e4
      have hp : Proper (cellAt mid root path) := by
        cases out with
        | nil => exact absurd rfl h4
        | cons i out => exact proper_of_inside (h6 i (by simp))
      have htaken : (fun i : Item K => [Quadrant.nw, .ne, .sw, .se].any fun q => i.inside (childBox mid (cellAt mid root path) q))
          = Item.inside (cellAt mid root path) := by
        funext i
        rw [Bool.eq_iff_iff, ← inside_child mid hm _ hp i, List.any_eq_true]
        constructor
        · rintro ⟨q, _, h⟩; exact ⟨q, h⟩
        · rintro ⟨q, h⟩; exact ⟨q, by cases q <;> simp, h⟩
      rw [htaken] at e2
      obtain ⟨new, f1, f2, f3, f4⟩ := e2.files
      have hget : (flrHandler (A := A) (L := L) max total ask).getFeature st2.h r = (some out, st2.h) := by
        simp [flrHandler, e3, h11]
      have hbelow : ∀ g ∈ new, r.id <+: g.id ∧ r.id ≠ g.id := by
        intro g hg
        obtain ⟨q, _, hq⟩ := (f3 g hg).2
        refine ⟨(List.prefix_append _ _).trans hq, fun e => ?_⟩
        have := hq.length_le
        rw [childQid_length, ← e] at this
        omega
      have habove : ∀ g ∈ new, out.length = max ∧ ∀ i ∈ out, ∀ j ∈ g.feature, j.score ≤ i.score := by
        intro g hg
        have hin : ∀ j ∈ g.feature, j ∈ s'.fl.list ∧ j.inside (cellAt mid root path) = true := by
          intro j hj
          exact List.mem_filter.1 (f2.mem_iff.1 (List.mem_flatMap.2 ⟨g, hg, hj⟩))
        refine ⟨?_, fun i hi j hj => (hrest j (hin j hj).1 (hin j hj).2).2 hs i hi⟩
        obtain ⟨j, hj⟩ := List.exists_mem_of_ne_nil _ (f3 g hg).1.some
        exact (hrest j (hin j hj).1 (hin j hj).2).1
      refine ⟨true, { st2 with saved := st2.saved ++ [⟨r.id, regionFilename name st2.map r.id,
        cs.map fun c => regionFilename name st2.map c.id, out⟩] }, ?_, ⟨e2.free, ?_, e2.nulls,
        ⟨new ++ [⟨r.id, regionFilename name st2.map r.id, cs.map fun c => regionFilename name st2.map c.id, out⟩], ?_, ?_, ?_, ?_⟩, ?_⟩, ?_⟩
      · simp only [regionate, h1, e1, hget]
        rfl
      · simp only [e2.list]
        exact h9
      · simp only [f1, List.append_assoc]
      · rw [List.flatMap_append]
        simp only [List.flatMap_cons, List.flatMap_nil, List.append_nil]
        exact (List.perm_append_comm.trans (List.Perm.append_left _ f2)).trans h10
      · intro f hf'
        rcases List.mem_append.1 hf' with hf' | hf'
        · exact ⟨(f3 f hf').1, (hbelow f hf').1⟩
        · simp only [List.mem_singleton] at hf'
          subst hf'
          exact ⟨⟨h4, h5, hs.sublist hsub', path, hid, fun i hi => inside_pos (h6 i hi)⟩, List.prefix_refl _⟩
      · intro f hf g hg
        rcases List.mem_append.1 hf with hf | hf <;> rcases List.mem_append.1 hg with hg | hg
        · exact f4 f hf g hg
        · simp only [List.mem_singleton] at hg
          subst hg
          intro h1 h2
          exact absurd (h1.eq_of_length_le (hbelow f hf).1.length_le) h2
        · simp only [List.mem_singleton] at hf
          subst hf
          exact fun _ _ => habove g hg
        · simp only [List.mem_singleton] at hf hg
          subst hf hg
          exact fun _ h => absurd rfl h
      · intro m hm
        obtain ⟨counts, g1, g2⟩ := e2.told m hm
        refine ⟨(total - s'.fl.list.length) :: counts, .step (by omega) g1, ?_⟩
        rw [show ({ st2 with saved := _ } : RState (FlrState K M) (List (Item K))).h.mon = st2.h.mon from rfl, g2]
        rw [show ({ st with h := s', count := _, map := _ } : RState (FlrState K M) (List (Item K))).h.mon = s'.mon from rfl, hmon m hm]
        rfl
      · intro k hk
        rw [e4 k hk, h12 k (by rintro rfl; exact hk (List.prefix_refl _))]

theorem boundingBox_around (l : List (Item K)) (b : Bbox K) : computeBoundingBox l b = around b (l.filterMap Item.pos) := by
  induction l generalizing b with
  | nil => rfl
  | cons j js ih =>
    simp only [computeBoundingBox, List.foldl_cons, List.filterMap_cons] at ih ⊢
    cases hj : j.pos with
    | none => simp only [ih]
    | some q => simp only [ih]; rfl

theorem onMap_iff {lo hi : K} (h : lo ≤ hi) (items : List (Item K)) :
    Within (computeBoundingBox items (.init lo hi)) ⟨hi, lo, hi, lo⟩ ↔ OnMap lo hi items := by
  rw [boundingBox_around, within_around]
  constructor
  · rintro ⟨_, h2⟩ i hi p hp
    exact h2 p (List.mem_filterMap.2 ⟨i, hi, hp⟩)
  · intro h1
    refine ⟨⟨h, h, h, h⟩, fun p hp => ?_⟩
    obtain ⟨i, hi, hp⟩ := List.mem_filterMap.1 hp
    exact h1 i hi p hp

/-- **C88.** Regionating a list of distinct features without parent, all of whose positions are on the map, with a
monitor that never stops or with none, completes and succeeds; the list given keeps all its features and is sorted by
score.  Every feature with a position is written to exactly one file.  The files are as they should be below the
region of a cell of the quadtree of the map; a file with files below it is full, and no feature in a file has a higher
score than one in a file above it.  The monitor is told growing counts, the last of which is the number of features with
a position. -/
theorem C88_complete (mid : K → K → K) (hm : Between mid) (lo hi : K) (hlo : lo ≤ hi) (max : Nat)
    (ask : Option (M → Nat → Nat → Bool × M)) (mon : M) (attached : List Nat) (items : List (Item K))
    (hyes : ∀ a, ask = some a → ∀ m c, (a m c items.length).1 = true)
    (hnd : (items.map Item.uid).Nodup) (hfree : ∀ i ∈ items, i.uid ∉ attached) (hmap : OnMap lo hi items) :
    ∃ fuel st root level, flrRegionate mid lo hi max ask mon attached fuel (some items) = some (true, some (sortByScore items), st) ∧
      Cell mid ⟨hi, lo, hi, lo⟩ level root ∧
      (st.saved.flatMap File.feature).Perm (items.filter fun i => i.pos.isSome) ∧
      (∀ f ∈ st.saved, FlrFile mid root max f) ∧ (∀ f ∈ st.saved, ∀ g ∈ st.saved, Above max f g) ∧ st.nulls = 0 ∧
      ∀ a, ask = some a → ∃ counts, Climbs 0 (items.filter fun i => i.pos.isSome).length counts ∧
        st.h.mon = toldAll a items.length mon counts := by
  obtain ⟨hperm, hsort, _⟩ := C60_sort items
  have hw := (onMap_iff hlo items).2 hmap
  obtain ⟨level, _, hcell, hin, _⟩ := C42_align_partial mid _ _ 24 hw
  have hc : createAligned mid lo hi (computeBoundingBox items (.init lo hi)) =
      some ((computeBoundingBox items (.init lo hi)).align mid ⟨hi, lo, hi, lo⟩ 24) := by
    unfold createAligned
    rw [if_pos ((containedByBbox_iff _ _).2 hw)]
  generalize (computeBoundingBox items (.init lo hi)).align mid ⟨hi, lo, hi, lo⟩ 24 = root at hcell hin hc
  have hin' : ∀ i ∈ items, i.inside root = i.pos.isSome := by
    intro i hi'
    unfold Item.inside
    cases hp : i.pos with
    | none => rfl
    | some p =>
      have hcov := ((C60_bounding_box items (.init lo hi) _).1 ⟨le_refl _, le_refl _, le_refl _, le_refl _⟩).2 i hi' p hp
      obtain ⟨a1, a2, a3, a4⟩ := hin
      obtain ⟨b1, b2, b3, b4⟩ := hcov
      exact (contains_iff _ _ _).2 ⟨le_trans a1 b1, le_trans b2 a2, le_trans a3 b3, le_trans b4 a4⟩
  have hl := hperm.length_eq
  obtain ⟨res, st, e1, e2, _⟩ := flr_region (A := Unit) (L := Int × Int) mid hm root max items.length ask hyes none (items.length + 1)
    { h := ⟨{ list := sortByScore items, attached := attached }, mon⟩ }
    { id := rootQid, box := some (root, ()), lod := some (256, -1) } [] ()
    ⟨(hperm.map _).nodup_iff.2 hnd, fun i hi => hfree i (hperm.mem_iff.1 hi)⟩ (by simp only; omega) hsort (by simp only; omega) rfl rfl
  obtain ⟨new, f1, f2, f3, f4⟩ := e2.files
  simp only [List.nil_append] at f1
  have hfil : (sortByScore items).filter (Item.inside root) = (sortByScore items).filter fun i => i.pos.isSome :=
    List.filter_congr fun i hi => hin' i (hperm.mem_iff.1 hi)
  refine ⟨items.length + 1, st, root, level, ?_, hcell, ?_, ?_, ?_, e2.nulls, ?_⟩
  · simp only [flrRegionate, regionateAligned, createRegion2d, Option.bind, hc, Option.map_some, regionateRoot, e1]
  · rw [f1]
    refine f2.trans ?_
    simp only
    rw [show cellAt mid root [] = root from rfl, hfil]
    exact hperm.filter _
  · rw [f1]; exact fun f hf => (f3 f hf).1
  · rw [f1]; exact f4
  · intro a ha
    obtain ⟨counts, g1, g2⟩ := e2.told a ha
    refine ⟨counts, ?_, g2⟩
    have h0 : items.length - (sortByScore items).length = 0 := by omega
    have hlen : st.h.fl.list.length + (items.filter fun i => i.pos.isSome).length = items.length := by
      rw [e2.list]
      simp only
      rw [show cellAt mid root [] = root from rfl]
      have h1 : ((sortByScore items).filter fun i => !i.inside root).length = (items.filter fun i => !i.pos.isSome).length := by
        rw [List.filter_congr (q := fun i => !i.pos.isSome) fun i hi => by rw [hin' i (hperm.mem_iff.1 hi)]]
        exact (hperm.filter _).length_eq
      rw [h1]
      have := List.filter_append_perm (fun i : Item K => i.pos.isSome) items
      have := this.length_eq
      simp only [List.length_append] at this
      omega
    simp only [h0] at g1
    rw [show items.length - st.h.fl.list.length = (items.filter fun i => i.pos.isSome).length by omega] at g1
    exact g1

/-- **C88, off the map.** With a feature whose position is not on the map, or without a list, nothing is written and
false is returned. -/
theorem C88_off_map (mid : K → K → K) (lo hi : K) (hlo : lo ≤ hi) (max : Nat)
    (ask : Option (M → Nat → Nat → Bool × M)) (mon : M) (attached : List Nat) (fuel : Nat) (items : List (Item K))
    (hmap : ¬ OnMap lo hi items) :
    (∃ st, flrRegionate mid lo hi max ask mon attached fuel (some items) = some (false, some (sortByScore items), st) ∧
      st.saved = [] ∧ st.h.mon = mon) ∧
    ∃ st, flrRegionate mid lo hi max ask mon attached fuel none = some (false, none, st) ∧ st.saved = [] := by
  refine ⟨⟨{ h := ⟨{ list := sortByScore items, attached := attached }, mon⟩ }, ?_, rfl, rfl⟩, ⟨_, rfl, rfl⟩⟩
  have hc : createAligned mid lo hi (computeBoundingBox items (.init lo hi)) = none := by
    unfold createAligned
    rw [if_neg (fun h => hmap ((onMap_iff hlo items).1 ((containedByBbox_iff _ _).1 h)))]
  simp only [flrRegionate, regionateAligned, createRegion2d, Option.bind, hc, Option.map_none, Option.map_some]

/-! #### Any monitor -/

/-- What visiting some regions does, whatever the monitor says. -/
structure AnyStep (mid : K → K → K) (root : Bbox K) (max : Nat) (st st' : RState (FlrState K M) (List (Item K))) : Prop where
  free : Free st'.h.fl
  sub : st'.h.fl.list.Sublist st.h.fl.list
  files : ∃ new, st'.saved = st.saved ++ new ∧ (new.flatMap File.feature ++ st'.h.fl.list).Subperm st.h.fl.list ∧
    ∀ f ∈ new, FlrFile mid root max f

theorem AnyStep.trans {mid : K → K → K} {root : Bbox K} {max : Nat} {a b c : RState (FlrState K M) (List (Item K))}
    (h1 : AnyStep mid root max a b) (h2 : AnyStep mid root max b c) : AnyStep mid root max a c := by
  obtain ⟨n1, e1, e2, e3⟩ := h1.files
  obtain ⟨n2, f1, f2, f3⟩ := h2.files
  refine ⟨h2.free, h2.sub.trans h1.sub, n1 ++ n2, ?_, ?_, ?_⟩
  · rw [f1, e1, List.append_assoc]
  · rw [List.flatMap_append, List.append_assoc]
    exact ((List.subperm_append_left _).2 f2).trans e2
  · intro f hf
    rcases List.mem_append.1 hf with hf | hf
    · exact e3 f hf
    · exact f3 f hf

theorem any_children (mid : K → K → K) (root : Bbox K) (max total : Nat) (ask : Option (M → Nat → Nat → Bool × M))
    (n : Nat) (name : Option Str) (r : Region K A L)
    (ih : ∀ (q : Quadrant) (st : RState (FlrState K M) (List (Item K))), Free st.h.fl → st.h.fl.list.length < n →
      ByScore st.h.fl.list →
      ∃ res st', regionate mid (flrHandler (A := A) (L := L) max total ask) name n st
          { createChildRegion mid r q with id := childQid r.id q } = some (res, st') ∧
        AnyStep mid root max st st' ∧ ∀ k, ¬ childQid r.id q <+: k → st'.h.fl.map k = st.h.fl.map k) :
    ∀ (qs : List Quadrant) (st : RState (FlrState K M) (List (Item K))), Free st.h.fl → st.h.fl.list.length < n →
      ByScore st.h.fl.list →
      ∃ cs st', recurseAll mid (regionate mid (flrHandler (A := A) (L := L) max total ask) name n) r qs st = some (cs, st') ∧
        AnyStep mid root max st st' ∧
        st'.h.fl.map r.id = st.h.fl.map r.id ∧ ∀ k, ¬ r.id <+: k → st'.h.fl.map k = st.h.fl.map k := by
  intro qs
  induction qs with
  | nil =>
    intro st hf _ _
    exact ⟨[], st, rfl, ⟨hf, List.Sublist.refl _, [], by simp, List.Subperm.refl _, by simp⟩, rfl, fun _ _ => rfl⟩
  | cons q qs ihq =>
    intro st hf hlen hs
    obtain ⟨res, st1, e1, s1, m1⟩ := ih q st hf hlen hs
    have hle := s1.sub.length_le
    obtain ⟨cs, st2, e2, s2, m2, m3⟩ := ihq st1 s1.free (by omega) (hs.sublist s1.sub)
    refine ⟨if res then { createChildRegion mid r q with id := childQid r.id q } :: cs else cs, st2, ?_, s1.trans s2, ?_, ?_⟩
    · simp only [recurseAll, e1, e2]
    · rw [m2, m1 _ (fun h => by have := h.length_le; rw [childQid_length] at this; omega)]
    · intro k hk
      rw [m3 k hk, m1 k (fun h => hk ((List.prefix_append _ _).trans h))]

/-- `HasData`, whatever the monitor says. -/
theorem any_hasData (max total : Nat) (ask : Option (M → Nat → Nat → Bool × M)) (s : FlrState K M) (hf : Free s.fl)
    (r : Region K A L) (b : Bbox K) (a : A) (hb : r.box = some (b, a)) :
    (flrHandler (A := A) (L := L) max total ask).hasData s r = (false, s) ∨
    ∃ res out s', (flrHandler (A := A) (L := L) max total ask).hasData s r = (res, s') ∧ out ≠ [] ∧
      (max = 0 ∨ out.length ≤ max) ∧ (∀ i ∈ out, i.inside b = true) ∧ Free s'.fl ∧ s'.fl.list.length < s.fl.list.length ∧
      s'.fl.list.Sublist s.fl.list ∧ out.Sublist s.fl.list ∧ (out ++ s'.fl.list).Perm s.fl.list ∧
      s'.fl.map r.id = some out ∧ (∀ k, k ≠ r.id → s'.fl.map k = s.fl.map k) := by
  have key := flr_hasData max total (none : Option (M → Nat → Nat → Bool × M)) (fun a h => by cases h) s hf r b a hb
  have hsplit : regionSplit s.fl.list r max = bboxSplit s.fl.list b max := by simp [regionSplit, hb]
  have hperm := C60_conserves s.fl.list b max
  rcases key with ⟨h1, _⟩ | ⟨out, s', h1, h4, h5, h6, h7, h8, hsub, hsub', _, _, _, h11, h12, _⟩
  · left
    rw [← h1]
    simp only [flrHandler] at h1 ⊢
    split
    · rename_i hout
      rw [if_pos hout] at h1
      cases h1
    · rfl
  · right
    have hout : (bboxSplit s.fl.list b max).1.length > 0 := by
      by_contra hout
      simp [flrHandler, hsplit, hout] at h1
    have hs' : s' = ⟨{ list := (bboxSplit s.fl.list b max).2, attached := (save (bboxSplit s.fl.list b max).1 s.fl.attached).2, map := fun k => if k = r.id then some (save (bboxSplit s.fl.list b max).1 s.fl.attached).1 else s.fl.map k }, s.mon⟩ := by
      simp only [flrHandler, hsplit, if_pos hout] at h1
      exact (Prod.mk.inj h1).2.symm
    have hout' : out = (bboxSplit s.fl.list b max).1 := by
      have hnd : ((bboxSplit s.fl.list b max).1.map Item.uid ++ (bboxSplit s.fl.list b max).2.map Item.uid).Nodup := by
        rw [← List.map_append]
        exact (hperm.map _).nodup_iff.2 hf.1
      rw [List.nodup_append] at hnd
      have hsave := C60_save (bboxSplit s.fl.list b max).1 s.fl.attached hnd.1
        (fun i hi => hf.2 i (hperm.mem_iff.1 (List.mem_append_left _ hi)))
      rw [hs'] at h11
      simp only [if_true, hsave, Option.some.injEq] at h11
      exact h11.symm
    cases ask with
    | none => exact ⟨true, out, s', h1, h4, h5, h6, h7, h8, hsub, hsub', by rw [hs', hout']; exact hperm, h11, h12⟩
    | some ask =>
      refine ⟨(ask s.mon (total - (bboxSplit s.fl.list b max).2.length) total).1, out,
        ⟨s'.fl, (ask s.mon (total - (bboxSplit s.fl.list b max).2.length) total).2⟩, ?_,
        h4, h5, h6, h7, h8, hsub, hsub', by rw [hs', hout']; exact hperm, h11, h12⟩
      simp only [flrHandler, hsplit, if_pos hout, hs']

theorem any_region (mid : K → K → K) (root : Bbox K) (max total : Nat) (ask : Option (M → Nat → Nat → Bool × M))
    (name : Option Str) (n : Nat) :
    ∀ (st : RState (FlrState K M) (List (Item K))) (r : Region K A L) (path : List Quadrant) (a : A),
      Free st.h.fl → st.h.fl.list.length < n → ByScore st.h.fl.list →
      r.id = qidAt path → r.box = some (cellAt mid root path, a) →
      ∃ res st', regionate mid (flrHandler (A := A) (L := L) max total ask) name n st r = some (res, st') ∧
        AnyStep mid root max st st' ∧ ∀ k, ¬ r.id <+: k → st'.h.fl.map k = st.h.fl.map k := by
  induction n with
  | zero => intro st r path a _ h; omega
  | succ n ih =>
    intro st r path a hf hlen hs hid hb
    rcases any_hasData max total ask st.h hf r _ a hb with
      h1 | ⟨res, out, s', h1, h4, h5, h6, h7, h8, hsub, hsub', h10, h11, h12⟩
    · refine ⟨false, st, ?_, ⟨hf, List.Sublist.refl _, [], by simp, List.Subperm.refl _, by simp⟩, fun _ _ => rfl⟩
      simp only [regionate, h1, if_true]
    cases res with
    | false =>
      refine ⟨false, { st with h := s' }, ?_, ⟨h7, hsub, [], by simp, ?_, by simp⟩, ?_⟩
      · simp only [regionate, h1, if_true]
      · exact hsub.subperm
      · intro k hk
        exact h12 k (by rintro rfl; exact hk (List.prefix_refl _))
    | true =>
      have hchild : ∀ (q : Quadrant) (st : RState (FlrState K M) (List (Item K))), Free st.h.fl → st.h.fl.list.length < n →
          ByScore st.h.fl.list →
          ∃ res st', regionate mid (flrHandler (A := A) (L := L) max total ask) name n st
              { createChildRegion mid r q with id := childQid r.id q } = some (res, st') ∧
            AnyStep mid root max st st' ∧ ∀ k, ¬ childQid r.id q <+: k → st'.h.fl.map k = st.h.fl.map k := by
        intro q st hf hl hs
        exact ih st { createChildRegion mid r q with id := childQid r.id q } (path ++ [q]) a hf hl hs
          (by simp [qidAt_child, hid]) (by simp [createChildRegion, hb, cellAt])
      obtain ⟨cs, st2, e1, e2, e3, e4⟩ := any_children mid root max total ask n name r hchild [.nw, .ne, .sw, .se]
        { st with h := s', count := st.count + 1, map := fun k => if k = r.id then st.count + 1 else st.map k }
        h7 (by simp only; omega) (hs.sublist hsub)
      simp only at e3 e4
      obtain ⟨new, f1, f2, f3⟩ := e2.files
      have hget : (flrHandler (A := A) (L := L) max total ask).getFeature st2.h r = (some out, st2.h) := by
        simp [flrHandler, e3, h11]
      refine ⟨true, { st2 with saved := st2.saved ++ [⟨r.id, regionFilename name st2.map r.id,
        cs.map fun c => regionFilename name st2.map c.id, out⟩] }, ?_, ⟨e2.free, e2.sub.trans hsub,
        new ++ [⟨r.id, regionFilename name st2.map r.id, cs.map fun c => regionFilename name st2.map c.id, out⟩], ?_, ?_, ?_⟩, ?_⟩
      · simp only [regionate, h1, e1, hget]
        rfl
      · simp only [f1, List.append_assoc]
      · rw [List.flatMap_append]
        simp only [List.flatMap_cons, List.flatMap_nil, List.append_nil]
        refine (List.Perm.subperm ?_).trans (((List.subperm_append_left out).2 f2).trans h10.subperm)
        rw [← List.append_assoc]
        exact List.perm_append_comm.append_right _
      · intro f hf'
        rcases List.mem_append.1 hf' with hf' | hf'
        · exact f3 f hf'
        · simp only [List.mem_singleton] at hf'
          subst hf'
          exact ⟨h4, h5, hs.sublist hsub', path, hid, fun i hi => inside_pos (h6 i hi)⟩
      · intro k hk
        rw [e4 k hk, h12 k (by rintro rfl; exact hk (List.prefix_refl _))]

/-- **C88, any monitor.** Whatever the monitor says and whenever it says stop, regionation completes, no feature is
written twice, and every file is as it should be. -/
theorem C88_any_monitor (mid : K → K → K) (lo hi : K) (max : Nat)
    (ask : Option (M → Nat → Nat → Bool × M)) (mon : M) (attached : List Nat) (items : List (Item K))
    (hnd : (items.map Item.uid).Nodup) (hfree : ∀ i ∈ items, i.uid ∉ attached) :
    ∃ fuel res st root level, flrRegionate mid lo hi max ask mon attached fuel (some items) =
        some (res, some (sortByScore items), st) ∧ Cell mid ⟨hi, lo, hi, lo⟩ level root ∧
      (st.saved.flatMap File.feature).Subperm items ∧ ∀ f ∈ st.saved, FlrFile mid root max f := by
  obtain ⟨hperm, hsort, _⟩ := C60_sort items
  cases hc : createAligned mid lo hi (computeBoundingBox items (.init lo hi)) with
  | none =>
    refine ⟨1, false, { h := ⟨{ list := sortByScore items, attached := attached }, mon⟩ }, _, 0, ?_, .root, ?_, ?_⟩
    · simp only [flrRegionate, regionateAligned, createRegion2d, Option.bind, hc, Option.map_none, Option.map_some]
    · exact List.nil_subperm
    · intro f hf; cases hf
  | some root =>
    have hl := hperm.length_eq
    obtain ⟨res, st, e1, e2, _⟩ := any_region (A := Unit) (L := Int × Int) mid root max items.length ask none (items.length + 1)
      { h := ⟨{ list := sortByScore items, attached := attached }, mon⟩ }
      { id := rootQid, box := some (root, ()), lod := some (256, -1) } [] ()
      ⟨(hperm.map _).nodup_iff.2 hnd, fun i hi => hfree i (hperm.mem_iff.1 hi)⟩ (by simp only; omega) hsort rfl rfl
    obtain ⟨new, f1, f2, f3⟩ := e2.files
    simp only [List.nil_append] at f1
    have hroot : ∃ level, level ≤ 25 ∧ Cell mid ⟨hi, lo, hi, lo⟩ level root := by
      unfold createAligned at hc
      split at hc
      · cases hc
        exact C42_always_cell mid _ _ 24
      · cases hc
    obtain ⟨level, _, hcell⟩ := hroot
    refine ⟨items.length + 1, true, st, root, level, ?_, hcell, ?_, ?_⟩
    · simp only [flrRegionate, regionateAligned, createRegion2d, Option.bind, hc, Option.map_some, regionateRoot, e1]
    · rw [f1]
      exact ((List.sublist_append_left _ _).subperm.trans f2).trans hperm.subperm
    · rw [f1]; exact f3

/-! #### Examples -/

/-- Three features at one place, with the scores 3, 2 and 1, one elsewhere and one without a position. -/
def scoredItems : List (Item Int) :=
  [⟨1, some (5, 5), some [(scoreName, ['3'])]⟩, ⟨2, some (5, 5), some [(scoreName, ['2'])]⟩,
   ⟨3, some (5, 5), some [(scoreName, ['1'])]⟩, ⟨4, some (-90, 5), none⟩, ⟨5, none, none⟩]

theorem scoredItems_sorted : sortByScore scoredItems = scoredItems :=
  List.mergeSort_of_pairwise (by decide)

/-- The files of a regionation: name, links and features, and what the monitor knows. -/
def filesOf (max : Nat) (ask : Option (List Nat → Nat → Nat → Bool × List Nat)) (fuel : Nat) (items : List (Item Int)) :
    Option (Bool × List (Str × List Str × List Nat) × List Nat) :=
  (flrRegionate (fun a b => (a + b) / 2) (-180) 180 max ask [] [] fuel (some items)).map fun r =>
    (r.1, r.2.2.saved.map fun f => (f.name, f.links, f.feature.map Item.uid), r.2.2.h.mon)

/-- A monitor that notes the counts and goes on as long as they are below a bound. -/
def noteUpTo (bound : Nat) : List Nat → Nat → Nat → Bool × List Nat := fun m c _ => (decide (c < bound), m ++ [c])

/-- Three files with at most two features each. -/
example : filesOf 2 (some (noteUpTo 100)) 20 scoredItems = some (true,
    [(chars! "2.kml", [], [3]), (chars! "3.kml", [], [4]), (chars! "1.kml", [chars! "2.kml", chars! "3.kml"], [1, 2])],
    [2, 3, 4]) := by
  unfold filesOf flrRegionate
  dsimp only
  rw [scoredItems_sorted]
  rfl

/-- They meet the hypotheses. -/
example : (scoredItems.map Item.uid).Nodup ∧ OnMap (-180) 180 scoredItems ∧ Between (fun a b : Int => (a + b) / 2) := by
  refine ⟨by decide, ?_, ?_⟩
  · simp [OnMap, scoredItems]
  · intro a b h
    constructor <;> dsimp only <;> omega

/-- **C88 fails for a monitor that says stop.** feature_list_regionator.h promises that regionation then stops
immediately.  Here the monitor says stop at the count 2; it is asked again, with the count 3, and the features the
regions took in the meantime are in no file.  The result is true as if all had gone well. -/
theorem C88_stop_violated : filesOf 1 (some (noteUpTo 2)) 20 scoredItems =
    some (true, [(chars! "1.kml", [], [1])], [1, 2, 3]) := by
  unfold filesOf flrRegionate
  dsimp only
  rw [scoredItems_sorted]
  rfl

end Kml.Geo
