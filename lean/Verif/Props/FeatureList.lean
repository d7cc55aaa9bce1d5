import Verif.Model.FeatureList
import Verif.Props.Regionator
import Verif.Props.Location
/-! Properties C60 and C61: feature lists and their regionation. -/
namespace Kml.Geo
variable {K : Type u} [LinearOrder K] {A L : Type}

/-! #### C60 -/

theorem splitLoop_spec (b : Bbox K) (l : List (Item K)) : ∀ max, 0 < max ∨ l = [] →
    ∃ front back, l = front ++ back ∧ splitLoop b l max = (front.filter (Item.inside b), front.filter (fun i => !i.inside b) ++ back) ∧
      (front.filter (Item.inside b)).length ≤ max ∧ ((front.filter (Item.inside b)).length = max ∨ back = []) := by
  induction l with
  | nil => intro max _; exact ⟨[], [], rfl, by simp [splitLoop], by simp, by simp⟩
  | cons i is ih =>
    intro max hmax
    have hpos : 0 < max := by rcases hmax with h | h; exact h; cases h
    by_cases hi : i.inside b = true
    · by_cases h1 : max - 1 = 0
      · refine ⟨[i], is, rfl, ?_, ?_, ?_⟩
        · simp [splitLoop, hi, h1]
        · simp [hi]; omega
        · left; simp [hi]; omega
      · obtain ⟨front, back, e1, e2, e3, e4⟩ := ih (max - 1) (Or.inl (by omega))
        refine ⟨i :: front, back, by simp [e1], ?_, ?_, ?_⟩
        · simp [splitLoop, hi, h1, e2]
        · simp [hi]; omega
        · rcases e4 with e4 | e4
          · left; simp [hi]; omega
          · right; exact e4
    · obtain ⟨front, back, e1, e2, e3, e4⟩ := ih max (Or.inl hpos)
      refine ⟨i :: front, back, by simp [e1], ?_, ?_, ?_⟩
      · simp [splitLoop, hi, e2]
      · simpa [hi] using e3
      · simpa [hi] using e4

/-- Splitting cuts the list at one place: in front of it the features inside the box are moved to the output, in
order, and the others kept, in order; behind it everything is kept.  At most `max` features are moved; fewer only if
the place is the end of the list. -/
theorem C60_split (l : List (Item K)) (b : Bbox K) (max : Nat) (hmax : 0 < max) :
    ∃ front back, l = front ++ back ∧
      (bboxSplit l b max).1 = front.filter (Item.inside b) ∧
      (bboxSplit l b max).2 = front.filter (fun i => !i.inside b) ++ back ∧
      (bboxSplit l b max).1.length ≤ max ∧ ((bboxSplit l b max).1.length = max ∨ back = []) := by
  obtain ⟨front, back, e1, e2, e3, e4⟩ := splitLoop_spec b l max (Or.inl hmax)
  have : bboxSplit l b max = splitLoop b l max := by simp [bboxSplit, Nat.pos_iff_ne_zero.1 hmax]
  rw [this, e2]
  exact ⟨front, back, e1, rfl, rfl, e3, e4⟩

/-- A maximum of zero means all features inside the box. -/
theorem C60_split_all (l : List (Item K)) (b : Bbox K) :
    bboxSplit l b 0 = (l.filter (Item.inside b), l.filter (fun i => !i.inside b)) := by
  obtain ⟨front, back, e1, e2, e3, e4⟩ := splitLoop_spec b l l.length (by cases l <;> simp)
  have : bboxSplit l b 0 = splitLoop b l l.length := by simp [bboxSplit]
  rw [this, e2]
  rcases e4 with e4 | rfl
  · have h1 := List.length_filter_le (Item.inside b) front
    have h2 := congrArg List.length e1
    simp only [List.length_append] at h2
    have : back = [] := List.length_eq_zero_iff.1 (by omega)
    subst this
    simp [e1]
  · simp [e1]

/-- Nothing is lost or duplicated. -/
theorem C60_conserves (l : List (Item K)) (b : Bbox K) (max : Nat) :
    ((bboxSplit l b max).1 ++ (bboxSplit l b max).2).Perm l := by
  have key : ∀ front back : List (Item K),
      (front.filter (Item.inside b) ++ (front.filter (fun i => !i.inside b) ++ back)).Perm (front ++ back) := by
    intro front back
    rw [← List.append_assoc]
    exact (List.filter_append_perm _ _).append_right _
  rcases Nat.eq_zero_or_pos max with rfl | h
  · rw [C60_split_all]
    simpa using key l []
  · obtain ⟨front, back, e1, e2, e3, _⟩ := C60_split l b max h
    rw [e2, e3]
    conv => rhs; rw [e1]
    exact key front back

/-- A list of four features, split with room for two. -/
example : bboxSplit ([⟨1, some (5, 5), none⟩, ⟨2, some (50, 50), none⟩, ⟨3, some (6, 6), none⟩, ⟨4, some (7, 7), none⟩] : List (Item Int))
    ⟨10, 0, 10, 0⟩ 2
    = ([⟨1, some (5, 5), none⟩, ⟨3, some (6, 6), none⟩], [⟨2, some (50, 50), none⟩, ⟨4, some (7, 7), none⟩]) := by decide

theorem atoi_digits (n : Nat) : atoi (Nat.toDigits 10 n) = n ∧ atoi ('-' :: Nat.toDigits 10 n) = -n := by
  have hall : ∀ c ∈ Nat.toDigits 10 n, isDigit c = true := by
    intro c hc
    have := Nat.isDigit_of_mem_toDigits (by omega) (by omega) hc
    simp only [Char.isDigit, Bool.and_eq_true, decide_eq_true_eq, UInt32.le_iff_toNat_le] at this
    simp only [isDigit, Bool.and_eq_true, decide_eq_true_eq]
    exact this
  have hsum : ∀ (l : Str), (∀ c ∈ l, isDigit c = true) → ∀ a : Nat,
      l.foldl (fun (n : Int) c => 10 * n + ((c.toNat : Int) - 48)) (a : Int)
        = (l.foldl (fun sofar c => 10 * sofar + (c.toNat - '0'.toNat)) a : Nat) := by
    intro l
    induction l with
    | nil => intro _ a; rfl
    | cons c l ih =>
      intro hl a
      have hc := hl c (by simp)
      simp only [isDigit, Bool.and_eq_true, decide_eq_true_eq] at hc
      have h0 : '0'.toNat = 48 := rfl
      have := ih (fun c hc => hl c (by simp [hc])) (10 * a + (c.toNat - 48))
      simp only [List.foldl_cons, h0]
      rw [h0] at this
      rw [← this]
      congr 1
      omega
  have hval : (Nat.toDigits 10 n).foldl (fun sofar c => 10 * sofar + (c.toNat - '0'.toNat)) 0 = n := by
    have := @Nat.ofDigitChars_ten_toDigits n
    simpa [Nat.ofDigitChars] using this
  have hd : (Nat.toDigits 10 n).takeWhile isDigit = Nat.toDigits 10 n := by
    rw [← List.append_nil (Nat.toDigits 10 n), List.takeWhile_append_of_pos hall]
    simp
  have hmain := hsum _ hall 0
  rw [hval] at hmain
  have hns : ∀ c, isDigit c = true → isSpace c = false ∧ c ≠ '-' ∧ c ≠ '+' := by
    intro c hc
    simp only [isDigit, Bool.and_eq_true, decide_eq_true_eq] at hc
    refine ⟨?_, ?_, ?_⟩
    · simp only [isSpace, Bool.or_eq_false_iff, decide_eq_false_iff_not]
      refine ⟨⟨⟨⟨⟨?_, ?_⟩, ?_⟩, ?_⟩, ?_⟩, ?_⟩ <;> (rintro rfl; revert hc; decide)
    · rintro rfl; revert hc; decide
    · rintro rfl; revert hc; decide
  constructor
  · unfold atoi
    cases hds : Nat.toDigits 10 n with
    | nil => exact absurd hds (by simp)
    | cons c t =>
      rw [hds] at hall hd hmain
      obtain ⟨h1, h2, h3⟩ := hns c (hall c (by simp))
      have : (c :: t).dropWhile isSpace = c :: t := by simp [h1]
      rw [this]
      simp only
      split
      · rename_i h; simp only [List.cons.injEq] at h; exact absurd h.1 h2
      · rename_i h; simp only [List.cons.injEq] at h; exact absurd h.1 h3
      · rw [hd]; exact hmain
  · unfold atoi
    have : ('-' :: Nat.toDigits 10 n).dropWhile isSpace = '-' :: Nat.toDigits 10 n := by simp [isSpace]
    rw [this]
    simp only
    rw [hd]
    exact congrArg Neg.neg hmain

/-- The score of a feature is the number in its first datum named kml.FeatureScore. -/
theorem C60_score (i : Item K) (pre post : List (Str × Str)) (n : Nat) (hpre : ∀ d ∈ pre, d.1 ≠ "kml.FeatureScore".toList) :
    (i.data = some (pre ++ ("kml.FeatureScore".toList, Nat.toDigits 10 n) :: post) → i.score = n) ∧
    (i.data = some (pre ++ ("kml.FeatureScore".toList, '-' :: Nat.toDigits 10 n) :: post) → i.score = -n) ∧
    (i.data = some pre ∨ i.data = none → i.score = 0) := by
  have hs : "kml.FeatureScore".toList = scoreName := rfl
  rw [hs] at hpre ⊢
  have hnone : pre.find? (fun d => decide (d.1 = scoreName)) = none :=
    List.find?_eq_none.2 (by intro d hd; simpa only [decide_eq_true_eq] using hpre d hd)
  have hfind : ∀ (t : Str), (pre ++ (scoreName, t) :: post).find? (fun d => decide (d.1 = scoreName)) = some (scoreName, t) := by
    intro t
    rw [List.find?_append, hnone, List.find?_cons_of_pos (by simp only [decide_true])]
    rfl
  refine ⟨?_, ?_, ?_⟩
  · intro h; simp only [Item.score, h, Option.getD_some, hfind]; exact (atoi_digits n).1
  · intro h; simp only [Item.score, h, Option.getD_some, hfind]; exact (atoi_digits n).2
  · rintro (h | h)
    · simp only [Item.score, h, Option.getD_some, hnone]
    · simp only [Item.score, h, Option.getD_none, List.find?_nil]

/-- A score that was set is the score. -/
theorem C60_set_score (i : Item K) (n : Nat) :
    (i.setScore (Nat.toDigits 10 n)).score = n ∧ (i.setScore ('-' :: Nat.toDigits 10 n)).score = -n :=
  ⟨(C60_score _ [] [] n (by simp)).1 rfl, (C60_score _ [] [] n (by simp)).2.1 rfl⟩

/-- Sorting gives the same features in descending order of score, and features of equal score stay in order. -/
theorem C60_sort (l : List (Item K)) :
    (sortByScore l).Perm l ∧ (sortByScore l).Pairwise (fun a b => b.score ≤ a.score) ∧
    ∀ s : Int, (sortByScore l).filter (fun i => decide (i.score = s)) = l.filter (fun i => decide (i.score = s)) := by
  have tr : ∀ a b c : Item K, decide (b.score ≤ a.score) = true → decide (c.score ≤ b.score) = true → decide (c.score ≤ a.score) = true := by
    intro a b c h1 h2
    simp only [decide_eq_true_eq] at *
    omega
  have tot : ∀ a b : Item K, (decide (b.score ≤ a.score) || decide (a.score ≤ b.score)) = true := by
    intro a b
    simp only [Bool.or_eq_true, decide_eq_true_eq]
    omega
  have hp : (sortByScore l).Perm l := List.mergeSort_perm _ _
  refine ⟨hp, ?_, ?_⟩
  · have := List.pairwise_mergeSort tr tot l
    exact this.imp (fun h => by simpa using h)
  · intro s
    have hsub : (l.filter (fun i => decide (i.score = s))).Sublist (sortByScore l) := by
      apply List.sublist_mergeSort tr tot
      · rw [List.pairwise_iff_forall_sublist]
        intro a b hab
        have ha : a ∈ l.filter (fun i => decide (i.score = s)) := hab.subset (by simp)
        have hb : b ∈ l.filter (fun i => decide (i.score = s)) := hab.subset (by simp)
        simp only [List.mem_filter, decide_eq_true_eq] at ha hb ⊢
        omega
      · exact List.filter_sublist
    have h2 := hsub.filter (fun i => decide (i.score = s))
    rw [List.filter_filter] at h2
    simp only [Bool.and_self] at h2
    exact (h2.eq_of_length (by rw [(hp.filter _).length_eq])).symm

example : sortByScore ([⟨1, none, some [("kml.FeatureScore".toList, "2".toList)]⟩, ⟨2, none, some [("kml.FeatureScore".toList, " 12x".toList)]⟩,
    ⟨3, none, none⟩, ⟨4, none, some [("kml.FeatureScore".toList, "-7".toList)]⟩] : List (Item Int))
    = [⟨2, none, some [("kml.FeatureScore".toList, " 12x".toList)]⟩, ⟨1, none, some [("kml.FeatureScore".toList, "2".toList)]⟩,
      ⟨3, none, none⟩, ⟨4, none, some [("kml.FeatureScore".toList, "-7".toList)]⟩] := by
  have h1 : Item.score (⟨1, none, some [("kml.FeatureScore".toList, "2".toList)]⟩ : Item Int) = 2 := by decide
  have h2 : Item.score (⟨2, none, some [("kml.FeatureScore".toList, " 12x".toList)]⟩ : Item Int) = 12 := by decide
  have h3 : Item.score (⟨3, none, none⟩ : Item Int) = 0 := by decide
  have h4 : Item.score (⟨4, none, some [("kml.FeatureScore".toList, "-7".toList)]⟩ : Item Int) = -7 := by decide
  unfold sortByScore
  generalize (⟨1, none, some [("kml.FeatureScore".toList, "2".toList)]⟩ : Item Int) = a at *
  generalize (⟨2, none, some [("kml.FeatureScore".toList, " 12x".toList)]⟩ : Item Int) = b at *
  generalize (⟨3, none, none⟩ : Item Int) = c at *
  generalize (⟨4, none, some [("kml.FeatureScore".toList, "-7".toList)]⟩ : Item Int) = d at *
  simp [List.mergeSort, List.merge, List.MergeSort.Internal.splitInTwo, h1, h2, h3, h4]

theorem save_spec (l : List (Item K)) (attached : List Nat) (hnd : (l.map Item.uid).Nodup) (hfree : ∀ i ∈ l, i.uid ∉ attached) :
    (save l attached).1 = l ∧ ∀ n, n ∈ (save l attached).2 ↔ n ∈ attached ∨ n ∈ l.map Item.uid := by
  induction l generalizing attached with
  | nil => simp [save]
  | cons i is ih =>
    simp only [List.map_cons, List.nodup_cons] at hnd
    have h1 := hfree i (by simp)
    have := ih (i.uid :: attached) hnd.2 (by
      intro j hj
      simp only [List.mem_cons, not_or]
      refine ⟨?_, hfree j (by simp [hj])⟩
      intro e
      exact hnd.1 (e ▸ List.mem_map.2 ⟨j, hj, rfl⟩))
    refine ⟨by simp [save, h1, this.1], ?_⟩
    intro n
    simp only [save, h1, if_false, this.2, List.map_cons, List.mem_cons]
    tauto

/-- Saving distinct features without parent puts all of them into the container, in order. -/
theorem C60_save (l : List (Item K)) (attached : List Nat) (hnd : (l.map Item.uid).Nodup) (hfree : ∀ i ∈ l, i.uid ∉ attached) :
    (save l attached).1 = l := (save_spec l attached hnd hfree).1

/-- A feature that has a parent already is not put into the container, although it is counted as saved. -/
theorem C60_save_attached_violated : (save ([⟨1, none, none⟩] : List (Item Int)) [1]).1 = [] := by decide

/-- The bounding box of a list is the smallest box around the box given and the position of every feature in the list. -/
theorem C60_bounding_box (l : List (Item K)) (b c : Bbox K) :
    Within (computeBoundingBox l b) c ↔ Within b c ∧ ∀ i ∈ l, ∀ p, i.pos = some p → Covers c p.1 p.2 := by
  have : ∀ b, computeBoundingBox l b = around b (l.filterMap Item.pos) := by
    induction l with
    | nil => intro b; rfl
    | cons j js ih =>
      intro b
      simp only [computeBoundingBox, List.foldl_cons, List.filterMap_cons] at ih ⊢
      cases hj : j.pos with
      | none => simp only [ih]
      | some q => simp only [ih]; rfl
  rw [this, within_around]
  refine and_congr_right fun _ => ⟨fun h i hi p hp => h p (List.mem_filterMap.2 ⟨i, hi, hp⟩), fun h p hp => ?_⟩
  obtain ⟨i, hi, hp⟩ := List.mem_filterMap.1 hp
  exact h i hi p hp

example : computeBoundingBox [⟨1, some (3, 4), none⟩, ⟨2, none, none⟩, ⟨3, some (5, -1), none⟩] (Bbox.init (-180) 180 : Bbox Int)
    = ⟨5, 3, 4, -1⟩ := by decide

/-! #### C61 -/

/-- The box of the region reached from a root box by a path of quadrants. -/
def boxAt (mid : K → K → K) (b : Bbox K) (path : List Quadrant) : Bbox K := path.foldl (childBox mid) b

/-- The features are distinct and have no parent. -/
def Free (s : FlState K) : Prop := (s.list.map Item.uid).Nodup ∧ ∀ i ∈ s.list, i.uid ∉ s.attached

/-- A file as it should be: one to ten features, all inside the region of the file. -/
def GoodFile (mid : K → K → K) (root : Bbox K) (f : File (List (Item K))) : Prop :=
  1 ≤ f.feature.length ∧ f.feature.length ≤ 10 ∧
  ∃ path, f.id = qidAt path ∧ ∀ i ∈ f.feature, i.inside (boxAt mid root path) = true

structure Step (mid : K → K → K) (root : Bbox K) (taken : Item K → Bool) (st st' : RState (FlState K) (List (Item K))) : Prop where
  free : Free st'.h
  list : st'.h.list = st.h.list.filter fun i => !taken i
  nulls : st'.nulls = st.nulls
  files : ∃ new, st'.saved = st.saved ++ new ∧ (new.flatMap File.feature).Perm (st.h.list.filter taken) ∧
    ∀ f ∈ new, GoodFile mid root f

theorem Step.trans {mid : K → K → K} {root : Bbox K} {p q : Item K → Bool} {a b c : RState (FlState K) (List (Item K))}
    (h1 : Step mid root p a b) (h2 : Step mid root q b c) : Step mid root (fun i => p i || q i) a c := by
  obtain ⟨n1, e1, e2, e3⟩ := h1.files
  obtain ⟨n2, f1, f2, f3⟩ := h2.files
  refine ⟨h2.free, ?_, by rw [h2.nulls, h1.nulls], n1 ++ n2, ?_, ?_, ?_⟩
  · rw [h2.list, h1.list, List.filter_filter]
    apply List.filter_congr
    intro i _
    cases p i <;> cases q i <;> rfl
  · rw [f1, e1, List.append_assoc]
  · rw [List.flatMap_append]
    refine (e2.append f2).trans ?_
    rw [h1.list]
    generalize a.h.list = l
    induction l with
    | nil => simp
    | cons i l ih =>
      cases hp : p i <;> cases hq : q i <;> simp [hp, hq] at ih ⊢
      · exact ih
      · exact (List.perm_middle).trans (ih.cons i)
      · exact ih
      · exact ih
  · intro f hf
    rcases List.mem_append.1 hf with hf | hf
    · exact e3 f hf
    · exact f3 f hf

theorem boxAt_child (mid : K → K → K) (b : Bbox K) (path : List Quadrant) (q : Quadrant) :
    boxAt mid b (path ++ [q]) = childBox mid (boxAt mid b path) q := by simp [boxAt]

theorem qidAt_child (path : List Quadrant) (q : Quadrant) : qidAt (path ++ [q]) = childQid (qidAt path) q := by simp [qidAt]

theorem inside_child (mid : K → K → K) (hm : Between mid) (b : Bbox K) (hp : Proper b) (i : Item K) :
    (∃ q, i.inside (childBox mid b q) = true) ↔ i.inside b = true := by
  unfold Item.inside
  cases i.pos with
  | none => simp
  | some p =>
    simp only [contains_iff]
    constructor
    · rintro ⟨q, h⟩
      obtain ⟨⟨a1, a2, a3, a4⟩, _⟩ := C58_inside mid hm b hp q
      obtain ⟨b1, b2, b3, b4⟩ := h
      exact ⟨le_trans a1 b1, le_trans b2 a2, le_trans a3 b3, le_trans b4 a4⟩
    · exact C58_cover mid b p.1 p.2

theorem proper_of_inside {b : Bbox K} {i : Item K} (h : i.inside b = true) : Proper b := by
  unfold Item.inside at h
  cases hp : i.pos with
  | none => simp [hp] at h
  | some p =>
    simp only [hp, contains_iff] at h
    exact ⟨le_trans h.1 h.2.1, le_trans h.2.2.1 h.2.2.2⟩

/-- The children of a region, given what happens in each. -/
theorem children_step (mid : K → K → K) (root : Bbox K) (n : Nat) (name : Option Str) (r : Region K A L) (path : List Quadrant)
    (hid : r.id = qidAt path) (b : Bbox K) (a : A) (hb : r.box = some (b, a))
    (ih : ∀ (q : Quadrant) (st : RState (FlState K) (List (Item K))), Free st.h → st.h.list.length < n →
      ∃ res st', regionate mid (featureListHandler (A := A) (L := L)) name n st
          { createChildRegion mid r q with id := childQid r.id q } = some (res, st') ∧
        Step mid root (Item.inside (childBox mid b q)) st st' ∧
        ∀ k, ¬ childQid r.id q <+: k → st'.h.map k = st.h.map k) :
    ∀ (qs : List Quadrant) (st : RState (FlState K) (List (Item K))), Free st.h → st.h.list.length < n →
      ∃ cs st', recurseAll mid (regionate mid (featureListHandler (A := A) (L := L)) name n) r qs st = some (cs, st') ∧
        Step mid root (fun i => qs.any fun q => i.inside (childBox mid b q)) st st' ∧
        st'.h.map r.id = st.h.map r.id ∧ ∀ k, ¬ r.id <+: k → st'.h.map k = st.h.map k := by
  intro qs
  induction qs with
  | nil =>
    intro st hf _
    exact ⟨[], st, rfl, ⟨hf, by simp, rfl, [], by simp⟩, rfl, fun _ _ => rfl⟩
  | cons q qs ihq =>
    intro st hf hlen
    obtain ⟨res, st1, e1, s1, m1⟩ := ih q st hf hlen
    have hlen1 : st1.h.list.length < n := by
      rw [s1.list]
      exact Nat.lt_of_le_of_lt (List.length_filter_le _ _) hlen
    obtain ⟨cs, st2, e2, s2, m2, m3⟩ := ihq st1 s1.free hlen1
    refine ⟨if res then { createChildRegion mid r q with id := childQid r.id q } :: cs else cs, st2, ?_, ?_, ?_, ?_⟩
    · simp only [recurseAll, e1, e2]
    · have := s1.trans s2
      simpa only [List.any_cons] using this
    · rw [m2, m1 _ (fun h => by have := h.length_le; rw [childQid_length] at this; omega)]
    · intro k hk
      rw [m3 k hk, m1 k (fun h => hk ((List.prefix_append _ _).trans h))]

theorem hasData_true (s : FlState K) (hf : Free s) (r : Region K A L) (b : Bbox K) (a : A) (hb : r.box = some (b, a)) :
    (((featureListHandler (A := A) (L := L)).hasData s r).1 = false ∧ (∀ i ∈ s.list, i.inside b = false) ∧
      ((featureListHandler (A := A) (L := L)).hasData s r).2 = s) ∨
    (((featureListHandler (A := A) (L := L)).hasData s r).1 = true ∧ ∃ out s',
      ((featureListHandler (A := A) (L := L)).hasData s r).2 = s' ∧ out ≠ [] ∧ out.length ≤ 10 ∧
      (∀ i ∈ out, i.inside b = true) ∧ Free s' ∧ s'.list.length < s.list.length ∧
      s'.list.filter (fun i => !i.inside b) = s.list.filter (fun i => !i.inside b) ∧
      (out ++ s'.list.filter (Item.inside b)).Perm (s.list.filter (Item.inside b)) ∧
      s'.map r.id = some out ∧ ∀ k, k ≠ r.id → s'.map k = s.map k) := by
  obtain ⟨front, back, e1, e2, e3, e4, e5⟩ := C60_split s.list b 10 (by omega)
  have hsplit : regionSplit s.list r 10 = bboxSplit s.list b 10 := by simp [regionSplit, hb]
  by_cases hout : (bboxSplit s.list b 10).1.length > 0
  · right
    have hperm := C60_conserves s.list b 10
    have hnd : ((bboxSplit s.list b 10).1.map Item.uid ++ (bboxSplit s.list b 10).2.map Item.uid).Nodup := by
      rw [← List.map_append]
      exact (hperm.map _).nodup_iff.2 hf.1
    rw [List.nodup_append] at hnd
    have hsave := save_spec (bboxSplit s.list b 10).1 s.attached hnd.1
      (fun i hi => hf.2 i (hperm.mem_iff.1 (List.mem_append_left _ hi)))
    refine ⟨by simp [featureListHandler, hsplit, hout], (bboxSplit s.list b 10).1,
      { list := (bboxSplit s.list b 10).2, attached := (save (bboxSplit s.list b 10).1 s.attached).2,
        map := fun k => if k = r.id then some (bboxSplit s.list b 10).1 else s.map k }, ?_, ?_, e4, ?_, ⟨hnd.2.1, ?_⟩, ?_, ?_, ?_, ?_, ?_⟩
    · simp [featureListHandler, hsplit, hout, hsave.1]
    · intro h; rw [h] at hout; simp at hout
    · intro i hi
      rw [e2] at hi
      exact (List.mem_filter.1 hi).2
    · intro i hi
      simp only [hsave.2, not_or]
      refine ⟨hf.2 i (hperm.mem_iff.1 (List.mem_append_right _ hi)), ?_⟩
      intro hm
      exact hnd.2.2 _ hm _ (List.mem_map.2 ⟨i, hi, rfl⟩) rfl
    · have := hperm.length_eq
      simp only [List.length_append] at this
      simp only
      omega
    · simp only
      rw [e3]
      conv => rhs; rw [e1]
      simp [List.filter_filter]
    · simp only
      rw [e3, e2]
      conv => rhs; rw [e1]
      simp [List.filter_filter]
    · simp
    · intro k hk; simp [hk]
  · left
    have h0 : (bboxSplit s.list b 10).1.length = 0 := by omega
    have hback : back = [] := by
      rcases e5 with e5 | e5
      · omega
      · exact e5
    subst hback
    have hnone : ∀ i ∈ s.list, i.inside b = false := by
      intro i hi
      rw [e1] at hi
      have hz := List.length_eq_zero_iff.1 h0
      rw [e2, List.filter_eq_nil_iff] at hz
      simpa using hz i (by simpa using hi)
    refine ⟨by simp [featureListHandler, hsplit, hout], hnone, ?_⟩
    have hl : (bboxSplit s.list b 10).2 = s.list := by
      rw [e3]
      simp only [List.append_nil] at e1 ⊢
      rw [← e1, List.filter_eq_self]
      intro i hi; simp [hnone i hi]
    simp [featureListHandler, hsplit, hout, hl]

theorem region_step (mid : K → K → K) (hm : Between mid) (root : Bbox K) (name : Option Str) (n : Nat) :
    ∀ (st : RState (FlState K) (List (Item K))) (r : Region K A L) (path : List Quadrant) (a : A),
      Free st.h → st.h.list.length < n → r.id = qidAt path → r.box = some (boxAt mid root path, a) →
      ∃ res st', regionate mid (featureListHandler (A := A) (L := L)) name n st r = some (res, st') ∧
        Step mid root (Item.inside (boxAt mid root path)) st st' ∧
        (res = true ↔ ∃ i ∈ st.h.list, i.inside (boxAt mid root path) = true) ∧
        ∀ k, ¬ r.id <+: k → st'.h.map k = st.h.map k := by
  induction n with
  | zero => intro st r path a _ h; omega
  | succ n ih =>
    intro st r path a hf hlen hid hb
    rcases hasData_true st.h hf r _ a hb with ⟨h1, h2, h3⟩ | ⟨h1, out, s', h3, h4, h5, h6, h7, h8, h9, h10, h11, h12⟩
    · refine ⟨false, st, ?_, ⟨hf, ?_, rfl, [], by simp, ?_, by simp⟩, ?_, fun _ _ => rfl⟩
      · simp only [regionate, h1, if_true, h3]
      · symm
        rw [List.filter_eq_self]
        intro i hi; simp [h2 i hi]
      · have : st.h.list.filter (Item.inside (boxAt mid root path)) = [] := by
          rw [List.filter_eq_nil_iff]
          intro i hi; simp [h2 i hi]
        simp [this]
      · simp only [Bool.false_eq_true, false_iff, not_exists, not_and]
        intro i hi; simp [h2 i hi]
    · have hchild : ∀ (q : Quadrant) (st : RState (FlState K) (List (Item K))), Free st.h → st.h.list.length < n →
          ∃ res st', regionate mid (featureListHandler (A := A) (L := L)) name n st
              { createChildRegion mid r q with id := childQid r.id q } = some (res, st') ∧
            Step mid root (Item.inside (childBox mid (boxAt mid root path) q)) st st' ∧
            ∀ k, ¬ childQid r.id q <+: k → st'.h.map k = st.h.map k := by
        intro q st hf hl
        obtain ⟨res, st', e1, e2, _, e3⟩ := ih st { createChildRegion mid r q with id := childQid r.id q } (path ++ [q]) a hf hl
          (by simp [qidAt_child, hid]) (by simp [createChildRegion, hb, boxAt_child])
        rw [boxAt_child] at e2
        exact ⟨res, st', e1, e2, e3⟩
      obtain ⟨cs, st2, e1, e2, e3, e4⟩ := children_step mid root n name r path hid _ a hb hchild [.nw, .ne, .sw, .se]
        { st with h := s', count := st.count + 1, map := fun k => if k = r.id then st.count + 1 else st.map k } h7
        (by simp only; omega)
      simp only at e3 e4
      have hp : Proper (boxAt mid root path) := by
        cases out with
        | nil => exact absurd rfl h4
        | cons i out => exact proper_of_inside (h6 i (by simp))
      have htaken : (fun i : Item K => [Quadrant.nw, .ne, .sw, .se].any fun q => i.inside (childBox mid (boxAt mid root path) q))
          = Item.inside (boxAt mid root path) := by
        funext i
        rw [Bool.eq_iff_iff, ← inside_child mid hm _ hp i, List.any_eq_true]
        constructor
        · rintro ⟨q, _, h⟩; exact ⟨q, h⟩
        · rintro ⟨q, h⟩; exact ⟨q, by cases q <;> simp, h⟩
      rw [htaken] at e2
      obtain ⟨new, f1, f2, f3⟩ := e2.files
      have hget : (featureListHandler (A := A) (L := L)).getFeature st2.h r = (some out, st2.h) := by
        simp [featureListHandler, e3, h11]
      refine ⟨true, { st2 with saved := st2.saved ++ [⟨r.id, regionFilename name st2.map r.id,
        cs.map fun c => regionFilename name st2.map c.id, out⟩] }, ?_, ⟨e2.free, ?_, e2.nulls,
        new ++ [⟨r.id, regionFilename name st2.map r.id, cs.map fun c => regionFilename name st2.map c.id, out⟩], ?_, ?_, ?_⟩, ?_, ?_⟩
      · simp only [regionate, h1, h3, e1, hget]
        rfl
      · simp only [e2.list]
        exact h9
      · simp only [f1, List.append_assoc]
      · rw [List.flatMap_append]
        simp only [List.flatMap_cons, List.flatMap_nil, List.append_nil]
        exact (List.perm_append_comm.trans (List.Perm.append_left _ f2)).trans h10
      · intro f hf'
        rcases List.mem_append.1 hf' with hf' | hf'
        · exact f3 f hf'
        · simp only [List.mem_singleton] at hf'
          subst hf'
          exact ⟨List.length_pos_iff.2 h4, h5, path, hid, h6⟩
      · simp only [true_iff]
        cases out with
        | nil => exact absurd rfl h4
        | cons i out =>
          have : i ∈ st.h.list.filter (Item.inside (boxAt mid root path)) := h10.mem_iff.1 (by simp)
          exact ⟨i, (List.mem_filter.1 this).1, (List.mem_filter.1 this).2⟩
      · intro k hk
        rw [e4 k hk, h12 k (by rintro rfl; exact hk (List.prefix_refl _))]

/-- Regionating a list of distinct features without parent below any root region with a box completes.  The features
outside the root region stay in the list, in order.  Each feature inside is written to exactly one file; each file
has one to ten features, all inside the region of the file.  The handler never fails to give a feature, so the
theorems on the links between the files apply. -/
theorem C61_complete (mid : K → K → K) (hm : Between mid) (name : Option Str) (items : List (Item K)) (r : Region K A L)
    (b : Bbox K) (a : A) (hb : r.box = some (b, a)) (hnd : (items.map Item.uid).Nodup) :
    ∃ fuel res st, regionateRoot mid featureListHandler name fuel { list := items } r = some (res, st) ∧
      st.h.list = items.filter (fun i => !i.inside b) ∧
      (st.saved.flatMap File.feature).Perm (items.filter (Item.inside b)) ∧
      (∀ f ∈ st.saved, GoodFile mid b f) ∧ st.nulls = 0 ∧
      (res = true ↔ ∃ i ∈ items, i.inside b = true) := by
  obtain ⟨res, st', e1, e2, e3, _⟩ := region_step (A := A) (L := L) mid hm b name (items.length + 1) { h := { list := items } }
    { r with id := rootQid } [] a ⟨hnd, by simp⟩ (by simp) rfl hb
  obtain ⟨new, f1, f2, f3⟩ := e2.files
  simp only [List.nil_append] at f1
  refine ⟨items.length + 1, res, st', e1, e2.list, ?_, ?_, e2.nulls, e3⟩
  · rw [f1]; exact f2
  · rw [f1]; exact f3

/-- Without a box nothing is written and the list is unchanged. -/
theorem C61_no_box (mid : K → K → K) (name : Option Str) (items : List (Item K)) (r : Region K A L) (hb : r.box = none) :
    ∃ st, regionateRoot mid featureListHandler name 1 { list := items } r = some (false, st) ∧ st.h.list = items ∧ st.saved = [] := by
  refine ⟨{ h := { list := items } }, ?_, rfl, rfl⟩
  simp [regionateRoot, regionate, featureListHandler, regionSplit, hb]

/-- Eleven features at one place and one outside. -/
def elevenItems : List (Item Int) := (List.range 11).map (fun n => ⟨n, some (5, 5), none⟩) ++ [⟨99, some (50, 5), none⟩]

/-- They are distinct, and two files are written. -/
example : (elevenItems.map Item.uid).Nodup ∧
    ((regionateRoot (A := Unit) (L := Unit) (fun a b => (a + b) / 2) featureListHandler none 20 { list := elevenItems }
      ⟨[], some (⟨8, 0, 8, 0⟩, ()), none⟩).map fun r => r.2.saved.map fun f => (f.name, f.links, f.feature.map Item.uid))
    = some [("2.kml".toList, [], [10]), ("1.kml".toList, ["2.kml".toList], [0, 1, 2, 3, 4, 5, 6, 7, 8, 9])] := by
  decide +kernel

end Kml.Geo
