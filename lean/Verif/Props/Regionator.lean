import Verif.Lemmas.Regionator
import Verif.Props.Bbox
/-! Properties C57, C58 and C59: region ids, child regions and the files of a regionation. -/
namespace Kml.Geo
variable {K : Type u} [LinearOrder K] {A L : Type} {H : Type w} {F : Type v}

/-! #### C57 -/

/-- The id of the region reached from the root by a path of quadrants. -/
def qidAt (path : List Quadrant) : Str := path.foldl childQid rootQid

theorem qidAt_eq (path : List Quadrant) : qidAt path = rootQid ++ path.map Quadrant.digit := by
  have : ∀ s : Str, path.foldl childQid s = s ++ path.map Quadrant.digit := by
    induction path with
    | nil => simp
    | cons q qs ih => intro s; simp [ih, childQid]
  exact this rootQid

/-- Distinct positions in the quadtree have distinct ids. -/
theorem C57_unique (p q : List Quadrant) : qidAt p = qidAt q ↔ p = q := by
  rw [qidAt_eq, qidAt_eq]
  constructor
  · intro h
    exact (List.map_injective_iff.2 (fun _ _ => digit_inj)) (List.append_cancel_left h)
  · rintro rfl; rfl

/-- The depth of an id is one more than the number of steps from the root, and only the root is the root. -/
theorem C57_depth (p : List Quadrant) : qidDepth (qidAt p) = p.length + 1 ∧ (isRootQid (qidAt p) = true ↔ p = []) := by
  rw [qidAt_eq]
  refine ⟨by simp [qidDepth, rootQid], ?_⟩
  simp [isRootQid, rootQid]

/-- A region is an ancestor of another exactly if its id is a prefix of the other's id. -/
theorem C57_ancestor (p q : List Quadrant) : qidAt p <+: qidAt q ↔ p <+: q := by
  rw [qidAt_eq, qidAt_eq, List.prefix_append_right_inj]
  constructor
  · rintro ⟨t, ht⟩
    refine ⟨q.drop p.length, ?_⟩
    have h1 : p = q.take p.length := by
      apply List.map_injective_iff.2 (fun _ _ => digit_inj)
      have := congrArg (List.take p.length) ht
      simpa [List.map_take, List.take_append] using this
    conv => lhs; rw [h1]
    have hl : p.length ≤ q.length := by
      have := congrArg List.length ht
      simp at this
      omega
    simp [hl]
  · rintro ⟨t, rfl⟩; simp

example : qidAt [.nw, .se] = "q003".toList ∧ qidDepth "q003".toList = 3 := by decide

/-! #### C58 -/

/-- A child region lies in its parent and is itself a proper box. -/
theorem C58_inside (mid : K → K → K) (hm : Between mid) (b : Bbox K) (hb : Proper b) (q : Quadrant) :
    Within (childBox mid b q) b ∧ Proper (childBox mid b q) := by
  cases q
  · exact quarter_within hm hb .nw
  · exact quarter_within hm hb .ne
  · exact quarter_within hm hb .sw
  · exact quarter_within hm hb .se

/-- The four child regions cover the parent. -/
theorem C58_cover (mid : K → K → K) (b : Bbox K) (lat lon : K) (h : Covers b lat lon) :
    ∃ q, Covers (childBox mid b q) lat lon := by
  obtain ⟨h1, h2, h3, h4⟩ := h
  rcases le_total (mid b.north b.south) lat with h5 | h5 <;> rcases le_total (mid b.east b.west) lon with h6 | h6
  · exact ⟨.ne, h5, h2, h6, h4⟩
  · exact ⟨.nw, h5, h2, h3, h6⟩
  · exact ⟨.se, h1, h5, h6, h4⟩
  · exact ⟨.sw, h1, h5, h3, h6⟩

/-- Two different child regions share only positions on the dividing lines. -/
theorem C58_overlap (mid : K → K → K) (b : Bbox K) (p q : Quadrant) (hpq : p ≠ q) (lat lon : K)
    (hp : Covers (childBox mid b p) lat lon) (hq : Covers (childBox mid b q) lat lon) :
    lat = mid b.north b.south ∨ lon = mid b.east b.west := by
  obtain ⟨p1, p2, p3, p4⟩ := hp
  obtain ⟨q1, q2, q3, q4⟩ := hq
  cases p <;> cases q <;> simp only [childBox] at * <;>
    first
    | exact absurd rfl hpq
    | exact Or.inl (le_antisymm (by assumption) (by assumption))
    | exact Or.inr (le_antisymm (by assumption) (by assumption))

/-- Each child is in its own corner of the parent: the outer edges are the parent's, the inner ones the midpoints. -/
theorem C58_corners (mid : K → K → K) (b : Bbox K) :
    childBox mid b .nw = ⟨b.north, mid b.north b.south, mid b.east b.west, b.west⟩ ∧
    childBox mid b .ne = ⟨b.north, mid b.north b.south, b.east, mid b.east b.west⟩ ∧
    childBox mid b .sw = ⟨mid b.north b.south, b.south, mid b.east b.west, b.west⟩ ∧
    childBox mid b .se = ⟨mid b.north b.south, b.south, b.east, mid b.east b.west⟩ := ⟨rfl, rfl, rfl, rfl⟩

/-- The level of detail and the altitudes are the parent's; the box is there exactly if the parent has one. -/
theorem C58_inherits (mid : K → K → K) (parent : Region K A L) (q : Quadrant) :
    (createChildRegion mid parent q).lod = parent.lod ∧
    (∀ b a, parent.box = some (b, a) → (createChildRegion mid parent q).box = some (childBox mid b q, a)) ∧
    (parent.box = none → (createChildRegion mid parent q).box = none) := by
  refine ⟨rfl, ?_, ?_⟩
  · intro b a h; simp [createChildRegion, h]
  · intro h; simp [createChildRegion, h]

example : Proper (⟨80, 0, 100, 20⟩ : Bbox Int) ∧ childBox (fun a b => (a + b) / 2) ⟨80, 0, 100, 20⟩ .sw = ⟨40, 0, 60, 20⟩ :=
  ⟨by simp [Proper], by decide⟩

/-! #### C59 -/

/-- The name of the root file. -/
def rootName (root : Option Str) : Str := root.getD (numName 1)

/-- All links of all files. -/
def allLinks (fs : List (File F)) : List Str := fs.flatMap File.links

theorem map_numName_nodup {l : List Nat} (h : l.Nodup) : (l.map numName).Nodup :=
  h.map (fun _ _ => numName_inj)

/-- However the handler behaves: if the regionation completes, no two saved files have the same name, provided the name
chosen for the root file is not one of those given to the others. -/
theorem C59_names_distinct (mid : K → K → K) (hd : Handler K A L H F) (root : Option Str) (fuel : Nat) (h : H) (r : Region K A L)
    (b : Bool) (st : RState H F) (hrun : regionateRoot mid hd root fuel h r = some (b, st))
    (hroot : ∀ n, 2 ≤ n → rootName root ≠ numName n) : (st.saved.map File.name).Nodup := by
  obtain ⟨hf, ht⟩ := root_spec mid hd root fuel h r b st hrun
  cases b with
  | false =>
    obtain ⟨nums, ls, h1, _, h3, _⟩ := hf rfl
    rw [h3]; exact map_numName_nodup h1
  | true =>
    obtain ⟨nums, ls, front, f, h1, h2, h3, _, h4, h5, _⟩ := ht rfl
    rw [h3, List.map_append, h5, List.nodup_append]
    refine ⟨map_numName_nodup h1, by simp, ?_⟩
    intro x hx y hy
    simp only [List.map_cons, List.map_nil, List.mem_singleton] at hy
    obtain ⟨n, hn, rfl⟩ := List.mem_map.1 hx
    rw [hy, h4]
    exact fun e => hroot n (h2 n hn) e.symm

/-- However the handler behaves: every saved file is the root file, under the name chosen or `1.kml`, or is called by a
number from two on, in decimal, with `.kml`. -/
theorem C59_file_names (mid : K → K → K) (hd : Handler K A L H F) (root : Option Str) (fuel : Nat) (h : H) (r : Region K A L)
    (b : Bool) (st : RState H F) (hrun : regionateRoot mid hd root fuel h r = some (b, st)) (f : File F) (hf : f ∈ st.saved) :
    (f.id = rootQid ∧ f.name = root.getD ['1', '.', 'k', 'm', 'l']) ∨
      ∃ n, 2 ≤ n ∧ f.name = Nat.toDigits 10 n ++ ['.', 'k', 'm', 'l'] := by
  obtain ⟨h0, h1⟩ := root_spec mid hd root fuel h r b st hrun
  cases b with
  | false =>
    obtain ⟨nums, _, _, h3, h4, _⟩ := h0 rfl
    have := List.mem_map_of_mem (f := File.name) hf
    rw [h4] at this
    obtain ⟨n, hn, he⟩ := List.mem_map.1 this
    exact .inr ⟨n, h3 n hn, he.symm⟩
  | true =>
    obtain ⟨nums, _, front, g, _, h3, h4, h5, h6, h7, _⟩ := h1 rfl
    rw [h4] at hf
    rcases List.mem_append.1 hf with hf | hf
    · have := List.mem_map_of_mem (f := File.name) hf
      rw [h7] at this
      obtain ⟨n, hn, he⟩ := List.mem_map.1 this
      exact .inr ⟨n, h3 n hn, he.symm⟩
    · rw [List.mem_singleton.1 hf]
      exact .inl ⟨h5, h6⟩

/-- However the handler behaves: every link in a saved file names a saved file, and no two links name the same file. -/
theorem C59_links_saved (mid : K → K → K) (hd : Handler K A L H F) (root : Option Str) (fuel : Nat) (h : H) (r : Region K A L)
    (b : Bool) (st : RState H F) (hrun : regionateRoot mid hd root fuel h r = some (b, st)) :
    (∀ l ∈ allLinks st.saved, l ∈ st.saved.map File.name) ∧ (allLinks st.saved).Nodup := by
  obtain ⟨hf, ht⟩ := root_spec mid hd root fuel h r b st hrun
  have key : ∀ nums ls : List Nat, nums.Nodup → List.Subperm ls nums → allLinks st.saved = ls.map numName →
      (∀ n ∈ nums, numName n ∈ st.saved.map File.name) →
      (∀ l ∈ allLinks st.saved, l ∈ st.saved.map File.name) ∧ (allLinks st.saved).Nodup := by
    intro nums ls hn hs he hin
    rw [he]
    refine ⟨?_, ?_⟩
    · intro l hl
      obtain ⟨n, hn', rfl⟩ := List.mem_map.1 hl
      exact hin n (hs.subset hn')
    · obtain ⟨l', hp, hsub⟩ := hs
      exact map_numName_nodup (hp.nodup_iff.1 (hn.sublist hsub))
  cases b with
  | false =>
    obtain ⟨nums, ls, h1, _, h3, h4, h5, _⟩ := hf rfl
    exact key nums ls h1 h5 h4 (fun n hn => by rw [h3]; exact List.mem_map.2 ⟨n, hn, rfl⟩)
  | true =>
    obtain ⟨nums, ls, front, f, h1, h2, h3, _, h4, h5, h6, h7, _⟩ := ht rfl
    refine key nums ls h1 h7 h6 (fun n hn => ?_)
    rw [h3, List.map_append, h5]
    exact List.mem_append_left _ (List.mem_map.2 ⟨n, hn, rfl⟩)

/-- If the handler gave a feature for each region it said had data, then every saved file except the root file is
linked from exactly one saved file, and the root file, which is saved last, from none.  Missing from the full property:
handlers that say a region has data and then give no feature for it. -/
theorem C59_tree_partial (mid : K → K → K) (hd : Handler K A L H F) (root : Option Str) (fuel : Nat) (h : H) (r : Region K A L)
    (b : Bool) (st : RState H F) (hrun : regionateRoot mid hd root fuel h r = some (b, st))
    (hroot : ∀ n, 2 ≤ n → rootName root ≠ numName n) (hnull : st.nulls = 0) :
    (b = false → st.saved = []) ∧
    (b = true → ∃ front f, st.saved = front ++ [f] ∧ f.id = rootQid ∧ f.name = rootName root ∧
      f.name ∉ allLinks st.saved ∧ ∀ g ∈ front, (allLinks st.saved).count g.name = 1) := by
  obtain ⟨hf, ht⟩ := root_spec mid hd root fuel h r b st hrun
  refine ⟨fun hb => ?_, fun hb => ?_⟩
  · obtain ⟨_, _, _, _, _, _, _, h7⟩ := hf hb
    exact h7 hnull
  · obtain ⟨nums, ls, front, f, h1, h2, h3, h3', h4, h5, h6, h7, h8⟩ := ht hb
    have hp := h8 hnull
    refine ⟨front, f, h3, h3', h4, ?_, ?_⟩
    · unfold allLinks
      rw [h6, h4]
      intro hm
      obtain ⟨n, hn, e⟩ := List.mem_map.1 hm
      exact hroot n (h2 n (hp.mem_iff.1 hn)) e.symm
    · intro g hg
      unfold allLinks
      rw [h6]
      have hgn : g.name ∈ nums.map numName := by rw [← h5]; exact List.mem_map.2 ⟨g, hg, rfl⟩
      have hpp : (ls.map numName).Perm (nums.map numName) := hp.map _
      exact List.count_eq_one_of_mem (hpp.nodup_iff.2 (map_numName_nodup h1)) (hpp.mem_iff.2 hgn)

/-- More recursion depth does not change the outcome of a regionation that completes. -/
theorem C59_deterministic (mid : K → K → K) (hd : Handler K A L H F) (root : Option Str) (n : Nat) :
    ∀ (st : RState H F) (r : Region K A L) (res : Bool × RState H F), regionate mid hd root n st r = some res →
      regionate mid hd root (n + 1) st r = some res := by
  induction n with
  | zero => intro st r res h; simp [regionate] at h
  | succ n ih =>
    intro st r res h
    have hrec : ∀ (qs : List Quadrant) (s : RState H F) out,
        recurseAll mid (regionate mid hd root n) r qs s = some out →
        recurseAll mid (regionate mid hd root (n + 1)) r qs s = some out := by
      intro qs
      induction qs with
      | nil => intro s out h; exact h
      | cons q qs ihq =>
        intro s out h
        simp only [recurseAll] at h ⊢
        split at h
        · cases h
        rename_i b st1 h1
        rw [ih _ _ _ h1]
        simp only
        split at h
        · cases h
        rename_i cs st2 h2
        rw [ihq _ _ h2]
        exact h
    rw [regionate] at h ⊢
    simp only at h ⊢
    split at h
    · rename_i hd'
      rw [if_pos hd']; exact h
    · rename_i hd'
      rw [if_neg hd']
      split at h
      · cases h
      · rename_i cs st2 h2
        rw [hrec _ _ _ h2]
        exact h

/-- A handler with data in the root region and in one of its quarters. -/
def demoHandler : Handler Int Unit Unit Unit Unit where
  hasData _ r := (decide (r.id.length ≤ 2) || r.id == "q01".toList, ())
  getFeature _ _ := (some (), ())
  saveKml _ _ := ()

example : ((regionateRoot (fun a b => (a + b) / 2) demoHandler none 5 () ⟨[], none, none⟩).map
    fun r => (r.2.nulls, r.2.saved.map fun f => (f.name, f.links)))
    = some (0, [("2.kml".toList, []), ("1.kml".toList, ["2.kml".toList])]) := by decide
example : ∀ n, 2 ≤ n → rootName none ≠ numName n := fun n hn e => absurd (numName_inj e) (by omega)

/-- A handler that gives no feature for the quarter `q01`, which has a quarter with data. -/
def nullHandler : Handler Int Unit Unit Unit Unit where
  hasData _ r := (decide (r.id.length ≤ 2) || r.id == "q01".toList || r.id == "q010".toList, ())
  getFeature _ r := (if r.id == "q01".toList then none else some (), ())
  saveKml _ _ := ()

/-- The full property fails: when the handler gives no feature for a region after saying that it has data, the files
of the regions below are saved and no file links to them. -/
theorem C59_orphan_violated :
    ((regionateRoot (fun a b => (a + b) / 2) nullHandler none 5 () ⟨[], none, none⟩).map
      fun r => (r.1, r.2.saved.map fun f => (f.name, f.links)))
    = some (true, [("3.kml".toList, []), ("1.kml".toList, [])]) := by decide

/-- The condition on the root name is needed: `SetRootFilename("2.kml")` makes two files of the same name, and the
root file link to itself. -/
theorem C59_root_name_violated :
    ((regionateRoot (fun a b => (a + b) / 2) demoHandler (some "2.kml".toList) 5 () ⟨[], none, none⟩).map
      fun r => r.2.saved.map fun f => (f.name, f.links))
    = some [("2.kml".toList, []), ("2.kml".toList, ["2.kml".toList])] := by decide

end Kml.Geo
