import Verif.Model.Regionator
import Mathlib.Data.List.Perm.Subperm
import Mathlib.Data.List.Nodup
/-! Lemmas about the regionator: what one region and its descendants add to the saved files. -/
namespace Kml.Geo
set_option linter.unusedSectionVars false
variable {K : Type u} [LinearOrder K] {A L : Type} {H : Type w} {F : Type v}

theorem numName_inj {a b : Nat} (h : numName a = numName b) : a = b := by
  have h1 : Nat.toDigits 10 a = Nat.toDigits 10 b := List.append_cancel_right h
  have h2 := congrArg (fun l => Nat.ofDigitChars 10 l 0) h1
  simpa using h2

theorem digit_inj {p q : Quadrant} (h : p.digit = q.digit) : p = q := by
  cases p <;> cases q <;> first | rfl | (exact absurd h (by decide))

theorem childQid_length (id : Str) (q : Quadrant) : (childQid id q).length = id.length + 1 := by simp [childQid]

theorem childQid_prefix {id : Str} {p q : Quadrant} {k : Str} (h1 : childQid id p <+: k) (h2 : childQid id q <+: k) : p = q := by
  have h := List.prefix_of_prefix_length_le h1 h2 (by simp [childQid_length])
  have h := h.eq_of_length (by simp [childQid_length])
  simp only [childQid, List.append_cancel_left_eq, List.cons.injEq, and_true] at h
  exact digit_inj h

/-- The cases of one call of `_Regionate`. -/
theorem regionate_cases {mid : K → K → K} {hd : Handler K A L H F} {root : Option Str} {n : Nat} {st st' : RState H F}
    {r : Region K A L} {b : Bool} (h : regionate mid hd root (n + 1) st r = some (b, st')) :
    ((hd.hasData st.h r).1 = false ∧ b = false ∧ st' = { st with h := (hd.hasData st.h r).2 }) ∨
    ((hd.hasData st.h r).1 = true ∧ ∃ cs st2,
      recurseAll mid (regionate mid hd root n) r [.nw, .ne, .sw, .se]
        { st with h := (hd.hasData st.h r).2, count := st.count + 1,
                  map := fun k => if k = r.id then st.count + 1 else st.map k } = some (cs, st2) ∧
      ((b = false ∧ ∃ h', hd.getFeature st2.h r = (none, h') ∧ st' = { st2 with h := h', nulls := st2.nulls + 1 }) ∨
       (b = true ∧ ∃ f h', hd.getFeature st2.h r = (some f, h') ∧
        st' = { st2 with
          h := hd.saveKml h' ⟨r.id, regionFilename root st2.map r.id,
            cs.map fun c => regionFilename root st2.map c.id, f⟩
          saved := st2.saved ++ [⟨r.id, regionFilename root st2.map r.id,
            cs.map fun c => regionFilename root st2.map c.id, f⟩] }))) := by
  simp only [regionate] at h
  by_cases hdata : (hd.hasData st.h r).1 = false
  · simp only [hdata, if_true, Option.some.injEq, Prod.mk.injEq] at h
    exact Or.inl ⟨hdata, h.1.symm, h.2.symm⟩
  · rw [if_neg hdata] at h
    refine Or.inr ⟨by simpa using hdata, ?_⟩
    split at h
    · cases h
    · rename_i cs st2 hrec
      refine ⟨cs, st2, hrec, ?_⟩
      split at h
      · rename_i h' hf
        simp only [Option.some.injEq, Prod.mk.injEq] at h
        exact Or.inl ⟨h.1.symm, h', hf, h.2.symm⟩
      · rename_i f h' hf
        simp only [Option.some.injEq, Prod.mk.injEq] at h
        exact Or.inr ⟨h.1.symm, f, h', hf, h.2.symm⟩

/-- What a run adds: files named by the numbers `nums`, with links to the numbers `ls`. -/
structure Adds (st st' : RState H F) (nums ls : List Nat) : Prop where
  files : ∃ new, st'.saved = st.saved ++ new ∧ new.map File.name = nums.map numName ∧
    new.flatMap File.links = ls.map numName
  nodup : nums.Nodup
  range : ∀ n ∈ nums, st.count < n ∧ n ≤ st'.count
  count : st.count ≤ st'.count
  nulls : st.nulls ≤ st'.nulls

def NodeSpec (st st' : RState H F) (id : Str) (b : Bool) : Prop :=
  ∃ nums ls, Adds st st' nums ls ∧ (∀ k, ¬ id <+: k → st'.map k = st.map k) ∧
    (b = true → st'.map id = st.count + 1 ∧ List.Subperm ((st.count + 1) :: ls) nums) ∧
    (b = false → List.Subperm ls nums) ∧
    (st'.nulls = st.nulls → (b = true → List.Perm ((st.count + 1) :: ls) nums) ∧ (b = false → nums = [] ∧ ls = []))

def ChildSpec (st st' : RState H F) (id : Str) (qs : List Quadrant) (cs : List (Region K A L)) : Prop :=
  ∃ nums ls, Adds st st' nums ls ∧ (∀ k, (∀ q ∈ qs, ¬ childQid id q <+: k) → st'.map k = st.map k) ∧
    (∀ c ∈ cs, ∃ q ∈ qs, c.id = childQid id q) ∧
    List.Subperm (cs.map (fun c => st'.map c.id) ++ ls) nums ∧
    (st'.nulls = st.nulls → List.Perm (cs.map (fun c => st'.map c.id) ++ ls) nums)

theorem Adds.append {a b c : RState H F} {n1 l1 n2 l2 : List Nat} (h1 : Adds a b n1 l1) (h2 : Adds b c n2 l2) :
    Adds a c (n1 ++ n2) (l1 ++ l2) := by
  obtain ⟨new1, f1, f2, f3⟩ := h1.files
  obtain ⟨new2, g1, g2, g3⟩ := h2.files
  refine ⟨⟨new1 ++ new2, by rw [g1, f1, List.append_assoc], by simp [f2, g2], by simp [f3, g3]⟩, ?_, ?_, ?_, ?_⟩
  · rw [List.nodup_append]
    refine ⟨h1.nodup, h2.nodup, ?_⟩
    intro x hx y hy hxy
    have := h1.range x hx
    have := h2.range y hy
    omega
  · intro n hn
    have := h1.count
    have := h2.count
    rcases List.mem_append.1 hn with hn | hn
    · have := h1.range n hn; omega
    · have := h2.range n hn; omega
  · have := h1.count; have := h2.count; omega
  · have := h1.nulls; have := h2.nulls; omega

theorem recurseAll_spec {mid : K → K → K} {run : RState H F → Region K A L → Option (Bool × RState H F)} {parent : Region K A L}
    (hrun : ∀ q st st' b, run st { createChildRegion mid parent q with id := childQid parent.id q } = some (b, st') →
      NodeSpec st st' (childQid parent.id q) b) :
    ∀ (qs : List Quadrant), qs.Nodup → ∀ (st st' : RState H F) (cs : List (Region K A L)),
      recurseAll mid run parent qs st = some (cs, st') → ChildSpec st st' parent.id qs cs := by
  intro qs
  induction qs with
  | nil =>
    intro _ st st' cs h
    simp only [recurseAll, Option.some.injEq, Prod.mk.injEq] at h
    obtain ⟨rfl, rfl⟩ := h
    exact ⟨[], [], ⟨⟨[], by simp⟩, by simp, by simp, by simp, by simp⟩, by simp, by simp, by simp [List.Subperm.refl], by simp⟩
  | cons q qs ih =>
    intro hnd st st' cs h
    obtain ⟨hq, hnd⟩ := List.nodup_cons.1 hnd
    simp only [recurseAll] at h
    split at h
    · cases h
    rename_i b st1 h1
    split at h
    · cases h
    rename_i cs2 st2 h2
    simp only [Option.some.injEq, Prod.mk.injEq] at h
    obtain ⟨hcs, rfl⟩ := h
    obtain ⟨n1, l1, ha1, hm1, ht1, hf1, hz1⟩ := hrun q st st1 b h1
    obtain ⟨n2, l2, ha2, hm2, hid2, hs2, hp2⟩ := ih hnd st1 st2 cs2 h2
    have hadd := ha1.append ha2
    refine ⟨n1 ++ n2, l1 ++ l2, hadd, ?_, ?_, ?_, ?_⟩
    · intro k hk
      rw [hm2 k (fun q' hq' => hk q' (by simp [hq'])), hm1 k (hk q (by simp))]
    · intro c hc
      rw [← hcs] at hc
      split at hc
      · rcases List.mem_cons.1 hc with rfl | hc
        · exact ⟨q, by simp, rfl⟩
        · obtain ⟨q', h', e⟩ := hid2 c hc; exact ⟨q', by simp [h'], e⟩
      · obtain ⟨q', h', e⟩ := hid2 c hc; exact ⟨q', by simp [h'], e⟩
    all_goals
      rw [← hcs]
      cases b with
      | false => ?_
      | true => ?_
    · simp only [Bool.false_eq_true, if_false]
      have p : List.Perm (cs2.map (fun c => st2.map c.id) ++ (l1 ++ l2)) (l1 ++ (cs2.map (fun c => st2.map c.id) ++ l2)) := by
        rw [← List.append_assoc, ← List.append_assoc]
        exact List.Perm.append_right _ List.perm_append_comm
      exact p.subperm.trans (List.Subperm.append (hf1 rfl) hs2)
    · simp only [if_true, List.map_cons]
      obtain ⟨hmap, hsub⟩ := ht1 rfl
      have hkeep : st2.map (childQid parent.id q) = st1.map (childQid parent.id q) :=
        hm2 _ (fun q' hq' hp => hq (childQid_prefix hp (List.prefix_refl _) ▸ hq'))
      rw [hkeep, hmap]
      have p : List.Perm (((st.count + 1) :: cs2.map (fun c => st2.map c.id)) ++ (l1 ++ l2))
          (((st.count + 1) :: l1) ++ (cs2.map (fun c => st2.map c.id) ++ l2)) := by
        simp only [List.cons_append]
        refine List.Perm.cons _ ?_
        rw [← List.append_assoc, ← List.append_assoc]
        exact List.Perm.append_right _ List.perm_append_comm
      exact p.subperm.trans (List.Subperm.append hsub hs2)
    · intro hz
      have e1 : st1.nulls = st.nulls := by have := ha1.nulls; have := ha2.nulls; omega
      have e2 : st2.nulls = st1.nulls := by omega
      simp only [Bool.false_eq_true, if_false]
      obtain ⟨rfl, rfl⟩ := (hz1 e1).2 rfl
      simpa using hp2 e2
    · intro hz
      have e1 : st1.nulls = st.nulls := by have := ha1.nulls; have := ha2.nulls; omega
      have e2 : st2.nulls = st1.nulls := by omega
      simp only [if_true, List.map_cons]
      obtain ⟨hmap, hsub⟩ := ht1 rfl
      have hkeep : st2.map (childQid parent.id q) = st1.map (childQid parent.id q) :=
        hm2 _ (fun q' hq' hp => hq (childQid_prefix hp (List.prefix_refl _) ▸ hq'))
      rw [hkeep, hmap]
      have p : List.Perm (((st.count + 1) :: cs2.map (fun c => st2.map c.id)) ++ (l1 ++ l2))
          (((st.count + 1) :: l1) ++ (cs2.map (fun c => st2.map c.id) ++ l2)) := by
        simp only [List.cons_append]
        refine List.Perm.cons _ ?_
        rw [← List.append_assoc, ← List.append_assoc]
        exact List.Perm.append_right _ List.perm_append_comm
      exact p.trans (((hz1 e1).1 rfl).append (hp2 e2))


theorem not_isRoot {id : Str} (h : 3 ≤ id.length) : isRootQid id = false := by
  simp only [isRootQid, decide_eq_false_iff_not]
  rintro rfl
  simp [rootQid] at h

theorem filename_of_long {root : Option Str} {map : Str → Nat} {id : Str} (h : 3 ≤ id.length) :
    regionFilename root map id = numName (map id) := by
  cases root with
  | none => rfl
  | some name => simp [regionFilename, not_isRoot h]

/-- What the body of `_Regionate` adds below the region itself. -/
theorem body_spec {mid : K → K → K} {run : RState H F → Region K A L → Option (Bool × RState H F)} {root : Option Str}
    {r : Region K A L} (hlen : 2 ≤ r.id.length)
    (hrun : ∀ q st st' b, run st { createChildRegion mid r q with id := childQid r.id q } = some (b, st') →
      NodeSpec st st' (childQid r.id q) b)
    {st st2 : RState H F} {cs : List (Region K A L)}
    (h : recurseAll mid run r [.nw, .ne, .sw, .se]
        { st with count := st.count + 1, map := fun k => if k = r.id then st.count + 1 else st.map k } = some (cs, st2)) :
    ∃ nums ls cns, st2.map r.id = st.count + 1 ∧ (∀ k, ¬ r.id <+: k → st2.map k = st.map k) ∧
      (cs.map fun c => regionFilename root st2.map c.id) = cns.map numName ∧
      (∃ new, st2.saved = st.saved ++ new ∧ new.map File.name = nums.map numName ∧ new.flatMap File.links = ls.map numName) ∧
      nums.Nodup ∧ (∀ n ∈ nums, st.count + 1 < n ∧ n ≤ st2.count) ∧ st.count + 1 ≤ st2.count ∧ st.nulls ≤ st2.nulls ∧
      List.Subperm (cns ++ ls) nums ∧ (st2.nulls = st.nulls → List.Perm (cns ++ ls) nums) := by
  obtain ⟨nums, ls, ha, hm, hid, hs, hp⟩ := recurseAll_spec hrun _ (by decide) _ _ _ h
  have hself : ∀ k : Str, k.length ≤ r.id.length → ∀ q, ¬ childQid r.id q <+: k := by
    intro k hk q hpre
    have := hpre.length_le
    rw [childQid_length] at this
    omega
  have hprefix : ∀ q, r.id <+: childQid r.id q := fun q => List.prefix_append _ _
  refine ⟨nums, ls, cs.map (fun c => st2.map c.id), ?_, ?_, ?_, ha.files, ha.nodup, ha.range, ha.count, ha.nulls, hs, hp⟩
  · rw [hm _ (fun q _ => hself _ (Nat.le_refl _) q)]; simp
  · intro k hk
    rw [hm k (fun q _ hq => hk ((hprefix q).trans hq))]
    have : k ≠ r.id := by rintro rfl; exact hk (List.prefix_refl _)
    simp [this]
  · rw [List.map_map]
    apply List.map_congr_left
    intro c hc
    obtain ⟨q, _, e⟩ := hid c hc
    exact filename_of_long (by rw [e, childQid_length]; omega)

/-- What one region other than the root, and its descendants, add. -/
theorem node_spec (mid : K → K → K) (hd : Handler K A L H F) (root : Option Str) (n : Nat) :
    ∀ (st st' : RState H F) (r : Region K A L) (b : Bool), 3 ≤ r.id.length →
      regionate mid hd root n st r = some (b, st') → NodeSpec st st' r.id b := by
  induction n with
  | zero => intro st st' r b _ h; simp [regionate] at h
  | succ n ih =>
    intro st st' r b hlen h
    rcases regionate_cases h with ⟨_, rfl, rfl⟩ | ⟨_, cs, st2, hrec, hcase⟩
    · exact ⟨[], [], ⟨⟨[], by simp⟩, by simp, by simp, by simp, by simp⟩, by simp, by simp, by simp [List.Subperm.refl], by simp⟩
    · have hrun : ∀ q s s' b, regionate mid hd root n s { createChildRegion mid r q with id := childQid r.id q } = some (b, s') →
          NodeSpec s s' (childQid r.id q) b :=
        fun q s s' b hr => ih s s' _ b (by simp only [childQid_length]; omega) hr
      obtain ⟨nums, ls, cns, e1, e2, e3, ⟨new, e4, e5, e6⟩, e7, e8, e9, e10, e11, e12⟩ :=
        body_spec (root := root) (st := { st with h := (hd.hasData st.h r).2 }) (by omega) hrun hrec
      simp only at e1 e2 e4 e8 e9 e10 e12
      rcases hcase with ⟨rfl, h', _, rfl⟩ | ⟨rfl, f, h', _, rfl⟩
      · refine ⟨nums, ls, ⟨⟨new, e4, e5, e6⟩, e7, ?_, ?_, ?_⟩, e2, by simp, ?_, ?_⟩
        · intro m hm; have := e8 m hm; simp only; omega
        · simp only; omega
        · simp only; omega
        · intro _; exact (List.sublist_append_right _ _).subperm.trans e11
        · intro hz; simp only at hz; omega
      · refine ⟨nums ++ [st.count + 1], ls ++ cns, ⟨⟨new ++ [⟨r.id, regionFilename root st2.map r.id,
            cs.map fun c => regionFilename root st2.map c.id, f⟩], ?_, ?_, ?_⟩, ?_, ?_, ?_, ?_⟩, e2, ?_, by simp, ?_⟩
        · simp only [e4, List.append_assoc]
        · simp [e5, filename_of_long hlen, e1]
        · simp [e6, e3]
        · rw [List.nodup_append]
          refine ⟨e7, by simp, ?_⟩
          intro x hx y hy
          simp only [List.mem_singleton] at hy
          have := e8 x hx
          omega
        · intro m hm
          simp only [List.mem_append, List.mem_singleton] at hm
          rcases hm with hm | rfl
          · have := e8 m hm; simp only; omega
          · simp only; omega
        · simp only; omega
        · exact e10
        · intro _
          refine ⟨e1, ?_⟩
          have p : List.Perm ((st.count + 1) :: (ls ++ cns)) ((cns ++ ls) ++ [st.count + 1]) :=
            (List.Perm.cons _ List.perm_append_comm).trans (List.perm_append_singleton _ _).symm
          exact p.subperm.trans (List.Subperm.append e11 (List.Subperm.refl _))
        · intro hz
          refine ⟨fun _ => ?_, by simp⟩
          have p : List.Perm ((st.count + 1) :: (ls ++ cns)) ((cns ++ ls) ++ [st.count + 1]) :=
            (List.Perm.cons _ List.perm_append_comm).trans (List.perm_append_singleton _ _).symm
          exact p.trans ((e12 hz).append (List.Perm.refl _))

/-- What the root region and its descendants add to an empty set of files. -/
theorem root_spec (mid : K → K → K) (hd : Handler K A L H F) (root : Option Str) (fuel : Nat) (h : H) (r : Region K A L)
    (b : Bool) (st : RState H F) (hrun : regionateRoot mid hd root fuel h r = some (b, st)) :
    (b = false → ∃ nums ls, nums.Nodup ∧ (∀ n ∈ nums, 2 ≤ n) ∧ st.saved.map File.name = nums.map numName ∧
        st.saved.flatMap File.links = ls.map numName ∧ List.Subperm ls nums ∧ (st.nulls = 0 → st.saved = [])) ∧
    (b = true → ∃ nums ls front f, nums.Nodup ∧ (∀ n ∈ nums, 2 ≤ n) ∧ st.saved = front ++ [f] ∧ f.id = rootQid ∧
        f.name = root.getD (numName 1) ∧ front.map File.name = nums.map numName ∧
        st.saved.flatMap File.links = ls.map numName ∧ List.Subperm ls nums ∧ (st.nulls = 0 → List.Perm ls nums)) := by
  cases fuel with
  | zero => simp [regionateRoot, regionate] at hrun
  | succ n =>
    rcases regionate_cases hrun with ⟨_, rfl, rfl⟩ | ⟨_, cs, st2, hrec, hcase⟩
    · refine ⟨fun _ => ⟨[], [], by simp⟩, by simp⟩
    · have hr : ∀ q s s' b, regionate mid hd root n s
          { createChildRegion mid { r with id := rootQid } q with id := childQid rootQid q } = some (b, s') →
          NodeSpec s s' (childQid rootQid q) b :=
        fun q s s' b hr => node_spec mid hd root n s s' _ b (by simp [childQid_length, rootQid]) hr
      obtain ⟨nums, ls, cns, e1, e2, e3, ⟨new, e4, e5, e6⟩, e7, e8, e9, e10, e11, e12⟩ :=
        body_spec (root := root) (st := { h := (hd.hasData h { r with id := rootQid }).2 : RState H F })
          (by simp [rootQid]) hr hrec
      simp only [List.nil_append] at e1 e4 e8 e12
      rcases hcase with ⟨rfl, h', _, rfl⟩ | ⟨rfl, f, h', _, rfl⟩
      · refine ⟨fun _ => ⟨nums, ls, e7, fun m hm => by have := e8 m hm; omega, by rw [e4, e5], by rw [e4, e6],
          (List.sublist_append_right _ _).subperm.trans e11, by simp⟩, by simp⟩
      · refine ⟨by simp, fun _ => ⟨nums, ls ++ cns, new, _, e7, fun m hm => by have := e8 m hm; omega, by rw [e4], rfl, ?_, e5,
          ?_, List.perm_append_comm.subperm.trans e11, fun hz => List.perm_append_comm.trans (e12 hz)⟩⟩
        · cases root with
          | none => simp [regionFilename, e1]
          | some name => simp [regionFilename, isRootQid]
        · simp [e4, e6, e3]

end Kml.Geo
