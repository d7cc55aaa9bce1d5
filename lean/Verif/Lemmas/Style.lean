import Verif.Spec.Style
import Verif.Lemmas.Merge

/-! Style resolution: that it ends, and what it merges. -/

namespace Kml.Dom

open Kml

attribute [local irreducible] kml22Elements Xsd.tagToId classes inc dec uintSize

/-! ### The type of the target -/

theorem forState_eq (p : Elem) (state : Str) : p.forState state = decide (pairKey p = state) := by
  rw [Bool.eq_iff_iff, decide_eq_true_eq]
  cases p with
  | field => exact decide_eq_true_iff.trans eq_comm
  | node t a slots mis unk =>
    simp only [Elem.forState, pairKey]
    split
    · rename_i h; rw [h]; exact decide_eq_true_iff
    · rename_i h
      have : single (slots M.«key») = none := by
        unfold single
        split
        · rename_i h'; exact absurd h' (h _ _)
        · rfl
      rw [this]
      exact decide_eq_true_iff.trans eq_comm

theorem mergeCall_ty {n : NumLib} {e r : Elem} {c : Call} (h : mergeCall n e c = .ok r) : r.ty = e.ty := by
  unfold mergeCall at h
  split at h
  · cases h
    cases e <;> rfl
  · exact addElement_ty h
  · exact addElement_ty h
  · cases h
    unfold mergePoint
    cases e
    · rfl
    · simp only
      split <;> rfl
  · cases h; rfl
  · cases h; rfl
  · cases h; rfl

theorem mergeRun_ty {n : NumLib} : ∀ (cs : List Call) {e r : Elem}, mergeRun n e cs = .ok r → r.ty = e.ty
  | [], e, r, h => by cases h; rfl
  | c :: cs, e, r, h => by
    rw [mergeRun] at h
    cases hc : mergeCall n e c with
    | ok e' =>
      rw [hc] at h
      rw [mergeRun_ty cs h, mergeCall_ty hc]
    | throws => rw [hc] at h; cases h
    | ub => rw [hc] at h; cases h

theorem modifyAt_ty {f : Elem → Outcome Elem} {s : Step} {p : List Step} {e r : Elem}
    (h : modifyAt f (s :: p) e = .ok r) : r.ty = e.ty := by
  cases e with
  | field => simp only [modifyAt] at h; cases h; rfl
  | node t a slots mis unk =>
    cases s with
    | slot m i =>
      rw [modifyAt] at h
      split at h
      · revert h
        generalize modifyAt f p _ = o
        intro h
        cases o with
        | ok v => cases h; rfl
        | throws => cases h
        | ub => cases h
      · cases h; rfl
    | mis i =>
      rw [modifyAt] at h
      split at h
      · revert h
        generalize modifyAt f p _ = o
        intro h
        cases o with
        | ok v => cases h; rfl
        | throws => cases h
        | ub => cases h
      · cases h; rfl

theorem round_ty {n : NumLib} {kids : List (List Step × Elem)} {st st' : Merging} {k : Elem × (Elem → Outcome Elem)}
    (h : st.round n kids k = .ok st') : st'.target.ty = st.target.ty := by
  unfold Merging.round at h
  split at h
  · split at h
    · split at h
      · revert h
        generalize k.2 _ = o
        intro h
        cases o with
        | ok v => cases h; rfl
        | throws => cases h
        | ub => cases h
      · rename_i hr _
        cases hm : modifyAt k.2 (‹List Step × Elem›).1 st.target with
        | ok v =>
          rw [hm] at h
          cases h
          rw [hr] at hm
          exact modifyAt_ty hm
        | throws => rw [hm] at h; cases h
        | ub => rw [hm] at h; cases h
    · cases h; rfl
  · unfold Merging.add at h
    cases hc : clone n k.1 with
    | throws => rw [hc] at h; cases h
    | ub => rw [hc] at h; cases h
    | ok o =>
      rw [hc] at h
      cases o with
      | none => cases h; rfl
      | some y =>
        simp only [Outcome.ok_bind] at h
        cases ha : addElement n [] st.target y with
        | throws => rw [ha] at h; cases h
        | ub => rw [ha] at h; cases h
        | ok e =>
          rw [ha] at h
          cases h
          exact addElement_ty ha

theorem rounds_ty {n : NumLib} {kids : List (List Step × Elem)} : ∀ (ks : List (Elem × (Elem → Outcome Elem)))
    {st st' : Merging}, Merging.rounds n kids st ks = .ok st' → st'.target.ty = st.target.ty
  | [], st, st', h => by cases h; rfl
  | k :: ks, st, st', h => by
    rw [Merging.rounds] at h
    cases hr : st.round n kids k with
    | throws => rw [hr] at h; cases h
    | ub => rw [hr] at h; cases h
    | ok s =>
      rw [hr] at h
      rw [rounds_ty ks h, round_ty hr]

/-- Merging does not change the type. -/
theorem mergeElements_ty {n : NumLib} {s e r : Elem} (h : mergeElements n s e = .ok r) : r.ty = e.ty := by
  cases s with
  | field t v => exact mergeRun_ty _ h
  | node t a slots mis unk =>
    rw [mergeElements] at h
    simp only at h
    revert h
    generalize hR : Merging.rounds n _ _ _ = o
    intro h
    cases o with
    | throws => cases h
    | ub => cases h
    | ok st =>
      rw [mergeRun_ty _ h]
      exact rounds_ty _ hR

/-! ### More fuel -/

/-- More fuel gives the same. -/
def Steady (f g : StyleMerger → Option Elem → Run StyleMerger) : Prop :=
  ∀ st x r, f st x = some r → g st x = some r

theorem andThen_some {α β : Type} {x : Run α} {f : α → Run β} {r : Outcome β} (h : x.andThen f = some r) :
    (∃ a, x = some (.ok a) ∧ f a = some r) ∨ (x = some .throws ∧ r = .throws) ∨ (x = some .ub ∧ r = .ub) := by
  cases x with
  | none => cases h
  | some o =>
    cases o with
    | ok a => exact .inl ⟨a, rfl, h⟩
    | throws => cases h; exact .inr (.inl ⟨rfl, rfl⟩)
    | ub => cases h; exact .inr (.inr ⟨rfl, rfl⟩)

theorem andThen_mono {α β : Type} {x y : Run α} {f g : α → Run β} (hx : ∀ r, x = some r → y = some r)
    (hf : ∀ a r, f a = some r → g a = some r) {r : Outcome β} (h : x.andThen f = some r) : y.andThen g = some r := by
  rcases andThen_some h with ⟨a, h1, h2⟩ | ⟨h1, rfl⟩ | ⟨h1, rfl⟩
  · rw [hx _ h1]
    exact hf a r h2
  · rw [hx _ h1]; rfl
  · rw [hx _ h1]; rfl

section
variable {n : NumLib} {w : Styles}

theorem url_mono {f g : StyleMerger → Option Elem → Run StyleMerger} (h : Steady f g) {st : StyleMerger} {url : Str}
    {r : Outcome StyleMerger} (hr : st.mergeStyleUrl w f url = some r) : st.mergeStyleUrl w g url = some r := by
  unfold StyleMerger.mergeStyleUrl at hr ⊢
  split at hr
  · rw [if_pos ‹_›]; exact hr
  · rw [if_neg ‹_›]
    split at hr
    · exact h _ _ _ hr
    · exact hr

theorem style_mono {f g : StyleMerger → Option Elem → Run StyleMerger} (h : Steady f g) {st : StyleMerger} {url : Str}
    {x : Option Elem} {r : Outcome StyleMerger} (hr : st.mergeStyle w f url x = some r) :
    st.mergeStyle w g url x = some r := by
  unfold StyleMerger.mergeStyle at hr ⊢
  exact andThen_mono (fun _ => url_mono h) (fun a r => h a x r) hr

theorem pairs_mono {f g : StyleMerger → Option Elem → Run StyleMerger} (h : Steady f g) : ∀ (ps : List Elem)
    {st : StyleMerger} {r : Outcome StyleMerger}, st.mergePairs w f ps = some r → st.mergePairs w g ps = some r
  | [], st, r, hr => hr
  | p :: ps, st, r, hr => by
    rw [StyleMerger.mergePairs] at hr ⊢
    refine andThen_mono ?_ (fun a r hr => pairs_mono h ps hr) hr
    intro r hr
    split at hr
    · rw [if_pos ‹_›]; exact style_mono h hr
    · rw [if_neg ‹_›]; exact hr

theorem selector_succ : ∀ (fuel : Nat), Steady (mergeSelector n w fuel) (mergeSelector n w (fuel + 1))
  | 0, st, x, r, h => by cases h
  | fuel + 1, st, none, r, h => h
  | fuel + 1, st, some e, r, h => by
    rw [mergeSelector] at h ⊢
    split at h
    · rw [if_pos ‹_›]; exact h
    · rw [if_neg ‹_›]
      split at h
      · rw [if_pos ‹_›]
        exact pairs_mono (selector_succ fuel) _ h
      · rw [if_neg ‹_›]; exact h

theorem selector_mono {fuel fuel' : Nat} (h : fuel ≤ fuel') : Steady (mergeSelector n w fuel) (mergeSelector n w fuel') := by
  induction h with
  | refl => exact fun _ _ _ h => h
  | step _ ih => exact fun st x r hr => selector_succ _ st x r (ih st x r hr)

/-! ### It ends -/

/-- What a part of a resolution does to the merger. -/
structure Fine (st st' : StyleMerger) : Prop where
  depth : st'.depth ≤ st.depth
  count : st'.followed.length + st'.depth.toNat ≤ st.followed.length + st.depth.toNat
  ty : st'.resolved.ty = st.resolved.ty

theorem Fine.refl (st : StyleMerger) : Fine st st := ⟨Int.le_refl _, Nat.le_refl _, rfl⟩

theorem Fine.trans {a b c : StyleMerger} (h : Fine a b) (h' : Fine b c) : Fine a c :=
  ⟨Int.le_trans h'.depth h.depth, Nat.le_trans h'.count h.count, h'.ty.trans h.ty⟩

/-- A run that ends, whatever the merger holds, if its depth is at most `D`. -/
def RunEnds (D : Nat) (f : Nat → StyleMerger → Run StyleMerger) : Prop :=
  ∃ F, ∀ fuel, F ≤ fuel → ∀ st : StyleMerger, st.depth ≤ (D : Int) →
    ∃ r, f fuel st = some r ∧ ∀ st', r = .ok st' → Fine st st'

theorem RunEnds.andThen {D : Nat} {f g : Nat → StyleMerger → Run StyleMerger} (hf : RunEnds D f) (hg : RunEnds D g) :
    RunEnds D fun fuel st => (f fuel st).andThen (g fuel) := by
  obtain ⟨F, hF⟩ := hf
  obtain ⟨G, hG⟩ := hg
  refine ⟨max F G, fun fuel hfuel st hst => ?_⟩
  dsimp only
  obtain ⟨r, h1, h2⟩ := hF fuel (by omega) st hst
  rw [h1]
  cases r with
  | throws => exact ⟨.throws, rfl, fun _ h => by cases h⟩
  | ub => exact ⟨.ub, rfl, fun _ h => by cases h⟩
  | ok st' =>
    have hfine := h2 st' rfl
    obtain ⟨r, h3, h4⟩ := hG fuel (by omega) st' (Int.le_trans hfine.depth hst)
    exact ⟨r, h3, fun st'' hr => hfine.trans (h4 st'' hr)⟩

theorem RunEnds.same (D : Nat) : RunEnds D fun _ st => some (.ok st) :=
  ⟨0, fun _ _ st _ => ⟨_, rfl, fun _ h => by cases h; exact .refl _⟩⟩

/-- The styles below an element. -/
def SelEnds (n : NumLib) (w : Styles) (D : Nat) (x : Option Elem) : Prop := RunEnds D fun fuel st => mergeSelector n w fuel st x

theorem selEnds_none (D : Nat) : SelEnds n w D none := by
  refine ⟨1, fun fuel hf st _ => ⟨.ok st, ?_, fun _ h => by cases h; exact .refl _⟩⟩
  obtain ⟨k, rfl⟩ : ∃ k, fuel = k + 1 := ⟨fuel - 1, by omega⟩
  dsimp only
  rw [mergeSelector]

theorem urlEnds {D : Nat} (ih : ∀ D', D' < D → ∀ e, SelEnds n w D' (some e)) (url : Str) :
    RunEnds D fun fuel st => st.mergeStyleUrl w (mergeSelector n w fuel) url := by
  cases D with
  | zero =>
    refine ⟨0, fun fuel _ st hst => ?_⟩
    dsimp only
    refine ⟨.ok { st with depth := st.depth - 1 }, ?_, ?_⟩
    · unfold StyleMerger.mergeStyleUrl
      rw [if_pos (by omega)]
    · intro st' h
      cases h
      exact ⟨by simp only; omega, by simp only; omega, rfl⟩
  | succ D =>
    have step : ∀ st : StyleMerger, ¬ st.depth - 1 < 0 →
        Fine st ⟨st.depth - 1, st.resolved, st.followed ++ [url]⟩ := fun st h =>
      ⟨by simp only; omega, by simp only [List.length_append, List.length_singleton]; omega, rfl⟩
    cases hfind : w.find url with
    | none =>
      refine ⟨0, fun fuel _ st hst => ?_⟩
      dsimp only
      unfold StyleMerger.mergeStyleUrl
      rw [hfind]
      split
      · refine ⟨_, rfl, fun st' h => ?_⟩
        cases h
        exact ⟨by simp only; omega, by simp only; omega, rfl⟩
      · refine ⟨_, rfl, fun st' h => ?_⟩
        cases h
        exact step st ‹_›
    | some e =>
      obtain ⟨F, hF⟩ := ih D (by omega) e
      refine ⟨F, fun fuel hfuel st hst => ?_⟩
      dsimp only
      unfold StyleMerger.mergeStyleUrl
      rw [hfind]
      split
      · refine ⟨_, rfl, fun st' h => ?_⟩
        cases h
        exact ⟨by simp only; omega, by simp only; omega, rfl⟩
      · obtain ⟨r, h1, h2⟩ := hF fuel hfuel ⟨st.depth - 1, st.resolved, st.followed ++ [url]⟩ (by simp only; omega)
        exact ⟨r, h1, fun st' h => (step st ‹_›).trans (h2 st' h)⟩

theorem pairsEnd {D : Nat} (ih : ∀ D', D' < D → ∀ e, SelEnds n w D' (some e)) : ∀ (ps : List Elem),
    (∀ p ∈ ps, SelEnds n w D (p.only M.«styleselector»)) →
    RunEnds D fun fuel st => st.mergePairs w (mergeSelector n w fuel) ps
  | [], _ => by
    simp only [StyleMerger.mergePairs]
    exact .same D
  | p :: ps, h => by
    simp only [StyleMerger.mergePairs]
    refine RunEnds.andThen (f := fun fuel st => if pairKey p = w.state then
        st.mergeStyle w (mergeSelector n w fuel) (p.text M.«styleurl») (p.only M.«styleselector»)
      else some (.ok st)) ?_ (pairsEnd ih ps fun q hq => h q (List.mem_cons_of_mem _ hq))
    split
    · exact RunEnds.andThen (urlEnds ih _) (h p (by simp))
    · exact .same D

theorem selEnds (D : Nat) : ∀ e, SelEnds n w D (some e) := by
  induction D using Nat.strongRecOn with
  | _ D ih =>
    have key : ∀ e : Elem, SelEnds n w D (some e) ∧ ∀ m, ∀ x ∈ e.items m, SelEnds n w D (some x) := by
      refine Elem.rec (motive_1 := fun e => SelEnds n w D (some e) ∧ ∀ m, ∀ x ∈ e.items m, SelEnds n w D (some x))
        (motive_2 := fun l => ∀ e ∈ l, SelEnds n w D (some e) ∧ ∀ m, ∀ x ∈ e.items m, SelEnds n w D (some x))
        ?_ ?_ ?_ ?_
      · intro t s
        refine ⟨⟨1, fun fuel hf st _ => ?_⟩, fun m x hx => by cases hx⟩
        obtain ⟨k, rfl⟩ : ∃ k, fuel = k + 1 := ⟨fuel - 1, by omega⟩
        dsimp only
        rw [mergeSelector]
        split
        · refine ⟨_, rfl, fun st' h => ?_⟩
          cases hm : mergeElements n (.field t s) st.resolved with
          | throws => rw [hm] at h; cases h
          | ub => rw [hm] at h; cases h
          | ok v => rw [hm] at h; cases h; exact ⟨Int.le_refl _, Nat.le_refl _, mergeElements_ty hm⟩
        · split
          · exact ⟨_, rfl, fun st' h => by cases h; exact .refl _⟩
          · exact ⟨_, rfl, fun st' h => by cases h; exact .refl _⟩
      · intro t a slots mis unk hs _
        have hpairs := pairsEnd ih (slots M.«pair_array») (by
          intro p hp
          cases hc : p.only M.«styleselector» with
          | none => exact selEnds_none D
          | some x =>
            refine (hs M.«pair_array» p hp).2 M.«styleselector» x ?_
            cases p with
            | field => cases hc
            | node => exact List.mem_of_mem_head? hc)
        refine ⟨?_, fun m x hx => (hs m x hx).1⟩
        obtain ⟨F, hF⟩ := hpairs
        refine ⟨F + 1, fun fuel hf st hst => ?_⟩
        dsimp only
        obtain ⟨k, rfl⟩ : ∃ k, fuel = k + 1 := ⟨fuel - 1, by omega⟩
        rw [mergeSelector]
        split
        · refine ⟨_, rfl, fun st' h => ?_⟩
          cases hm : mergeElements n (.node t a slots mis unk) st.resolved with
          | throws => rw [hm] at h; cases h
          | ub => rw [hm] at h; cases h
          | ok v => rw [hm] at h; cases h; exact ⟨Int.le_refl _, Nat.le_refl _, mergeElements_ty hm⟩
        · split
          · exact hF k (by omega) st hst
          · exact ⟨_, rfl, fun st' h => by cases h; exact .refl _⟩
      · intro e he; cases he
      · intro x xs hx hxs e he
        rcases List.mem_cons.1 he with rfl | he
        · exact hx
        · exact hxs e he
    exact fun e => (key e).1

theorem resolve_ends (limit : Nat) (url : Str) (inline : Option Elem) : ∃ F r,
    (∀ fuel, F ≤ fuel → createResolvedStyle n w limit fuel url inline = some r) ∧
    ∀ st, r = .ok st → st.followed.length ≤ limit ∧ st.resolved.ty = Ty.«Style» := by
  have h : RunEnds limit fun fuel st => st.mergeStyle w (mergeSelector n w fuel) url inline := by
    refine RunEnds.andThen (urlEnds (fun D' _ => selEnds D') url) ?_
    cases inline with
    | none => exact selEnds_none limit
    | some e => exact selEnds limit e
  obtain ⟨F, hF⟩ := h
  obtain ⟨r, h1, h2⟩ := hF F (Nat.le_refl _) (.init limit) (by simp [StyleMerger.init])
  dsimp only at h1
  refine ⟨F, r, fun fuel hfuel => style_mono (selector_mono hfuel) h1, fun st hst => ?_⟩
  have := h2 st hst
  refine ⟨?_, this.ty⟩
  have := this.count
  simp only [StyleMerger.init, List.length_nil, Int.toNat_natCast] at this
  omega

/-! ### What it merges -/

theorem mergeAll_append (l₁ l₂ : List Elem) (e : Elem) :
    mergeAll n (l₁ ++ l₂) e = (mergeAll n l₁ e).bind (mergeAll n l₂) := by
  induction l₁ generalizing e with
  | nil => rfl
  | cons x l₁ ih =>
    simp only [List.cons_append, mergeAll]
    cases mergeElements n x e with
    | ok v => exact ih v
    | throws => rfl
    | ub => rfl

/-- The result of merging `l`, with `c` pairs looked at. -/
def After (n : NumLib) (st : StyleMerger) (c : Nat) (l : List Elem) (r : Outcome StyleMerger) : Prop :=
  ∃ f, r = (mergeAll n l st.resolved).bind fun res => .ok ⟨st.depth - c, res, f⟩

theorem After.then {st : StyleMerger} {c₁ c₂ : Nat} {l₁ l₂ : List Elem} {x : Run StyleMerger} {f : StyleMerger → Run StyleMerger}
    {r : Outcome StyleMerger} (h : x.andThen f = some r) (hx : ∀ r, x = some r → After n st c₁ l₁ r)
    (hf : ∀ (st' : StyleMerger) r, f st' = some r → st'.depth = st.depth - c₁ → After n st' c₂ l₂ r) :
    After n st (c₁ + c₂) (l₁ ++ l₂) r := by
  unfold After
  rw [mergeAll_append]
  rcases andThen_some h with ⟨a, h1, h2⟩ | ⟨h1, rfl⟩ | ⟨h1, rfl⟩
  · obtain ⟨g, hg⟩ := hx _ h1
    cases hm : mergeAll n l₁ st.resolved with
    | throws => rw [hm] at hg; cases hg
    | ub => rw [hm] at hg; cases hg
    | ok res =>
      rw [hm] at hg
      cases hg
      obtain ⟨g', hg'⟩ := hf _ _ h2 rfl
      refine ⟨g', ?_⟩
      rw [hg']
      simp only [Outcome.bind]
      cases mergeAll n l₂ res with
      | ok v =>
        simp only [Outcome.ok.injEq, StyleMerger.mk.injEq, and_true]
        push_cast
        omega
      | throws => rfl
      | ub => rfl
  · obtain ⟨g, hg⟩ := hx _ h1
    cases hm : mergeAll n l₁ st.resolved with
    | throws => exact ⟨[], rfl⟩
    | ub => rw [hm] at hg; cases hg
    | ok res => rw [hm] at hg; cases hg
  · obtain ⟨g, hg⟩ := hx _ h1
    cases hm : mergeAll n l₁ st.resolved with
    | ub => exact ⟨[], rfl⟩
    | throws => rw [hm] at hg; cases hg
    | ok res => rw [hm] at hg; cases hg

mutual

theorem url_last {find : Str → Option Elem} {state : Str} : ∀ {d c k : Nat} {url : Str} {l : List Elem},
    UrlGives find state d c k url l → k ≤ c
  | _, _, _, _, _, .nothing _ => by omega
  | _, _, _, _, _, .found _ h => by have := sel_last h; omega

theorem sel_last {find : Str → Option Elem} {state : Str} : ∀ {d c k : Nat} {x : Option Elem} {l : List Elem},
    SelGives find state d c k x l → k ≤ c
  | _, _, _, _, _, .none => by omega
  | _, _, _, _, _, .style _ => by omega
  | _, _, _, _, _, .map _ h => pairs_last h
  | _, _, _, _, _, .other _ _ => by omega

theorem pairs_last {find : Str → Option Elem} {state : Str} : ∀ {d c k : Nat} {ps : List Elem} {l : List Elem},
    PairsGive find state d c k ps l → k ≤ c
  | _, _, _, _, _, .nil => by omega
  | _, _, _, _, _, .cons h1 h2 h3 => by
    have := url_last h1
    have := sel_last h2
    have := pairs_last h3
    unfold lastOf
    split <;> split at * <;> omega

end

theorem lastOf_le {c₁ k₁ k₂ D : Nat} (h1 : k₁ ≤ c₁) (h : lastOf c₁ k₁ k₂ ≤ D) : k₁ ≤ D ∧ (k₂ = 0 ∨ c₁ + k₂ ≤ D) := by
  unfold lastOf at h
  split at h <;> omega

theorem mergePairs_filter (f : StyleMerger → Option Elem → Run StyleMerger) : ∀ (ps : List Elem) (st : StyleMerger),
    st.mergePairs w f ps = st.mergePairs w f (ps.filter fun p => decide (pairKey p = w.state))
  | [], st => rfl
  | p :: ps, st => by
    rw [List.filter_cons]
    by_cases hp : pairKey p = w.state
    · rw [if_pos (by simpa using hp)]
      simp only [StyleMerger.mergePairs]
      congr 1
      funext st
      exact mergePairs_filter f ps st
    · rw [if_neg (by simpa using hp), StyleMerger.mergePairs, if_neg hp]
      exact mergePairs_filter f ps st

mutual

theorem url_after : ∀ {d c k : Nat} {url : Str} {l : List Elem}, UrlGives w.find w.state d c k url l →
    ∀ (fuel : Nat) (st : StyleMerger) (r : Outcome StyleMerger), k ≤ st.depth.toNat →
    st.mergeStyleUrl w (mergeSelector n w fuel) url = some r → After n st c l r
  | _, _, _, _, _, .nothing hfind, fuel, st, r, hk, h => by
    unfold StyleMerger.mergeStyleUrl at h
    rw [hfind] at h
    split at h
    · cases h; exact ⟨_, rfl⟩
    · cases h; exact ⟨_, rfl⟩
  | _, _, _, _, _, .found (d := d) (c := c) (k := k) hfind hs, fuel, st, r, hk, h => by
    unfold StyleMerger.mergeStyleUrl at h
    rw [hfind, if_neg (by omega)] at h
    obtain ⟨f, hf⟩ := sel_after hs fuel _ r (by simp only; omega) h
    refine ⟨f, ?_⟩
    rw [hf]
    simp only
    congr 1
    funext res
    rw [show st.depth - 1 - (c : Int) = st.depth - ((c + 1 : Nat) : Int) by push_cast; omega]

theorem sel_after : ∀ {d c k : Nat} {x : Option Elem} {l : List Elem}, SelGives w.find w.state d c k x l →
    ∀ (fuel : Nat) (st : StyleMerger) (r : Outcome StyleMerger), k ≤ st.depth.toNat →
    mergeSelector n w fuel st x = some r → After n st c l r
  | _, _, _, _, _, _, 0, _, _, _, h => by cases h
  | _, _, _, _, _, .none, fuel + 1, st, r, hk, h => by
    rw [mergeSelector] at h
    cases h
    exact ⟨st.followed, by simp [mergeAll, Outcome.bind]⟩
  | _, _, _, _, _, .style hty, fuel + 1, st, r, hk, h => by
    rw [mergeSelector, if_pos hty] at h
    cases h
    refine ⟨st.followed, ?_⟩
    simp only [mergeAll]
    cases mergeElements n _ st.resolved with
    | ok v => simp [Outcome.bind]
    | throws => rfl
    | ub => rfl
  | _, _, _, _, _, .map hty hp, fuel + 1, st, r, hk, h => by
    rw [mergeSelector, if_neg (by rw [hty]; decide), if_pos hty, mergePairs_filter] at h
    simp only [← forState_eq] at h
    exact pairs_after hp fuel st r hk (fun p hp => of_decide_eq_true ((forState_eq p _).symm.trans (List.mem_filter.1 hp).2)) h
  | _, _, _, _, _, .other h1 h2, fuel + 1, st, r, hk, h => by
    rw [mergeSelector, if_neg h1, if_neg h2] at h
    cases h
    exact ⟨st.followed, by simp [mergeAll, Outcome.bind]⟩

theorem pairs_after : ∀ {d c k : Nat} {ps : List Elem} {l : List Elem}, PairsGive w.find w.state d c k ps l →
    ∀ (fuel : Nat) (st : StyleMerger) (r : Outcome StyleMerger), k ≤ st.depth.toNat →
    (∀ p ∈ ps, pairKey p = w.state) → st.mergePairs w (mergeSelector n w fuel) ps = some r → After n st c l r
  | _, _, _, _, _, .nil, fuel, st, r, hk, _, h => by
    cases h
    exact ⟨st.followed, by simp [mergeAll, Outcome.bind]⟩
  | _, _, _, _, _, .cons (c₁ := c₁) (k₁ := k₁) (c₂ := c₂) (k₂ := k₂) (c₃ := c₃) (k₃ := k₃) h1 h2 h3,
      fuel, st, r, hk, hkey, h => by
    rw [StyleMerger.mergePairs, if_pos (hkey _ (by simp))] at h
    unfold StyleMerger.mergeStyle at h
    obtain ⟨hk1, hk23⟩ := lastOf_le (url_last h1) hk
    have hassoc : ∀ {x : Run StyleMerger} {f g : StyleMerger → Run StyleMerger},
        (x.andThen f).andThen g = x.andThen fun a => (f a).andThen g := by
      intro x f g
      cases x with
      | none => rfl
      | some o => cases o <;> rfl
    rw [hassoc] at h
    refine After.then h (fun r hr => url_after h1 fuel st r hk1 hr) fun st1 r1 hr1 hd1 => ?_
    have hk2 : k₂ ≤ st1.depth.toNat ∧ (k₃ = 0 ∨ c₂ + k₃ ≤ st1.depth.toNat) := by
      rcases hk23 with h0 | h0
      · have := sel_last h2
        unfold lastOf at h0
        split at h0
        · have : k₂ = 0 := h0
          omega
        · omega
      · exact lastOf_le (sel_last h2) (by omega)
    refine After.then hr1 (fun r hr => sel_after h2 fuel st1 r hk2.1 hr) fun st2 r2 hr2 hd2 => ?_
    exact pairs_after h3 fuel st2 r2 (by omega) (fun p hp => hkey p (List.mem_cons_of_mem _ hp)) hr2

end

theorem chain_gives {find : Str → Option Elem} {state : Str} {k : Nat} {url : Str} {l : List Elem}
    (h : Chain find state k url l) : ∃ c, k ≤ c ∧ UrlGives find state k c k url l := by
  induction h with
  | nothing h => exact ⟨1, by omega, .nothing h⟩
  | style h hty => exact ⟨1, by omega, .found h (.style hty)⟩
  | @map url e p k l hfind hty hp hsel _ ih =>
    obtain ⟨c, hkc, hc⟩ := ih
    have hs : SelGives find state 0 0 0 (p.only M.«styleselector») (p.only M.«styleselector»).toList := by
      rcases hsel with h | ⟨s, h, hs⟩
      · rw [h]; exact .none
      · rw [h]; exact .style hs
    have := PairsGive.cons hc hs .nil
    rw [List.append_nil] at this
    refine ⟨c + 1, by omega, ?_⟩
    have hm := SelGives.map (find := find) (state := state) (e := e) hty (by rw [hp]; exact this)
    have := UrlGives.found hfind hm
    simpa [lastOf] using this

end

end Kml.Dom
