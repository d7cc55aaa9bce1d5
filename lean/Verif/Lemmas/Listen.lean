import Verif.Lemmas.Observers
import Verif.Lemmas.Clone
import Verif.Spec.Listen

/-!
# Lemmas about observers that listen
-/

namespace Kml.Dom

open Kml

variable {σ : Type}

attribute [local irreducible] kml22Elements Xsd.tagToId classes inc dec uintSize

/-- These observers take notices in with `f`, object where it gives nothing, and never veto. -/
structure Listens (os : List (Observer σ)) (f : σ → Notice → Option σ) : Prop where
  new : ∀ s e, (f s (.new e) = none → (callAll (fun o s => o.new s e) os s).1 = false) ∧
    ∀ s', f s (.new e) = some s' → callAll (fun o s => o.new s e) os s = (true, s')
  fin : ∀ s p c, callAll (fun o s => o.endElement s p c) os s = (true, s)
  add : ∀ s p c, (f s (.add p c) = none → (callAll (fun o s => o.addChild s p c) os s).1 = false) ∧
    ∀ s', f s (.add p c) = some s' → callAll (fun o s => o.addChild s p c) os s = (true, s')

/-- All notices taken in, one after the other. -/
def takeIn (f : σ → Notice → Option σ) (s : σ) (l : List Notice) : Option σ :=
  l.foldl (fun o x => o.bind fun s => f s x) (some s)

theorem foldl_none (f : σ → Notice → Option σ) : ∀ l : List Notice,
    l.foldl (fun (o : Option σ) x => o.bind fun s => f s x) none = none
  | [] => rfl
  | _ :: l => foldl_none f l

theorem takeIn_snoc (f : σ → Notice → Option σ) (s : σ) (l : List Notice) (x : Notice) :
    takeIn f s (l ++ [x]) = (takeIn f s l).bind fun s => f s x := by
  unfold takeIn
  rw [List.foldl_append]
  rfl

theorem takeIn_prefix {f : σ → Notice → Option σ} {s : σ} {l l' : List Notice} (h : l <+: l')
    (hn : takeIn f s l = none) : takeIn f s l' = none := by
  obtain ⟨r, rfl⟩ := h
  unfold takeIn at hn ⊢
  rw [List.foldl_append, hn]
  exact foldl_none f r

/-! ### The recorder -/

theorem recorder_new (l : List Notice) (e : Elem) :
    callAll (fun o s => o.new s e) [recorder] l = (true, l ++ [.new e]) := rfl

theorem recorder_fin (l : List Notice) (p c : Elem) :
    callAll (fun o s => o.endElement s p c) [recorder] l = (true, l) := rfl

theorem recorder_add (l : List Notice) (p c : Elem) :
    callAll (fun o s => o.addChild s p c) [recorder] l = (true, l ++ [.add p c]) := rfl

theorem buildKnown_recorded {n : NumLib} {d : Nat} {e : Elem} {l : List Notice} {inner : Str} {height : Nat}
    {kids : Elem → List Notice → Outcome (Option (Elem × Str × List Notice))} {child : Elem} {l' : List Notice}
    (hk : ∀ e l r, kids e l = .ok (some r) → l <+: r.2.2)
    (h : buildKnown n [recorder] d e l inner height kids = .ok (some (child, l'))) : l ++ [.new e] <+: l' := by
  obtain ⟨s1, h1, h2⟩ := buildKnown_inv h
  rw [recorder_new] at h1
  cases h1
  rcases h2 with ⟨_, _, _, rfl⟩ | ⟨_, e1, text, hkids, _⟩
  · exact List.prefix_refl _
  · exact hk _ _ _ hkids

theorem buildChild_recorded {n : NumLib} {d : Nat} {cur : Elem} {text : Str} {l : List Notice}
    {name : Str} {attrs : List (Str × Str)} {whole inner : Str} {height : Nat}
    {kids : Elem → List Notice → Outcome (Option (Elem × Str × List Notice))} {r : Elem × Str × List Notice}
    (hk : ∀ e l r, kids e l = .ok (some r) → l <+: r.2.2)
    (h : buildChild n [recorder] d cur text l name attrs whole inner height kids = .ok (some r)) : l <+: r.2.2 := by
  obtain ⟨_, _, h3⟩ := buildChild_inv h
  rcases h3 with ⟨_, _, _, _, hs⟩ | ⟨_, e, child, s2, _, hb, _, ha⟩
  · rw [hs]
    exact List.prefix_refl _
  · rw [recorder_fin, recorder_add] at ha
    rw [← (Prod.mk.inj ha).2]
    exact (List.prefix_append _ _).trans ((buildKnown_recorded hk hb).trans (List.prefix_append _ _))

mutual

theorem buildKid_recorded (n : NumLib) : ∀ (x : Xml) (d : Nat) (cur : Elem) (text : Str) (l : List Notice)
    (r : Elem × Str × List Notice), buildKid n [recorder] d cur text l x = .ok (some r) → l <+: r.2.2
  | .text t, d, cur, text, l, r, h => by
    simp only [buildKid, Outcome.ok.injEq, Option.some.injEq] at h
    subst h
    exact List.prefix_refl _
  | .empty name attrs, d, cur, text, l, r, h => by
    rw [buildKid] at h
    refine buildChild_recorded (fun e l r hr => ?_) h
    simp only [Outcome.ok.injEq, Option.some.injEq] at hr
    subst hr
    exact List.prefix_refl _
  | .elem name attrs ks, d, cur, text, l, r, h => by
    rw [buildKid] at h
    exact buildChild_recorded (fun e l r hr => buildKids_recorded n ks (d + 1) e [] l r hr) h

theorem buildKids_recorded (n : NumLib) : ∀ (xs : List Xml) (d : Nat) (cur : Elem) (text : Str) (l : List Notice)
    (r : Elem × Str × List Notice), buildKids n [recorder] d cur text l xs = .ok (some r) → l <+: r.2.2
  | [], d, cur, text, l, r, h => by
    simp only [buildKids, Outcome.ok.injEq, Option.some.injEq] at h
    subst h
    exact List.prefix_refl _
  | x :: xs, d, cur, text, l, r, h => by
    obtain ⟨c, t, s1, h1, h2⟩ := buildKids_cons_inv h
    exact (buildKid_recorded n x d cur text l _ h1).trans (buildKids_recorded n xs d c t s1 r h2)

end

/-! ### Any observers that listen -/

/-- The end of a step of other observers, from that of the recorder. -/
def heard (f : σ → Notice → Option σ) (s0 : σ) (r : Option (Elem × Str × List Notice)) : Option (Elem × Str × σ) :=
  r.bind fun q => (takeIn f s0 q.2.2).map fun s => (q.1, q.2.1, s)

/-- The same for a step without text. -/
def heardElem (f : σ → Notice → Option σ) (s0 : σ) (r : Option (Elem × List Notice)) : Option (Elem × σ) :=
  r.bind fun q => (takeIn f s0 q.2).map fun s => (q.1, s)

theorem buildKnown_heard {n : NumLib} {os : List (Observer σ)} {f : σ → Notice → Option σ} (hos : Listens os f)
    {s0 : σ} {d : Nat} {e : Elem} {l : List Notice} {s : σ} {inner : Str} {height : Nat}
    {kids : Elem → List Notice → Outcome (Option (Elem × Str × List Notice))}
    {kids' : Elem → σ → Outcome (Option (Elem × Str × σ))} {r : Option (Elem × List Notice)}
    (hl : takeIn f s0 l = some s)
    (hk : ∀ e l r, kids e l = .ok (some r) → l <+: r.2.2)
    (hkk : ∀ e l s r, takeIn f s0 l = some s → kids e l = .ok r → kids' e s = .ok (heard f s0 r))
    (h : buildKnown n [recorder] d e l inner height kids = .ok r) :
    buildKnown n os d e s inner height kids' = .ok (heardElem f s0 r) := by
  rcases Option.eq_none_or_eq_some (f s (.new e)) with hn | ⟨s1, hs1⟩
  · have hf := (hos.new s e).1 hn
    have : buildKnown n os d e s inner height kids' = .ok none := by
      unfold buildKnown
      rcases hc : callAll (fun o s => o.new s e) os s with ⟨b, s2⟩
      rw [hc] at hf
      simp only at hf
      subst hf
      rfl
    rw [this]
    cases r with
    | none => rfl
    | some q =>
      have hp := buildKnown_recorded hk h
      have : takeIn f s0 (l ++ [.new e]) = none := by rw [takeIn_snoc, hl]; exact hn
      unfold heardElem
      rw [Option.bind_some, takeIn_prefix hp this]
      rfl
  · have hl1 : takeIn f s0 (l ++ [.new e]) = some s1 := by rw [takeIn_snoc, hl]; exact hs1
    unfold buildKnown at h ⊢
    rw [(hos.new s e).2 s1 hs1]
    rw [recorder_new] at h
    simp only at h ⊢
    by_cases hx : e.ty = Ty.«description»
    · rw [if_pos hx] at h ⊢
      by_cases hd : d + height > 100
      · rw [if_pos hd] at h ⊢
        cases h
        rfl
      · rw [if_neg hd] at h ⊢
        cases hf : finishElement n e inner with
        | ok e' =>
          rw [hf] at h
          cases h
          simp only [Outcome.ok_bind, heardElem, Option.bind_some, hl1]
          rfl
        | throws => rw [hf] at h; cases h
        | ub => rw [hf] at h; cases h
    · rw [if_neg hx] at h ⊢
      cases hkr : kids e (l ++ [.new e]) with
      | ok o =>
        rw [hkk e _ s1 o hl1 hkr]
        rw [hkr] at h
        cases o with
        | none => cases h; rfl
        | some q =>
          simp only [Outcome.ok_bind] at h
          cases hf : finishElement n q.1 q.2.1 with
          | ok e' =>
            rw [hf] at h
            cases h
            rcases Option.eq_none_or_eq_some (takeIn f s0 q.2.2) with ht | ⟨s2, ht⟩
            · simp only [heard, heardElem, Option.bind_some, ht, Outcome.ok_bind]
              rfl
            · simp only [heard, heardElem, Option.bind_some, ht, Outcome.ok_bind, Option.map_some, hf]
          | throws => rw [hf] at h; cases h
          | ub => rw [hf] at h; cases h
      | throws => rw [hkr] at h; cases h
      | ub => rw [hkr] at h; cases h

theorem buildChild_heard {n : NumLib} {os : List (Observer σ)} {f : σ → Notice → Option σ} (hos : Listens os f)
    {s0 : σ} {d : Nat} {cur : Elem} {text : Str} {l : List Notice} {s : σ}
    {name : Str} {attrs : List (Str × Str)} {whole inner : Str} {height : Nat}
    {kids : Elem → List Notice → Outcome (Option (Elem × Str × List Notice))}
    {kids' : Elem → σ → Outcome (Option (Elem × Str × σ))} {r : Option (Elem × Str × List Notice)}
    (hl : takeIn f s0 l = some s)
    (hk : ∀ e l r, kids e l = .ok (some r) → l <+: r.2.2)
    (hkk : ∀ e l s r, takeIn f s0 l = some s → kids e l = .ok r → kids' e s = .ok (heard f s0 r))
    (h : buildChild n [recorder] d cur text l name attrs whole inner height kids = .ok r) :
    buildChild n os d cur text s name attrs whole inner height kids' = .ok (heard f s0 r) := by
  unfold buildChild at h ⊢
  by_cases hd : d + 1 > 100
  · rw [if_pos hd] at h ⊢
    cases h; rfl
  · rw [if_neg hd] at h ⊢
    rcases Option.eq_none_or_eq_some (makeElement n (some cur.ty) (Xsd.elementId name) attrs) with hm | ⟨e, hm⟩
    · rw [hm] at h ⊢
      simp only at h ⊢
      by_cases hh : d + 1 + height > 100
      · rw [if_pos hh] at h ⊢
        cases h; rfl
      · rw [if_neg hh] at h ⊢
        cases h
        simp only [heard, Option.bind_some, hl]
        rfl
    · rw [hm] at h ⊢
      simp only at h ⊢
      cases hb : buildKnown n [recorder] (d + 1) e l inner height kids with
      | ok o =>
        rw [buildKnown_heard hos hl hk hkk hb]
        rw [hb] at h
        cases o with
        | none => cases h; rfl
        | some q =>
          obtain ⟨child, l2⟩ := q
          simp only [Outcome.ok_bind, handOver, recorder_fin, recorder_add, if_true] at h
          cases hg : giveChild n true cur child with
          | ok c =>
            rw [hg] at h
            cases h
            rcases Option.eq_none_or_eq_some (takeIn f s0 l2) with ht | ⟨s2, ht⟩
            · simp only [heardElem, heard, Option.bind_some, ht, Outcome.ok_bind, takeIn_snoc]
              rfl
            · simp only [heardElem, heard, Option.bind_some, ht, Outcome.ok_bind, takeIn_snoc, Option.map_some, handOver,
                hos.fin, hg]
              rcases Option.eq_none_or_eq_some (f s2 (.add c child)) with ha | ⟨s3, ha⟩
              · simp only [(hos.add s2 c child).1 ha, ha]
                rfl
              · simp only [(hos.add s2 c child).2 s3 ha, ha, if_true]
                rfl
          | throws => rw [hg] at h; cases h
          | ub => rw [hg] at h; cases h
      | throws => rw [hb] at h; cases h
      | ub => rw [hb] at h; cases h

mutual

theorem buildKid_heard {n : NumLib} {os : List (Observer σ)} {f : σ → Notice → Option σ} (hos : Listens os f) (s0 : σ) :
    ∀ (x : Xml) (d : Nat) (cur : Elem) (text : Str) (l : List Notice) (s : σ) (r : Option (Elem × Str × List Notice)),
    takeIn f s0 l = some s → buildKid n [recorder] d cur text l x = .ok r →
    buildKid n os d cur text s x = .ok (heard f s0 r)
  | .text t, d, cur, text, l, s, r, hl, h => by
    rw [buildKid] at h ⊢
    cases h
    simp only [heard, Option.bind_some, hl]
    rfl
  | .empty name attrs, d, cur, text, l, s, r, hl, h => by
    rw [buildKid] at h ⊢
    refine buildChild_heard hos hl ?_ ?_ h
    · intro e l r hr
      cases hr
      exact List.prefix_refl _
    · intro e l s r hl hr
      cases hr
      simp only [heard, Option.bind_some, hl]
      rfl
  | .elem name attrs ks, d, cur, text, l, s, r, hl, h => by
    rw [buildKid] at h ⊢
    refine buildChild_heard hos hl ?_ ?_ h
    · exact fun e l r hr => buildKids_recorded n ks (d + 1) e [] l r hr
    · exact fun e l s r hl hr => buildKids_heard hos s0 ks (d + 1) e [] l s r hl hr

theorem buildKids_heard {n : NumLib} {os : List (Observer σ)} {f : σ → Notice → Option σ} (hos : Listens os f) (s0 : σ) :
    ∀ (xs : List Xml) (d : Nat) (cur : Elem) (text : Str) (l : List Notice) (s : σ)
    (r : Option (Elem × Str × List Notice)), takeIn f s0 l = some s →
    buildKids n [recorder] d cur text l xs = .ok r → buildKids n os d cur text s xs = .ok (heard f s0 r)
  | [], d, cur, text, l, s, r, hl, h => by
    rw [buildKids] at h ⊢
    cases h
    simp only [heard, Option.bind_some, hl]
    rfl
  | x :: xs, d, cur, text, l, s, r, hl, h => by
    rw [buildKids] at h ⊢
    cases hk : buildKid n [recorder] d cur text l x with
    | ok o =>
      rw [buildKid_heard hos s0 x d cur text l s o hl hk]
      rw [hk] at h
      cases o with
      | none => cases h; rfl
      | some q =>
        simp only [Outcome.ok_bind] at h
        rcases Option.eq_none_or_eq_some (takeIn f s0 q.2.2) with ht | ⟨s2, ht⟩
        · simp only [heard, Option.bind_some, ht, Outcome.ok_bind, Option.map_none]
          cases r with
          | none => rfl
          | some r =>
            rw [Option.bind_some, takeIn_prefix (buildKids_recorded n xs d q.1 q.2.1 q.2.2 r h) ht]
            rfl
        · simp only [heard, Option.bind_some, ht, Outcome.ok_bind, Option.map_some]
          exact buildKids_heard hos s0 xs d q.1 q.2.1 q.2.2 s2 r ht h
    | throws => rw [hk] at h; cases h
    | ub => rw [hk] at h; cases h

end

theorem buildRoot_heard {n : NumLib} {os : List (Observer σ)} {f : σ → Notice → Option σ} (hos : Listens os f) (s : σ)
    {name : Str} {attrs : List (Str × Str)} {ks : List Xml} {r : Option (Elem × List Notice)}
    (h : buildRoot n [recorder] [] name attrs ks = .ok r) :
    buildRoot n os s name attrs ks = .ok (heardElem f s r) := by
  unfold buildRoot at h ⊢
  rcases Option.eq_none_or_eq_some (makeElement n none (Xsd.elementId name) attrs) with hm | ⟨e, hm⟩
  · rw [hm] at h ⊢
    cases h; rfl
  · rw [hm] at h ⊢
    exact buildKnown_heard hos rfl (fun e l r hr => buildKids_recorded n ks 1 e [] l r hr)
      (fun e l s' r hl hr => buildKids_heard hos s ks 1 e [] l s' r hl hr) h

/-! ### The other way -/

theorem Listens.new_some {os : List (Observer σ)} {f : σ → Notice → Option σ} (hos : Listens os f) {s s' : σ} {e : Elem}
    (h : callAll (fun o s => o.new s e) os s = (true, s')) : f s (.new e) = some s' := by
  rcases Option.eq_none_or_eq_some (f s (.new e)) with hn | ⟨s1, hs1⟩
  · have := (hos.new s e).1 hn
    rw [h] at this
    cases this
  · rw [(hos.new s e).2 s1 hs1] at h
    cases h
    exact hs1

theorem Listens.add_some {os : List (Observer σ)} {f : σ → Notice → Option σ} (hos : Listens os f) {s s' : σ} {p c : Elem}
    (h : callAll (fun o s => o.addChild s p c) os s = (true, s')) : f s (.add p c) = some s' := by
  rcases Option.eq_none_or_eq_some (f s (.add p c)) with hn | ⟨s1, hs1⟩
  · have := (hos.add s p c).1 hn
    rw [h] at this
    cases this
  · rw [(hos.add s p c).2 s1 hs1] at h
    cases h
    exact hs1

theorem buildKnown_hears {n : NumLib} {os : List (Observer σ)} {f : σ → Notice → Option σ} (hos : Listens os f)
    {s0 : σ} {d : Nat} {e : Elem} {l : List Notice} {s : σ} {inner : Str} {height : Nat}
    {kids : Elem → List Notice → Outcome (Option (Elem × Str × List Notice))}
    {kids' : Elem → σ → Outcome (Option (Elem × Str × σ))} {child : Elem} {s' : σ}
    (hl : takeIn f s0 l = some s)
    (hkk : ∀ e l s r, takeIn f s0 l = some s → kids' e s = .ok (some r) →
      ∃ l', kids e l = .ok (some (r.1, r.2.1, l')) ∧ takeIn f s0 l' = some r.2.2)
    (h : buildKnown n os d e s inner height kids' = .ok (some (child, s'))) :
    ∃ l', buildKnown n [recorder] d e l inner height kids = .ok (some (child, l')) ∧ takeIn f s0 l' = some s' := by
  obtain ⟨s1, h1, h2⟩ := buildKnown_inv h
  have hl1 : takeIn f s0 (l ++ [.new e]) = some s1 := by
    rw [takeIn_snoc, hl]
    exact hos.new_some h1
  unfold buildKnown
  rw [recorder_new]
  rcases h2 with ⟨hx, hd, hf, rfl⟩ | ⟨hx, e1, text, hkids, hf⟩
  · refine ⟨l ++ [.new e], ?_, hl1⟩
    simp only
    rw [if_pos hx, if_neg (by omega), hf]
    rfl
  · obtain ⟨l', hk, hl'⟩ := hkk e _ s1 _ hl1 hkids
    refine ⟨l', ?_, hl'⟩
    simp only
    rw [if_neg hx, hk]
    simp only [Outcome.ok_bind]
    rw [hf]
    rfl

theorem buildChild_hears {n : NumLib} {os : List (Observer σ)} {f : σ → Notice → Option σ} (hos : Listens os f)
    {s0 : σ} {d : Nat} {cur : Elem} {text : Str} {l : List Notice} {s : σ}
    {name : Str} {attrs : List (Str × Str)} {whole inner : Str} {height : Nat}
    {kids : Elem → List Notice → Outcome (Option (Elem × Str × List Notice))}
    {kids' : Elem → σ → Outcome (Option (Elem × Str × σ))} {r : Elem × Str × σ}
    (hl : takeIn f s0 l = some s)
    (hkk : ∀ e l s r, takeIn f s0 l = some s → kids' e s = .ok (some r) →
      ∃ l', kids e l = .ok (some (r.1, r.2.1, l')) ∧ takeIn f s0 l' = some r.2.2)
    (h : buildChild n os d cur text s name attrs whole inner height kids' = .ok (some r)) :
    ∃ l', buildChild n [recorder] d cur text l name attrs whole inner height kids = .ok (some (r.1, r.2.1, l')) ∧
      takeIn f s0 l' = some r.2.2 := by
  obtain ⟨hd, ht, h3⟩ := buildChild_inv h
  unfold buildChild
  rw [if_neg (by omega)]
  rcases h3 with ⟨_, hm, hh, hc, hs⟩ | ⟨_, e, child, s2, hm, hb, hg, ha⟩
  · refine ⟨l, ?_, by rw [hs]; exact hl⟩
    rw [hm]
    simp only
    rw [if_neg (by omega), hc, ht]
  · obtain ⟨l2, hb', hl2⟩ := buildKnown_hears hos hl hkk hb
    rw [hos.fin] at hg ha
    refine ⟨l2 ++ [.add r.1 child], ?_, ?_⟩
    · rw [hm]
      simp only
      rw [hb']
      simp only [Outcome.ok_bind, handOver, recorder_fin, recorder_add, if_true, hg, ht]
    · rw [takeIn_snoc, hl2]
      exact hos.add_some ha

mutual

theorem buildKid_hears {n : NumLib} {os : List (Observer σ)} {f : σ → Notice → Option σ} (hos : Listens os f) (s0 : σ) :
    ∀ (x : Xml) (d : Nat) (cur : Elem) (text : Str) (l : List Notice) (s : σ) (r : Elem × Str × σ),
    takeIn f s0 l = some s → buildKid n os d cur text s x = .ok (some r) →
    ∃ l', buildKid n [recorder] d cur text l x = .ok (some (r.1, r.2.1, l')) ∧ takeIn f s0 l' = some r.2.2
  | .text t, d, cur, text, l, s, r, hl, h => by
    rw [buildKid] at h ⊢
    cases h
    exact ⟨l, rfl, hl⟩
  | .empty name attrs, d, cur, text, l, s, r, hl, h => by
    rw [buildKid] at h ⊢
    refine buildChild_hears hos hl ?_ h
    intro e l s r hl hr
    cases hr
    exact ⟨l, rfl, hl⟩
  | .elem name attrs ks, d, cur, text, l, s, r, hl, h => by
    rw [buildKid] at h ⊢
    exact buildChild_hears hos hl (fun e l s r hl hr => buildKids_hears hos s0 ks (d + 1) e [] l s r hl hr) h

theorem buildKids_hears {n : NumLib} {os : List (Observer σ)} {f : σ → Notice → Option σ} (hos : Listens os f) (s0 : σ) :
    ∀ (xs : List Xml) (d : Nat) (cur : Elem) (text : Str) (l : List Notice) (s : σ) (r : Elem × Str × σ),
    takeIn f s0 l = some s → buildKids n os d cur text s xs = .ok (some r) →
    ∃ l', buildKids n [recorder] d cur text l xs = .ok (some (r.1, r.2.1, l')) ∧ takeIn f s0 l' = some r.2.2
  | [], d, cur, text, l, s, r, hl, h => by
    rw [buildKids] at h ⊢
    cases h
    exact ⟨l, rfl, hl⟩
  | x :: xs, d, cur, text, l, s, r, hl, h => by
    obtain ⟨c, t, s1, h1, h2⟩ := buildKids_cons_inv h
    obtain ⟨l1, a1, b1⟩ := buildKid_hears hos s0 x d cur text l s _ hl h1
    obtain ⟨l2, a2, b2⟩ := buildKids_hears hos s0 xs d c t l1 s1 r b1 h2
    refine ⟨l2, ?_, b2⟩
    rw [buildKids, a1]
    exact a2

end

/-- A parse with observers that listen: the recorder hears the same. -/
theorem buildRoot_hears {n : NumLib} {os : List (Observer σ)} {f : σ → Notice → Option σ} (hos : Listens os f) (s : σ)
    {name : Str} {attrs : List (Str × Str)} {ks : List Xml} {e : Elem} {s' : σ}
    (h : buildRoot n os s name attrs ks = .ok (some (e, s'))) :
    ∃ l, buildRoot n [recorder] [] name attrs ks = .ok (some (e, l)) ∧ takeIn f s l = some s' := by
  unfold buildRoot at h ⊢
  rcases Option.eq_none_or_eq_some (makeElement n none (Xsd.elementId name) attrs) with hm | ⟨e0, hm⟩
  · rw [hm] at h
    cases h
  · rw [hm] at h ⊢
    exact buildKnown_hears hos rfl (fun e l s' r hl hr => buildKids_hears hos s ks 1 e [] l s' r hl hr) h

/-! ### What the recorder hears -/

/-- No observers. -/
theorem nobody : Listens ([] : List (Observer Unit)) fun _ _ => some () where
  new _ _ := ⟨fun h => (by cases h), fun _ _ => rfl⟩
  fin _ _ _ := rfl
  add _ _ _ := ⟨fun h => (by cases h), fun _ _ => rfl⟩

theorem takeIn_unit (l : List Notice) : takeIn (fun _ _ => some ()) () l = some () := by
  induction l with
  | nil => rfl
  | cons x l ih => exact ih

theorem buildKnown_about {n : NumLib} {d : Nat} {e : Elem} {l : List Notice} {ks : List Xml} {child : Elem}
    {l' : List Notice} {ts : List Told} {t : Ty} {attrs : List (Str × Str)}
    (hk : e.ty ≠ Ty.«description» → ∀ e' l r, e'.ty = e.ty → buildKids n [recorder] d e' [] l ks = .ok (some r) →
      ∃ l1, r.2.2 = l ++ l1 ∧ Each (About n) ts l1)
    (he : About n (.start t attrs) (.new e))
    (h : buildKnown n [recorder] d e l (renderAll ks) (depthOf ks)
      (fun e s => buildKids n [recorder] d e [] s ks) = .ok (some (child, l'))) :
    (∃ l1, l' = l ++ l1 ∧ Each (About n) (.start t attrs :: if e.ty = Ty.«description» then [] else ts) l1) ∧
    buildKnown n ([] : List (Observer Unit)) d e () (renderAll ks) (depthOf ks)
      (fun e s => buildKids n [] d e [] s ks) = .ok (some (child, ())) := by
  constructor
  · obtain ⟨s1, h1, h2⟩ := buildKnown_inv h
    rw [recorder_new] at h1
    cases h1
    rcases h2 with ⟨hx, _, _, rfl⟩ | ⟨hx, e1, text, hkids, _⟩
    · exact ⟨[.new e], rfl, by rw [if_pos hx]; exact .cons he .nil⟩
    · obtain ⟨l1, h1, h2⟩ := hk hx e _ _ rfl hkids
      refine ⟨.new e :: l1, ?_, ?_⟩
      · simp only at h1
        rw [h1]
        simp
      · rw [if_neg hx]
        exact .cons he h2
  · have := buildKnown_heard (n := n) nobody (s0 := ()) (s := ()) (takeIn_unit l)
      (fun e l r hr => buildKids_recorded n ks d e [] l r hr)
      (fun e l s r hl hr => buildKids_heard nobody () ks d e [] l s r hl hr) h
    rw [this]
    simp only [heardElem, Option.bind_some, takeIn_unit]
    rfl

theorem buildChild_about {n : NumLib} {d : Nat} {cur : Elem} {text : Str} {l : List Notice} {name : Str}
    {attrs : List (Str × Str)} {ks : List Xml} {whole : Str} {r : Elem × Str × List Notice} {x : Xml}
    (hx : x = .empty name attrs ∧ ks = [] ∨ x = .elem name attrs ks)
    (hk : isKnown name = true → name ≠ chars! "description" → ∀ e l r, e.ty = tyIn cur.ty name →
      buildKids n [recorder] (d + 1) e [] l ks = .ok (some r) →
      ∃ l1, r.2.2 = l ++ l1 ∧ Each (About n) (tellsOf (tyIn cur.ty name) ks) l1)
    (h : buildChild n [recorder] d cur text l name attrs whole (renderAll ks) (depthOf ks)
      (fun e s => buildKids n [recorder] (d + 1) e [] s ks) = .ok (some r)) :
    r.1.ty = cur.ty ∧ ∃ l1, r.2.2 = l ++ l1 ∧ Each (About n)
      (if isKnown name then .start (tyIn cur.ty name) attrs ::
        (if name = chars! "description" then [] else tellsOf (tyIn cur.ty name) ks) ++ [.attach cur.ty x] else []) l1 := by
  obtain ⟨_, _, h3⟩ := buildChild_inv h
  rcases h3 with ⟨hkn, _, _, hc, hs⟩ | ⟨hkn, e, child, s2, hm, hb, hg, ha⟩
  · rw [hc, hs, hkn]
    exact ⟨(by cases cur <;> rfl), [], (by simp), .nil⟩
  · have hty := makeElement_tyIn hm
    have hdesc := makeElement_description hm
    have hty' := giveChild_ty hg
    obtain ⟨⟨l1, e1, e2⟩, hr⟩ := buildKnown_about (ts := tellsOf (tyIn cur.ty name) ks)
      (t := tyIn cur.ty name) (attrs := attrs) (fun hx e' l r he hr => by
        rw [hty] at he
        exact hk hkn (fun hn => hx (hdesc.2 hn)) e' l r he hr) ⟨hty, _, _, hm⟩ hb
    refine ⟨hty', l1 ++ [.add r.1 child], ?_, ?_⟩
    · rw [recorder_fin, recorder_add] at ha
      rw [← (Prod.mk.inj ha).2, e1, List.append_assoc]
    · rw [hkn]
      simp only [if_true]
      refine Each.append ?_ (.cons ⟨hty', name, attrs, ks, d, e, hx, hm, hr⟩ .nil)
      have : (e.ty = Ty.«description») = (name = chars! "description") := propext hdesc
      simp only [this] at e2
      exact e2

mutual

theorem buildKid_about (n : NumLib) : ∀ (x : Xml) (d : Nat) (cur : Elem) (text : Str) (l : List Notice)
    (r : Elem × Str × List Notice), buildKid n [recorder] d cur text l x = .ok (some r) →
    r.1.ty = cur.ty ∧ ∃ l1, r.2.2 = l ++ l1 ∧ Each (About n) (x.tells cur.ty) l1
  | .text t, d, cur, text, l, r, h => by
    rw [buildKid] at h
    cases h
    exact ⟨rfl, [], (by simp), .nil⟩
  | .empty name attrs, d, cur, text, l, r, h => by
    rw [buildKid] at h
    have := buildChild_about (ks := []) (.inl ⟨rfl, rfl⟩) (fun _ _ e l r _ hr => by
      rw [buildKids] at hr
      cases hr
      exact ⟨[], (by simp), .nil⟩) h
    refine ⟨this.1, ?_⟩
    obtain ⟨l1, h1, h2⟩ := this.2
    refine ⟨l1, h1, ?_⟩
    simpa [Xml.tells, tellsOf] using h2
  | .elem name attrs ks, d, cur, text, l, r, h => by
    rw [buildKid] at h
    have := buildChild_about (ks := ks) (.inr rfl) (fun _ _ e l r he hr => by
      have := buildKids_about n ks (d + 1) e [] l r hr
      rw [he] at this
      exact this.2) h
    refine ⟨this.1, ?_⟩
    obtain ⟨l1, h1, h2⟩ := this.2
    exact ⟨l1, h1, by simpa [Xml.tells] using h2⟩

theorem buildKids_about (n : NumLib) : ∀ (xs : List Xml) (d : Nat) (cur : Elem) (text : Str) (l : List Notice)
    (r : Elem × Str × List Notice), buildKids n [recorder] d cur text l xs = .ok (some r) →
    r.1.ty = cur.ty ∧ ∃ l1, r.2.2 = l ++ l1 ∧ Each (About n) (tellsOf cur.ty xs) l1
  | [], d, cur, text, l, r, h => by
    rw [buildKids] at h
    cases h
    exact ⟨rfl, [], (by simp), .nil⟩
  | x :: xs, d, cur, text, l, r, h => by
    obtain ⟨c, t, s1, h1, h2⟩ := buildKids_cons_inv h
    obtain ⟨a, l1, b1, c1⟩ := buildKid_about n x d cur text l _ h1
    obtain ⟨a', l2, b2, c2⟩ := buildKids_about n xs d c t s1 r h2
    simp only at a b1
    refine ⟨a'.trans a, l1 ++ l2, by rw [b2, b1, List.append_assoc], ?_⟩
    rw [tellsOf]
    rw [a] at c2
    exact c1.append c2

end

/-- What the recorder hears is what there is to tell about the document. -/
theorem buildRoot_about {n : NumLib} {name : Str} {attrs : List (Str × Str)} {ks : List Xml} {e : Elem}
    {l : List Notice} (h : buildRoot n [recorder] [] name attrs ks = .ok (some (e, l))) :
    Each (About n) (docTells name attrs ks) l := by
  unfold buildRoot at h
  rcases Option.eq_none_or_eq_some (makeElement n none (Xsd.elementId name) attrs) with hm | ⟨e0, hm⟩
  · rw [hm] at h; cases h
  · rw [hm] at h
    have hty := makeElement_root hm
    obtain ⟨⟨l1, h1, h2⟩, _⟩ := buildKnown_about (ts := tellsOf (Xsd.elementId name) ks) (t := Xsd.elementId name)
      (attrs := attrs) (fun _ e' l r he hr => by
        have := buildKids_about n ks 1 e' [] l r hr
        rw [he, hty] at this
        exact this.2) ⟨hty, _, _, hm⟩ h
    rw [List.nil_append] at h1
    subst h1
    have hd : (e0.ty = Ty.«description») = (name = chars! "description") := propext (makeElement_description hm)
    simp only [hd] at h2
    exact h2

end Kml.Dom
