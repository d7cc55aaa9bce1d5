import Verif.Lemmas.Observers
import Verif.Lemmas.FileObs
import Verif.Lemmas.Clone
import Verif.Spec.FeatureSaver

/-!
# Observers that take elements out
-/

namespace Kml.Dom

open Kml

variable {σ : Type}

attribute [local irreducible] kml22Elements Xsd.tagToId classes inc dec uintSize

/-! ## Reading at another depth -/

theorem buildKnown_shallow {n : NumLib} {os : List (Observer σ)} {d d' : Nat} {e : Elem} {s : σ} {inner : Str} {height : Nat}
    {kids kids' : Elem → σ → Outcome (Option (Elem × Str × σ))} {r : Elem × σ} (hd : d' ≤ d)
    (hk : ∀ e s r, kids e s = .ok (some r) → kids' e s = .ok (some r))
    (h : buildKnown n os d e s inner height kids = .ok (some r)) :
    buildKnown n os d' e s inner height kids' = .ok (some r) := by
  obtain ⟨child, s2⟩ := r
  obtain ⟨s1, hn, h3⟩ := buildKnown_inv h
  unfold buildKnown
  rw [hn]
  dsimp only
  rcases h3 with ⟨hx, hh, hf, rfl⟩ | ⟨hx, e1, text1, hkids, hf⟩
  · rw [if_pos hx, if_neg (by omega), hf]
    rfl
  · rw [if_neg hx, hk _ _ _ hkids]
    simp only [Outcome.ok_bind, hf]

theorem buildChild_shallow {n : NumLib} {os : List (Observer σ)} {d d' : Nat} {cur : Elem} {text : Str} {s : σ} {name : Str}
    {attrs : List (Str × Str)} {whole inner : Str} {height : Nat}
    {kids kids' : Elem → σ → Outcome (Option (Elem × Str × σ))} {r : Elem × Str × σ} (hd : d' ≤ d)
    (hk : ∀ e s r, kids e s = .ok (some r) → kids' e s = .ok (some r))
    (h : buildChild n os d cur text s name attrs whole inner height kids = .ok (some r)) :
    buildChild n os d' cur text s name attrs whole inner height kids' = .ok (some r) := by
  obtain ⟨c, t, s'⟩ := r
  obtain ⟨hdd, rfl, h3⟩ := buildChild_inv h
  unfold buildChild
  rw [if_neg (by omega)]
  rcases h3 with ⟨hkn, hm, hh, rfl, rfl⟩ | ⟨hkn, e, child, s2, hm, hb, hg, ha⟩
  · rw [hm]
    dsimp only
    rw [if_neg (by omega)]
  · rw [hm]
    dsimp only
    rw [buildKnown_shallow (d' := d' + 1) (by omega) hk hb]
    simp only [Outcome.ok_bind, handOver, hg, ha, if_true]

mutual

theorem buildKid_shallow {n : NumLib} {os : List (Observer σ)} : ∀ (x : Xml) {d d' : Nat} {cur : Elem} {text : Str} {s : σ}
    {r : Elem × Str × σ}, d' ≤ d → buildKid n os d cur text s x = .ok (some r) →
    buildKid n os d' cur text s x = .ok (some r)
  | .text _, _, _, _, _, _, _, _, h => h
  | .empty name attrs, d, d', cur, text, s, r, hd, h => by
    rw [buildKid] at h ⊢
    exact buildChild_shallow hd (fun _ _ _ h => h) h
  | .elem name attrs ks, d, d', cur, text, s, r, hd, h => by
    rw [buildKid] at h ⊢
    exact buildChild_shallow hd (fun e s r h => buildKids_shallow ks (by omega) h) h

theorem buildKids_shallow {n : NumLib} {os : List (Observer σ)} : ∀ (xs : List Xml) {d d' : Nat} {cur : Elem} {text : Str}
    {s : σ} {r : Elem × Str × σ}, d' ≤ d → buildKids n os d cur text s xs = .ok (some r) →
    buildKids n os d' cur text s xs = .ok (some r)
  | [], _, _, _, _, _, _, _, h => h
  | x :: xs, d, d', cur, text, s, r, hd, h => by
    obtain ⟨c, t, s1, h1, h2⟩ := buildKids_cons_inv h
    rw [buildKids, buildKid_shallow x hd h1]
    exact buildKids_shallow xs hd h2

end

/-! ## Taking out -/

/-- An observer that takes elements out and looks at nothing else. -/
structure TakesOut (n : NumLib) (o : Observer σ) (P : σ → Prop) (keep : Ty → Elem → Bool) (take : σ → Elem → σ)
    (out : Ty → Str → List (Str × Str) → Bool) : Prop where
  new : ∀ s e, o.new s e = (true, s)
  add : ∀ s p c, o.addChild s p c = (true, s)
  fin : ∀ s p c, P s → o.endElement s p c = (keep p.ty c, if keep p.ty c then s else take s c)
  stays : ∀ s c, P s → P (take s c)
  agree : ∀ p name attrs e child, makeElement n (some p) (Xsd.elementId name) attrs = some e → child.head = e.head →
    keep p child = !out p name attrs
  root : ∀ p name attrs, out p name attrs = true →
    makeElement n (some p) (Xsd.elementId name) attrs = makeElement n none (Xsd.elementId name) attrs

/-- What an element taken out is built from. -/
def RootReads (n : NumLib) (x : Xml) (e : Elem) : Prop :=
  ∃ name attrs ks, x = .elem name attrs ks ∧ buildRoot n [] () name attrs ks = .ok (some (e, ()))

/-- Reading with the observer is reading what is left, and the observer got what was taken out. -/
def TookOut (n : NumLib) (P : σ → Prop) (take : σ → Elem → σ) (d : Nat) (cur : Elem) (text : Str) (left taken : List Xml)
    (s : σ) (r : Elem × Str × σ) : Prop :=
  P r.2.2 ∧ buildKids n [] d cur text () left = .ok (some (r.1, r.2.1, ())) ∧
    ∃ l, Each (RootReads n) taken l ∧ r.2.2 = l.foldl take s

variable {n : NumLib} {o : Observer σ} {P : σ → Prop} {keep : Ty → Elem → Bool} {take : σ → Elem → σ}
  {out : Ty → Str → List (Str × Str) → Bool}

theorem child_out (ho : TakesOut n o P keep take out) {d : Nat} {cur : Elem} {text : Str} {s : σ} {name : Str}
    {attrs : List (Str × Str)} {ks : List Xml} {r : Elem × Str × σ} (hs : P s)
    (ih : ∀ (e : Elem) (s : σ) (r : Elem × Str × σ), e.ty = tyIn cur.ty name → P s →
      buildKids n [o] (d + 1) e [] s ks = .ok (some r) →
      TookOut n P take (d + 1) e [] (leftOf out (tyIn cur.ty name) ks) (takenOf out (tyIn cur.ty name) ks) s r)
    (h : buildKid n [o] d cur text s (.elem name attrs ks) = .ok (some r)) :
    TookOut n P take d cur text ((Xml.elem name attrs ks).left out cur.ty) ((Xml.elem name attrs ks).taken out cur.ty) s r := by
  obtain ⟨cur', text', s'⟩ := r
  rw [buildKid] at h
  obtain ⟨hd, rfl, h3⟩ := buildChild_inv h
  rcases h3 with ⟨hkn, hm, hh, rfl, rfl⟩ | ⟨hkn, e, child, s2, hm, hb, hg, ha⟩
  · refine ⟨hs, ?_, [], ?_, rfl⟩
    · rw [Xml.left, hkn, if_neg Bool.false_ne_true]
      apply buildKids_single
      rw [buildKid, buildChild, if_neg (by omega), hm]
      dsimp only
      rw [if_neg (by omega)]
    · rw [Xml.taken, hkn, if_neg Bool.false_ne_true]
      exact .nil
  · rw [callAll_single, callAll_single, ho.add] at ha
    rw [callAll_single] at hg
    have hdesc := makeElement_description hm
    have hty := makeElement_tyIn hm
    obtain ⟨s1, hn, hk⟩ := buildKnown_inv hb
    rw [callAll_single, ho.new] at hn
    obtain ⟨_, rfl⟩ := Prod.mk.inj hn
    -- what was built inside, without observers
    have key : P s2 ∧ child.head = e.head ∧
        (∀ d', d' ≤ d + 1 → buildKnown n [] d' e () (renderAll (if name = chars! "description" then ks else leftOf out (tyIn cur.ty name) ks))
          (depthOf (if name = chars! "description" then ks else leftOf out (tyIn cur.ty name) ks))
          (fun e s => buildKids n [] d' e [] s (if name = chars! "description" then ks else leftOf out (tyIn cur.ty name) ks)) =
            .ok (some (child, ()))) ∧
        ∃ l, Each (RootReads n) (if name = chars! "description" then [] else takenOf out (tyIn cur.ty name) ks) l ∧
          s2 = l.foldl take s := by
      rcases hk with ⟨hx, hh, hf, rfl⟩ | ⟨hx, e1, text1, hkids, hf⟩
      · rw [if_pos (hdesc.1 hx), if_pos (hdesc.1 hx)]
        refine ⟨hs, finishElement_node hf, ?_, [], .nil, rfl⟩
        intro d' hd'
        unfold buildKnown
        simp only [callAll, if_pos hx]
        rw [if_neg (by omega), hf]
        rfl
      · have hnd : ¬ name = chars! "description" := fun hx' => hx (hdesc.2 hx')
        rw [if_neg hnd, if_neg hnd]
        obtain ⟨hp, hbk, l, hl, hfold⟩ := ih e s _ hty hs hkids
        refine ⟨hp, ?_, ?_, l, hl, hfold⟩
        · rw [finishElement_node hf]
          exact (buildKids_head hkids).1
        · intro d' hd'
          unfold buildKnown
          simp only [callAll, if_neg hx]
          rw [buildKids_shallow _ hd' hbk]
          simp only [Outcome.ok_bind, hf]
    obtain ⟨hp2, hhead, hbuilt, l, hl, hfold⟩ := key
    have hag := ho.agree cur.ty name attrs e child hm hhead
    rw [ho.fin _ _ _ hp2] at hg ha
    rw [Xml.left, Xml.taken, hkn, if_pos rfl, if_pos rfl]
    by_cases ho' : out cur.ty name attrs = true
    · rw [hag, ho'] at hg ha
      simp only [Bool.not_true, giveChild, Bool.false_eq_true, if_false, Outcome.ok.injEq, Prod.mk.injEq, true_and] at hg ha
      subst hg ha
      rw [if_pos ho', if_pos ho']
      refine ⟨ho.stays _ _ hp2, rfl, l ++ [child], ?_, ?_⟩
      · refine hl.append (.cons ⟨name, attrs, _, rfl, ?_⟩ .nil)
        unfold buildRoot
        rw [← ho.root _ _ _ ho', hm]
        exact hbuilt 1 (by omega)
      · rw [List.foldl_append, ← hfold]
        rfl
    · have ho'' : out cur.ty name attrs = false := by simpa using ho'
      rw [hag, ho''] at hg ha
      simp only [Bool.not_false, giveChild, if_true, Prod.mk.injEq, true_and] at hg ha
      subst ha
      rw [if_neg ho', if_neg ho', List.append_nil]
      refine ⟨hp2, ?_, l, hl, hfold⟩
      apply buildKids_single
      rw [buildKid, buildChild, if_neg (by omega), hm]
      dsimp only
      rw [hbuilt (d + 1) (Nat.le_refl _)]
      simp only [Outcome.ok_bind, handOver_nil hg]

mutual

theorem buildKid_out (ho : TakesOut n o P keep take out) : ∀ (x : Xml) {d : Nat} {cur : Elem} {text : Str} {s : σ}
    {r : Elem × Str × σ}, P s → buildKid n [o] d cur text s x = .ok (some r) →
    TookOut n P take d cur text (x.left out cur.ty) (x.taken out cur.ty) s r
  | .text t, d, cur, text, s, r, hs, h => by
    rw [buildKid] at h
    cases h
    exact ⟨hs, rfl, [], .nil, rfl⟩
  | .empty name attrs, d, cur, text, s, r, hs, h => by
    rw [buildKid_empty] at h
    obtain ⟨h1, h2, l, h3, h4⟩ := child_out ho hs (fun e s r he hp hr => by
      rw [buildKids] at hr
      cases hr
      exact ⟨hp, rfl, [], .nil, rfl⟩) h
    refine ⟨h1, ?_, l, ?_, h4⟩
    · have hone : buildKids n [] d cur text () [.empty name attrs] = buildKids n [] d cur text () [.elem name attrs []] := by
        simp only [buildKids, buildKid_empty]
      rw [← h2, Xml.left, Xml.left]
      cases isKnown name <;> cases out cur.ty name attrs <;> simp [leftOf, hone]
    · have ht : (Xml.empty name attrs).taken out cur.ty = (Xml.elem name attrs []).taken out cur.ty := by
        rw [Xml.taken, Xml.taken]
        cases isKnown name <;> cases out cur.ty name attrs <;> simp [leftOf, takenOf]
      rw [ht]
      exact h3
  | .elem name attrs ks, d, cur, text, s, r, hs, h =>
    child_out ho hs (fun e s r he hp hr => by
      have := buildKids_out ho ks hp hr
      rwa [he] at this) h

theorem buildKids_out (ho : TakesOut n o P keep take out) : ∀ (xs : List Xml) {d : Nat} {cur : Elem} {text : Str} {s : σ}
    {r : Elem × Str × σ}, P s → buildKids n [o] d cur text s xs = .ok (some r) →
    TookOut n P take d cur text (leftOf out cur.ty xs) (takenOf out cur.ty xs) s r
  | [], d, cur, text, s, r, hs, h => by
    rw [buildKids] at h
    cases h
    exact ⟨hs, rfl, [], .nil, rfl⟩
  | x :: xs, d, cur, text, s, r, hs, h => by
    obtain ⟨c, t, s1, h1, h2⟩ := buildKids_cons_inv h
    obtain ⟨a1, a2, l, a3, a4⟩ := buildKid_out ho x hs h1
    have hc : c.ty = cur.ty := congrArg (·.1) (buildKid_head h1).1
    obtain ⟨b1, b2, l', b3, b4⟩ := buildKids_out ho xs a1 h2
    rw [hc] at b2 b3
    refine ⟨b1, buildKids_append a2 b2, l ++ l', a3.append b3, ?_⟩
    rw [List.foldl_append, ← a4]
    exact b4

end

theorem buildRoot_out (ho : TakesOut n o P keep take out) {name : Str} {attrs : List (Str × Str)} {ks : List Xml} {s : σ}
    {e : Elem} {s' : σ} (hs : P s) (h : buildRoot n [o] s name attrs ks = .ok (some (e, s'))) :
    buildRoot n [] () name attrs (if name = chars! "description" then ks else leftOf out (Xsd.elementId name) ks) =
      .ok (some (e, ())) ∧
    ∃ l, Each (RootReads n) (if name = chars! "description" then [] else takenOf out (Xsd.elementId name) ks) l ∧
      s' = l.foldl take s := by
  unfold buildRoot at h ⊢
  rcases Option.eq_none_or_eq_some (makeElement n none (Xsd.elementId name) attrs) with hm | ⟨e0, hm⟩
  · rw [hm] at h; cases h
  · rw [hm] at h ⊢
    dsimp only at h ⊢
    have hdesc := makeElement_description hm
    have hty := makeElement_root hm
    obtain ⟨s1, hn, hk⟩ := buildKnown_inv h
    rw [callAll_single, ho.new] at hn
    obtain ⟨_, rfl⟩ := Prod.mk.inj hn
    rcases hk with ⟨hx, hh, hf, rfl⟩ | ⟨hx, e1, text1, hkids, hf⟩
    · rw [if_pos (hdesc.1 hx), if_pos (hdesc.1 hx)]
      refine ⟨?_, [], .nil, rfl⟩
      unfold buildKnown
      simp only [callAll, if_pos hx]
      rw [if_neg (by omega), hf]
      rfl
    · have hnd : ¬ name = chars! "description" := fun hx' => hx (hdesc.2 hx')
      rw [if_neg hnd, if_neg hnd]
      obtain ⟨_, hbk, l, hl, hfold⟩ := buildKids_out ho ks hs hkids
      rw [hty] at hbk hl
      refine ⟨?_, l, hl, hfold⟩
      unfold buildKnown
      simp only [callAll, if_neg hx]
      rw [hbk]
      simp only [Outcome.ok_bind, hf]

end Kml.Dom
