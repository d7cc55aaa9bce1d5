import Verif.Lemmas.SafeBuild
import Verif.Spec.Observers

/-! # Lemmas on observers -/

namespace Kml.Dom

open Kml

variable {σ : Type}

theorem icon_complex : Xsd.elementType Ty.«Icon» = .complex := by decide +kernel

attribute [local irreducible] kml22Elements Xsd.tagToId classes inc dec uintSize

theorem makeElement_tyIn {n : NumLib} {p : Ty} {name : Str} {attrs : List (Str × Str)} {e : Elem}
    (h : makeElement n (some p) (Xsd.elementId name) attrs = some e) : e.ty = tyIn p name := by
  unfold makeElement at h
  unfold tyIn
  split at h
  · split at h
    · cases h
    · simp only [Option.some.injEq] at h
      subst h
      simp only [Elem.ty, Option.some.injEq]
  · rename_i hs
    cases h
    rw [if_neg]
    · rfl
    · intro hx
      rw [hx.1, icon_complex] at hs
      cases hs
  · cases h

theorem makeElement_root {n : NumLib} {name : Str} {attrs : List (Str × Str)} {e : Elem}
    (h : makeElement n none (Xsd.elementId name) attrs = some e) : e.ty = Xsd.elementId name := by
  unfold makeElement at h
  split at h
  · split at h
    · cases h
    · simp only [Option.some.injEq] at h
      subst h
      show (if _ then _ else _) = _
      rw [if_neg (fun hx => by cases hx.2)]
  · cases h; rfl
  · cases h

theorem giveChild_ty {n : NumLib} {b : Bool} {p c r : Elem} (h : giveChild n b p c = .ok r) :
    r.ty = p.ty := by
  unfold giveChild at h
  split at h
  · exact addElement_ty h
  · cases h; rfl

/-- A known element was read. -/
theorem buildKnown_inv {n : NumLib} {os : List (Observer σ)} {d : Nat} {e : Elem} {s : σ} {inner : Str}
    {height : Nat} {kids : Elem → σ → Outcome (Option (Elem × Str × σ))} {child : Elem} {s2 : σ}
    (h : buildKnown n os d e s inner height kids = .ok (some (child, s2))) :
    ∃ s1, callAll (fun o s => o.new s e) os s = (true, s1) ∧
      ((e.ty = Ty.«description» ∧ d + height ≤ 100 ∧ finishElement n e inner = .ok child ∧ s2 = s1) ∨
       (e.ty ≠ Ty.«description» ∧ ∃ e1 text, kids e s1 = .ok (some (e1, text, s2)) ∧
         finishElement n e1 text = .ok child)) := by
  unfold buildKnown at h
  split at h
  · cases h
  · rename_i s1 hs1
    refine ⟨s1, hs1, ?_⟩
    by_cases hx : e.ty = Ty.«description»
    · rw [if_pos hx] at h
      by_cases hd : d + height > 100
      · rw [if_pos hd] at h; cases h
      · rw [if_neg hd] at h
        cases hf : finishElement n e inner with
        | ok e' =>
          rw [hf] at h
          simp only [Outcome.ok_bind, Outcome.ok.injEq, Option.some.injEq, Prod.mk.injEq] at h
          exact Or.inl ⟨hx, by omega, by rw [h.1], h.2.symm⟩
        | throws => rw [hf] at h; cases h
        | ub => rw [hf] at h; cases h
    · rw [if_neg hx] at h
      refine Or.inr ⟨hx, ?_⟩
      cases hk : kids e s1 with
      | ok o =>
        rw [hk] at h
        cases o with
        | none => cases h
        | some r =>
          obtain ⟨e1, text, s3⟩ := r
          simp only [Outcome.ok_bind] at h
          cases hf : finishElement n e1 text with
          | ok e' =>
            rw [hf] at h
            simp only [Outcome.ok_bind, Outcome.ok.injEq, Option.some.injEq, Prod.mk.injEq] at h
            exact ⟨e1, text, by rw [h.2], by rw [hf, h.1]⟩
          | throws => rw [hf] at h; cases h
          | ub => rw [hf] at h; cases h
      | throws => rw [hk] at h; cases h
      | ub => rw [hk] at h; cases h

/-- A child was read. -/
theorem buildChild_inv {n : NumLib} {os : List (Observer σ)} {d : Nat} {cur : Elem} {text : Str} {s : σ}
    {name : Str} {attrs : List (Str × Str)} {whole inner : Str} {height : Nat}
    {kids : Elem → σ → Outcome (Option (Elem × Str × σ))} {cur' : Elem} {text' : Str} {s' : σ}
    (h : buildChild n os d cur text s name attrs whole inner height kids = .ok (some (cur', text', s'))) :
    d + 1 ≤ 100 ∧ text' = text ∧
    ((isKnown name = false ∧ makeElement n (some cur.ty) (Xsd.elementId name) attrs = none ∧
        d + 1 + height ≤ 100 ∧ cur' = addUnknownElement cur (whole ++ ['\n']) ∧ s' = s) ∨
     (isKnown name = true ∧ ∃ e child s2,
        makeElement n (some cur.ty) (Xsd.elementId name) attrs = some e ∧
        buildKnown n os (d + 1) e s inner height kids = .ok (some (child, s2)) ∧
        giveChild n (callAll (fun o s => o.endElement s cur child) os s2).1 cur child = .ok cur' ∧
        callAll (fun o s => o.addChild s cur' child) os
          (callAll (fun o s => o.endElement s cur child) os s2).2 = (true, s'))) := by
  unfold buildChild at h
  by_cases hd : d + 1 > 100
  · rw [if_pos hd] at h; cases h
  · rw [if_neg hd] at h
    refine ⟨by omega, ?_⟩
    have hkn := makeElement_isSome n (some cur.ty) name attrs
    rcases Option.eq_none_or_eq_some (makeElement n (some cur.ty) (Xsd.elementId name) attrs) with hm | ⟨e, hm⟩
    · rw [hm] at h hkn
      simp only at h
      by_cases hh : d + 1 + height > 100
      · rw [if_pos hh] at h; cases h
      · rw [if_neg hh] at h
        simp only [Outcome.ok.injEq, Option.some.injEq, Prod.mk.injEq] at h
        exact ⟨h.2.1.symm, Or.inl ⟨hkn.symm, hm, by omega, h.1.symm, h.2.2.symm⟩⟩
    · rw [hm] at h hkn
      simp only at h
      cases hb : buildKnown n os (d + 1) e s inner height kids with
      | ok o =>
        rw [hb] at h
        cases o with
        | none => cases h
        | some r =>
          obtain ⟨child, s2⟩ := r
          simp only [Outcome.ok_bind] at h
          simp only [handOver] at h
          cases hg : giveChild n (callAll (fun o s => o.endElement s cur child) os s2).1 cur child with
          | ok c =>
            rw [hg] at h
            simp only [Outcome.ok_bind] at h
            rcases hc : callAll (fun o s => o.addChild s c child) os
              (callAll (fun o s => o.endElement s cur child) os s2).2 with ⟨b, s3⟩
            rw [hc] at h
            cases b with
            | false => simp at h
            | true =>
              simp only [if_true, Outcome.ok.injEq, Option.some.injEq, Prod.mk.injEq] at h
              obtain ⟨rfl, rfl, rfl⟩ := h
              exact ⟨rfl, Or.inr ⟨hkn.symm, e, child, s2, hm, hb, hg, hc⟩⟩
          | throws => rw [hg] at h; cases h
          | ub => rw [hg] at h; cases h
      | throws => rw [hb] at h; cases h
      | ub => rw [hb] at h; cases h

theorem buildKids_cons_inv {n : NumLib} {os : List (Observer σ)} {d : Nat} {cur : Elem} {text : Str} {s : σ}
    {x : Xml} {xs : List Xml} {r : Elem × Str × σ}
    (h : buildKids n os d cur text s (x :: xs) = .ok (some r)) :
    ∃ c t s1, buildKid n os d cur text s x = .ok (some (c, t, s1)) ∧
      buildKids n os d c t s1 xs = .ok (some r) := by
  rw [buildKids] at h
  cases hk : buildKid n os d cur text s x with
  | ok o =>
    rw [hk] at h
    cases o with
    | none => cases h
    | some q => exact ⟨q.1, q.2.1, q.2.2, rfl, h⟩
  | throws => rw [hk] at h; cases h
  | ub => rw [hk] at h; cases h

theorem buildRoot_of_parse {n : NumLib} {os : List (Observer σ)} {s : σ} {name : Str}
    {attrs : List (Str × Str)} {ks : List Xml} (hold : (Xml.elem name attrs ks).All NotOldSchema)
    (htame : (Xml.elem name attrs ks).Tame) {e : Elem} {s' : σ}
    (h : parseEvents n os s (Xml.elem name attrs ks).events = .ok (some e, s')) :
    buildRoot n os s name attrs ks = .ok (some (e, s')) := by
  have hrun := run_root n os s name attrs ks hold htame
  cases hb : buildRoot n os s name attrs ks with
  | ok o =>
    rw [hb] at hrun
    cases o with
    | none => exact absurd (hrun _ h) (by simp)
    | some r =>
      rw [h] at hrun
      simp only [Outcome.ok.injEq, Prod.mk.injEq, Option.some.injEq] at hrun
      obtain ⟨rfl, rfl⟩ := hrun
      rfl
  | throws => rw [hb, h] at hrun; cases hrun
  | ub => rw [hb, h] at hrun; cases hrun

theorem parse_of_buildRoot {n : NumLib} {os : List (Observer σ)} {s : σ} {name : Str}
    {attrs : List (Str × Str)} {ks : List Xml} (hold : (Xml.elem name attrs ks).All NotOldSchema)
    (htame : (Xml.elem name attrs ks).Tame) {e : Elem} {s' : σ}
    (h : buildRoot n os s name attrs ks = .ok (some (e, s'))) :
    parseEvents n os s (Xml.elem name attrs ks).events = .ok (some e, s') := by
  have hrun := run_root n os s name attrs ks hold htame
  rw [h] at hrun
  exact hrun

/-! ## Recording observers -/

/-- Everybody was told `x`. -/
def told (i k : Nat) (x : Note) : List (Nat × Note) := (List.range' i k).map fun j => (j, x)

theorem callAll_new_recording (e : Elem) : ∀ (os : List (Observer σ)) (i : Nat) (s : σ)
    (l : List (Nat × Note)) (s' : σ × List (Nat × Note)),
    callAll (fun o s => o.new s e) (recordingAll i os) (s, l) = (true, s') →
    s'.2 = l ++ told i os.length (.start e.ty)
  | [], i, s, l, s', h => by
    simp only [recordingAll, callAll, Prod.mk.injEq, true_and] at h
    subst h; simp [told]
  | o :: os, i, s, l, s', h => by
    simp only [recordingAll, callAll, recording] at h
    split at h
    · rename_i heq
      simp only [Prod.mk.injEq] at heq
      obtain ⟨_, rfl⟩ := heq
      have := callAll_new_recording e os (i + 1) _ _ s' h
      rw [this]
      simp [told, List.range'_succ]
    · simp at h

theorem callAll_addChild_recording (p c : Elem) : ∀ (os : List (Observer σ)) (i : Nat) (s : σ)
    (l : List (Nat × Note)) (s' : σ × List (Nat × Note)),
    callAll (fun o s => o.addChild s p c) (recordingAll i os) (s, l) = (true, s') →
    s'.2 = l ++ told i os.length (.attach p.ty c.ty)
  | [], i, s, l, s', h => by
    simp only [recordingAll, callAll, Prod.mk.injEq, true_and] at h
    subst h; simp [told]
  | o :: os, i, s, l, s', h => by
    simp only [recordingAll, callAll, recording] at h
    split at h
    · rename_i heq
      simp only [Prod.mk.injEq] at heq
      obtain ⟨_, rfl⟩ := heq
      have := callAll_addChild_recording p c os (i + 1) _ _ s' h
      rw [this]
      simp [told, List.range'_succ]
    · simp at h

theorem callAll_end_recording (p c : Elem) : ∀ (os : List (Observer σ)) (i : Nat) (s : σ)
    (l : List (Nat × Note)),
    (callAll (fun o s => o.endElement s p c) (recordingAll i os) (s, l)).2.2 = l
  | [], i, s, l => rfl
  | o :: os, i, s, l => by
    simp only [recordingAll, callAll, recording]
    split
    · rename_i heq
      simp only [Prod.mk.injEq] at heq
      obtain ⟨_, rfl⟩ := heq
      exact callAll_end_recording p c os (i + 1) _ _
    · rename_i heq
      simp only [Prod.mk.injEq] at heq
      obtain ⟨_, rfl⟩ := heq
      rfl

/-- What `k` observers write down for some notes. -/
def toldAll (k : Nat) (xs : List Note) : List (Nat × Note) := xs.flatMap (told 0 k)

theorem toldAll_append (k : Nat) (a b : List Note) : toldAll k (a ++ b) = toldAll k a ++ toldAll k b := by
  simp [toldAll]

theorem buildKnown_notes {n : NumLib} {os : List (Observer σ)} {d : Nat} {e : Elem}
    {s : σ × List (Nat × Note)} {inner : Str} {height : Nat}
    {kids : Elem → σ × List (Nat × Note) → Outcome (Option (Elem × Str × σ × List (Nat × Note)))}
    {child : Elem} {s2 : σ × List (Nat × Note)} {ns : List Note}
    (hk : e.ty ≠ Ty.«description» → ∀ e' s r, e'.ty = e.ty → kids e' s = .ok (some r) →
      r.1.ty = e.ty ∧ r.2.2.2 = s.2 ++ toldAll os.length ns)
    (h : buildKnown n (recordingAll 0 os) d e s inner height kids = .ok (some (child, s2))) :
    child.ty = e.ty ∧ s2.2 = s.2 ++ toldAll os.length
      (.start e.ty :: if e.ty = Ty.«description» then [] else ns) := by
  obtain ⟨s1, h1, h2⟩ := buildKnown_inv h
  have hl := callAll_new_recording e os 0 s.1 s.2 s1 h1
  rcases h2 with ⟨hx, _, hf, rfl⟩ | ⟨hx, e1, text, hkids, hf⟩
  · exact ⟨finishElement_ty hf, by rw [hl, if_pos hx]; simp [toldAll]⟩
  · obtain ⟨a, b⟩ := hk hx e s1 _ rfl hkids
    refine ⟨(finishElement_ty hf).trans a, ?_⟩
    rw [b, hl, if_neg hx]
    simp [toldAll]

theorem buildChild_notes {n : NumLib} {os : List (Observer σ)} {d : Nat} {cur : Elem} {text : Str}
    {s : σ × List (Nat × Note)} {name : Str} {attrs : List (Str × Str)} {whole inner : Str} {height : Nat}
    {kids : Elem → σ × List (Nat × Note) → Outcome (Option (Elem × Str × σ × List (Nat × Note)))}
    {r : Elem × Str × σ × List (Nat × Note)} {ns : List Note}
    (hk : isKnown name = true → name ≠ chars! "description" → ∀ e s r, e.ty = tyIn cur.ty name →
      kids e s = .ok (some r) →
      r.1.ty = tyIn cur.ty name ∧ r.2.2.2 = s.2 ++ toldAll os.length ns)
    (h : buildChild n (recordingAll 0 os) d cur text s name attrs whole inner height kids = .ok (some r)) :
    r.1.ty = cur.ty ∧ r.2.2.2 = s.2 ++ toldAll os.length
      (if isKnown name then .start (tyIn cur.ty name) ::
        (if name = chars! "description" then [] else ns) ++ [.attach cur.ty (tyIn cur.ty name)] else []) := by
  obtain ⟨_, _, h3⟩ := buildChild_inv h
  rcases h3 with ⟨hkn, _, _, hc, hs⟩ | ⟨hkn, e, child, s2, hm, hb, hg, ha⟩
  · rw [hc, hs, hkn]
    exact ⟨by cases cur <;> rfl, by simp [toldAll]⟩
  · have hty := makeElement_tyIn hm
    have hdesc := makeElement_description hm
    have hty' := giveChild_ty hg
    obtain ⟨a, b⟩ := buildKnown_notes (ns := ns) (fun hx e' s r he hr => by
      rw [hty] at he ⊢
      exact hk hkn (fun hn => hx (hdesc.2 hn)) e' s r he hr) hb
    refine ⟨hty', ?_⟩
    have hadd := callAll_addChild_recording r.1 child os 0 _ _ r.2.2 (by
      rw [← ha])
    rw [hadd, callAll_end_recording cur child os 0 s2.1 s2.2, b, hkn, hty', a, hty]
    simp only [if_true]
    rw [List.append_assoc, toldAll_append]
    congr 2
    · have : (e.ty = Ty.«description») = (name = chars! "description") := propext hdesc
      rw [← hty]
      simp only [this]
    · simp [toldAll]

mutual

theorem buildKid_notes (n : NumLib) (os : List (Observer σ)) : ∀ (x : Xml) (d : Nat) (cur : Elem) (text : Str)
    (s : σ × List (Nat × Note)) (r : Elem × Str × σ × List (Nat × Note)),
    buildKid n (recordingAll 0 os) d cur text s x = .ok (some r) →
    r.1.ty = cur.ty ∧ r.2.2.2 = s.2 ++ toldAll os.length (x.notes cur.ty)
  | .text t, d, cur, text, s, r, h => by
    simp only [buildKid, Outcome.ok.injEq, Option.some.injEq] at h
    subst h
    exact ⟨rfl, by simp [Xml.notes, toldAll]⟩
  | .empty name attrs, d, cur, text, s, r, h => by
    rw [buildKid] at h
    have := buildChild_notes (ns := []) (fun _ _ e s r he hr => by
      simp only [Outcome.ok.injEq, Option.some.injEq] at hr
      subst hr
      exact ⟨he, by simp [toldAll]⟩) h
    refine ⟨this.1, this.2.trans ?_⟩
    simp [Xml.notes]
  | .elem name attrs ks, d, cur, text, s, r, h => by
    rw [buildKid] at h
    have := buildChild_notes (ns := notesOf (tyIn cur.ty name) ks) (fun _ _ e s r he hr => by
      have := buildKids_notes n os ks (d + 1) e [] s r hr
      rw [he] at this
      exact this) h
    refine ⟨this.1, this.2.trans ?_⟩
    simp [Xml.notes]

theorem buildKids_notes (n : NumLib) (os : List (Observer σ)) : ∀ (xs : List Xml) (d : Nat) (cur : Elem)
    (text : Str) (s : σ × List (Nat × Note)) (r : Elem × Str × σ × List (Nat × Note)),
    buildKids n (recordingAll 0 os) d cur text s xs = .ok (some r) →
    r.1.ty = cur.ty ∧ r.2.2.2 = s.2 ++ toldAll os.length (notesOf cur.ty xs)
  | [], d, cur, text, s, r, h => by
    simp only [buildKids, Outcome.ok.injEq, Option.some.injEq] at h
    subst h
    exact ⟨rfl, by simp [notesOf, toldAll]⟩
  | x :: xs, d, cur, text, s, r, h => by
    obtain ⟨c, t, s1, h1, h2⟩ := buildKids_cons_inv h
    obtain ⟨a, b⟩ := buildKid_notes n os x d cur text s _ h1
    obtain ⟨a', b'⟩ := buildKids_notes n os xs d c t s1 r h2
    simp only at a b
    refine ⟨a'.trans a, ?_⟩
    rw [b', b, a, notesOf, toldAll_append, List.append_assoc]

end

theorem buildRoot_notes {n : NumLib} {os : List (Observer σ)} {s : σ × List (Nat × Note)} {name : Str}
    {attrs : List (Str × Str)} {ks : List Xml} {e : Elem} {s' : σ × List (Nat × Note)}
    (h : buildRoot n (recordingAll 0 os) s name attrs ks = .ok (some (e, s'))) :
    s'.2 = s.2 ++ toldAll os.length (docNotes name ks) := by
  unfold buildRoot at h
  rcases Option.eq_none_or_eq_some (makeElement n none (Xsd.elementId name) attrs) with hm | ⟨e0, hm⟩
  · rw [hm] at h; cases h
  · rw [hm] at h
    have hty := makeElement_root hm
    have := (buildKnown_notes (ns := notesOf (Xsd.elementId name) ks) (fun hx e' s r he hr => by
      have := buildKids_notes n os ks 1 e' [] s r hr
      rw [he] at this
      exact ⟨this.1, by rw [this.2, hty]⟩) h).2
    rw [this, docNotes, hty]
    have hd : (Xsd.elementId name = Ty.«description») = (name = chars! "description") := by
      rw [← hty]
      exact propext (makeElement_description hm)
    simp only [hd]

/-! ## Vetoes -/

theorem callAll_single (f : Observer σ → σ → Bool × σ) (o : Observer σ) (s : σ) :
    callAll f [o] s = f o s := by
  simp only [callAll]
  rcases f o s with ⟨b, s'⟩
  cases b <;> rfl

theorem buildKid_empty (n : NumLib) (os : List (Observer σ)) (d : Nat) (cur : Elem) (text : Str) (s : σ)
    (name : Str) (attrs : List (Str × Str)) :
    buildKid n os d cur text s (.empty name attrs) = buildKid n os d cur text s (.elem name attrs []) := by
  have h : (Xml.empty name attrs).render = (Xml.elem name attrs []).render := by
    simp [Xml.render, renderAll]
  simp only [buildKid, h, renderAll, depthOf, buildKids]

theorem buildKids_single {n : NumLib} {os : List (Observer σ)} {d : Nat} {cur : Elem} {text : Str} {s : σ}
    {x : Xml} {r : Elem × Str × σ} (h : buildKid n os d cur text s x = .ok (some r)) :
    buildKids n os d cur text s [x] = .ok (some r) := by
  rw [buildKids, h]
  rfl

theorem buildKids_append {n : NumLib} {os : List (Observer σ)} {d : Nat} : ∀ {xs ys : List Xml} {cur : Elem}
    {text : Str} {s : σ} {c : Elem} {t : Str} {s1 : σ} {r : Elem × Str × σ},
    buildKids n os d cur text s xs = .ok (some (c, t, s1)) → buildKids n os d c t s1 ys = .ok (some r) →
    buildKids n os d cur text s (xs ++ ys) = .ok (some r)
  | [], ys, cur, text, s, c, t, s1, r, h1, h2 => by
    simp only [buildKids, Outcome.ok.injEq, Option.some.injEq, Prod.mk.injEq] at h1
    obtain ⟨rfl, rfl, rfl⟩ := h1
    exact h2
  | x :: xs, ys, cur, text, s, c, t, s1, r, h1, h2 => by
    obtain ⟨c', t', s', h3, h4⟩ := buildKids_cons_inv h1
    rw [List.cons_append, buildKids, h3]
    exact buildKids_append h4 h2

/-- Reading `xs` with the decisions written down is reading what is left of `xs` without observers. -/
def Pruned {τ : Type} (n : NumLib) (d : Nat) (cur : Elem) (text : Str) (prune : List Bool → List Xml × List Bool)
    (l l' : List Bool) (cur' : Elem) (text' : Str) (_ : τ) : Prop :=
  ∃ ds, l' = l ++ ds ∧ ∀ (rest : List Bool) (s0 : τ), ∃ xs', prune (ds ++ rest) = (xs', rest) ∧
    buildKids n [] d cur text s0 xs' = .ok (some (cur', text', s0))

theorem handOver_nil {n : NumLib} {cur child c : Elem} {s : σ} (h : addElement n [] cur child = .ok c) :
    handOver n [] cur s child = .ok (some (c, s)) := by
  simp only [handOver, callAll, giveChild, h, if_true, Outcome.ok_bind]

theorem child_prune {τ : Type} (t0 : τ) {n : NumLib} {os : List (Observer σ)} {d : Nat} {cur : Elem} {text : Str}
    {s : σ × List Bool} {name : Str} {attrs : List (Str × Str)} {ks : List Xml}
    {r : Elem × Str × σ × List Bool}
    (ih : ∀ (e : Elem) (s : σ × List Bool) (r : Elem × Str × σ × List Bool),
      buildKids n [together os] (d + 1) e [] s ks = .ok (some r) →
      Pruned n (d + 1) e [] (pruneOf ks) s.2 r.2.2.2 r.1 r.2.1 t0)
    (h : buildKid n [together os] d cur text s (.elem name attrs ks) = .ok (some r)) :
    Pruned n d cur text (Xml.elem name attrs ks).prune s.2 r.2.2.2 r.1 r.2.1 t0 := by
  obtain ⟨cur', text', s'⟩ := r
  rw [buildKid] at h
  obtain ⟨hd, rfl, h3⟩ := buildChild_inv h
  rcases h3 with ⟨hkn, hm, hh, rfl, rfl⟩ | ⟨hkn, e, child, s2, hm, hb, hg, ha⟩
  · refine ⟨[], by simp, fun rest s0 => ⟨[.elem name attrs ks], by simp [Xml.prune, hkn], ?_⟩⟩
    apply buildKids_single
    rw [buildKid, buildChild, if_neg (by omega), hm]
    simp only
    rw [if_neg (by omega)]
  · rw [callAll_single, callAll_single] at ha
    rw [callAll_single] at hg
    simp only [together, Prod.mk.injEq] at ha hg
    obtain ⟨_, ha⟩ := ha
    subst ha
    generalize (callAll (fun o s => o.endElement s cur child) os s2.1).1 = b at hg ⊢
    have hdesc := makeElement_description hm
    obtain ⟨s1, hn, hk⟩ := buildKnown_inv hb
    rw [callAll_single] at hn
    simp only [together, Prod.mk.injEq] at hn
    obtain ⟨_, hn⟩ := hn
    -- the decisions inside, and what is built without observers if the element is kept
    have key : ∃ ds, s2.2 = s.2 ++ ds ∧ ∀ (rest : List Bool) (s0 : τ), ∃ y,
        (Xml.elem name attrs ks).prune (ds ++ b :: rest) = keepIf y (b :: rest) ∧
        (b = true → buildKid n [] d cur text' s0 y = .ok (some (cur', text', s0))) := by
      rcases hk with ⟨hx, hh, hf, rfl⟩ | ⟨hx, e1, text1, hkids, hf⟩
      · refine ⟨[], by rw [← hn]; simp, fun rest s0 => ⟨.elem name attrs ks, ?_, ?_⟩⟩
        · simp only [Xml.prune, hkn, if_true, if_pos (hdesc.1 hx), List.nil_append]
        · intro hbt
          rw [hbt] at hg
          simp only [giveChild, if_true] at hg
          rw [buildKid, buildChild, if_neg (by omega), hm]
          simp only [buildKnown, callAll, if_pos hx]
          rw [if_neg (by omega), hf]
          simp only [Outcome.ok_bind, handOver_nil hg]
      · obtain ⟨ds, h1, h2⟩ := ih e s1 _ hkids
        refine ⟨ds, by rw [← hn] at h1; exact h1, fun rest s0 => ?_⟩
        obtain ⟨ks', h4, h5⟩ := h2 (b :: rest) s0
        refine ⟨.elem name attrs ks', ?_, ?_⟩
        · have hnd : ¬ name = chars! "description" := fun hx' => hx (hdesc.2 hx')
          simp only [Xml.prune, hkn, if_true, if_neg hnd, h4]
        · intro hbt
          rw [hbt] at hg
          simp only [giveChild, if_true] at hg
          rw [buildKid, buildChild, if_neg (by omega), hm]
          simp only [buildKnown, callAll, if_neg hx, h5, Outcome.ok_bind, hf, handOver_nil hg]
    obtain ⟨ds, h1, h2⟩ := key
    refine ⟨ds ++ [b], by simp [h1], fun rest s0 => ?_⟩
    obtain ⟨y, h4, h5⟩ := h2 rest s0
    rw [List.append_assoc, List.singleton_append, h4]
    cases b with
    | true => exact ⟨[y], rfl, buildKids_single (h5 rfl)⟩
    | false =>
      simp only [giveChild, Bool.false_eq_true, if_false, Outcome.ok.injEq] at hg
      subst hg
      exact ⟨[], rfl, rfl⟩

theorem empty_prune {τ : Type} {t0 : τ} {n : NumLib} {d : Nat} {cur : Elem} {text : Str} {name : Str}
    {attrs : List (Str × Str)} {l l' : List Bool} {c : Elem} {t : Str}
    (h : Pruned n d cur text (Xml.elem name attrs []).prune l l' c t t0) :
    Pruned n d cur text (Xml.empty name attrs).prune l l' c t t0 := by
  obtain ⟨ds, h1, h2⟩ := h
  refine ⟨ds, h1, fun rest s0 => ?_⟩
  obtain ⟨xs', h3, h4⟩ := h2 rest s0
  have hone : buildKids n [] d cur text s0 [.empty name attrs] =
      buildKids n [] d cur text s0 [.elem name attrs []] := by
    simp only [buildKids, buildKid_empty]
  have hkeep : ∀ l, keepIf (.elem name attrs []) l = (xs', rest) →
      ∃ ys, keepIf (.empty name attrs) l = (ys, rest) ∧
        buildKids n [] d cur text s0 ys = .ok (some (c, t, s0)) := by
    intro l hl
    match l, hl with
    | [], hl =>
      simp only [keepIf, Prod.mk.injEq] at hl
      exact ⟨[.empty name attrs], by simp only [keepIf, hl.2], by rw [hone, hl.1, h4]⟩
    | true :: l, hl =>
      simp only [keepIf, Prod.mk.injEq] at hl
      exact ⟨[.empty name attrs], by simp only [keepIf, hl.2], by rw [hone, hl.1, h4]⟩
    | false :: l, hl =>
      simp only [keepIf, Prod.mk.injEq] at hl
      exact ⟨[], by simp only [keepIf, hl.2], by rw [hl.1, h4]⟩
  simp only [Xml.prune, pruneOf] at h3 ⊢
  by_cases hk : isKnown name = true
  · simp only [hk, if_true, ite_self] at h3 ⊢
    exact hkeep _ h3
  · simp only [hk] at h3 ⊢
    simp only [Bool.false_eq_true, if_false, Prod.mk.injEq] at h3 ⊢
    exact ⟨_, ⟨rfl, h3.2⟩, by rw [hone, h3.1, h4]⟩

mutual

theorem buildKid_prune {τ : Type} (t0 : τ) (n : NumLib) (os : List (Observer σ)) : ∀ (x : Xml) (d : Nat)
    (cur : Elem) (text : Str) (s : σ × List Bool) (r : Elem × Str × σ × List Bool),
    buildKid n [together os] d cur text s x = .ok (some r) →
    Pruned n d cur text x.prune s.2 r.2.2.2 r.1 r.2.1 t0
  | .text t, d, cur, text, s, r, h => by
    simp only [buildKid, Outcome.ok.injEq, Option.some.injEq] at h
    subst h
    exact ⟨[], by simp, fun rest s0 => ⟨[.text t], by simp [Xml.prune], rfl⟩⟩
  | .empty name attrs, d, cur, text, s, r, h => by
    rw [buildKid_empty] at h
    exact empty_prune (child_prune t0 (fun e s r hr => by
      simp only [buildKids, Outcome.ok.injEq, Option.some.injEq] at hr
      subst hr
      exact ⟨[], by simp, fun rest s0 => ⟨[], by simp [pruneOf], rfl⟩⟩) h)
  | .elem name attrs ks, d, cur, text, s, r, h =>
    child_prune t0 (fun e s r hr => buildKids_prune t0 n os ks (d + 1) e [] s r hr) h

theorem buildKids_prune {τ : Type} (t0 : τ) (n : NumLib) (os : List (Observer σ)) : ∀ (xs : List Xml) (d : Nat)
    (cur : Elem) (text : Str) (s : σ × List Bool) (r : Elem × Str × σ × List Bool),
    buildKids n [together os] d cur text s xs = .ok (some r) →
    Pruned n d cur text (pruneOf xs) s.2 r.2.2.2 r.1 r.2.1 t0
  | [], d, cur, text, s, r, h => by
    simp only [buildKids, Outcome.ok.injEq, Option.some.injEq] at h
    subst h
    exact ⟨[], by simp, fun rest s0 => ⟨[], by simp [pruneOf], rfl⟩⟩
  | x :: xs, d, cur, text, s, r, h => by
    obtain ⟨c, t, s1, h1, h2⟩ := buildKids_cons_inv h
    obtain ⟨ds1, a1, b1⟩ := buildKid_prune t0 n os x d cur text s _ h1
    obtain ⟨ds2, a2, b2⟩ := buildKids_prune t0 n os xs d c t s1 r h2
    refine ⟨ds1 ++ ds2, by rw [a2]; simp only at a1; rw [a1, List.append_assoc], fun rest s0 => ?_⟩
    obtain ⟨ys, e1, f1⟩ := b1 (ds2 ++ rest) s0
    obtain ⟨zs, e2, f2⟩ := b2 rest s0
    exact ⟨ys ++ zs, by simp only [pruneOf, List.append_assoc, e1, e2], buildKids_append f1 f2⟩

end

theorem buildRoot_prune {τ : Type} (t0 : τ) {n : NumLib} {os : List (Observer σ)} {s : σ × List Bool}
    {name : Str} {attrs : List (Str × Str)} {ks : List Xml} {e : Elem} {s' : σ × List Bool}
    (h : buildRoot n [together os] s name attrs ks = .ok (some (e, s'))) :
    ∃ ds, s'.2 = s.2 ++ ds ∧
      buildRoot n [] t0 name attrs (pruneRoot name ks ds) = .ok (some (e, t0)) := by
  unfold buildRoot at h ⊢
  rcases Option.eq_none_or_eq_some (makeElement n none (Xsd.elementId name) attrs) with hm | ⟨e0, hm⟩
  · rw [hm] at h; cases h
  · rw [hm] at h ⊢
    have hdesc := makeElement_description hm
    obtain ⟨s1, hn, hk⟩ := buildKnown_inv h
    rw [callAll_single] at hn
    simp only [together, Prod.mk.injEq] at hn
    obtain ⟨_, hn⟩ := hn
    rcases hk with ⟨hx, hh, hf, rfl⟩ | ⟨hx, e1, text1, hkids, hf⟩
    · refine ⟨[], by rw [← hn]; simp, ?_⟩
      simp only [pruneRoot, if_pos (hdesc.1 hx), buildKnown, callAll, if_pos hx]
      rw [if_neg (by omega), hf]
      rfl
    · obtain ⟨ds, h1, h2⟩ := buildKids_prune t0 n os ks 1 e0 [] s1 _ hkids
      refine ⟨ds, by rw [← hn] at h1; exact h1, ?_⟩
      obtain ⟨ks', h4, h5⟩ := h2 [] t0
      rw [List.append_nil] at h4
      have hnd : ¬ name = chars! "description" := fun hx' => hx (hdesc.2 hx')
      simp only [pruneRoot, if_neg hnd, h4, buildKnown, callAll, if_neg hx, h5, Outcome.ok_bind, hf]

theorem keepIf_all {P : Xml → Prop} {x : Xml} (h : P x) (ds : List Bool) : ∀ y ∈ (keepIf x ds).1, P y := by
  intro y hy
  match ds, hy with
  | [], hy => simp only [keepIf, List.mem_singleton] at hy; rw [hy]; exact h
  | true :: l, hy => simp only [keepIf, List.mem_singleton] at hy; rw [hy]; exact h
  | false :: l, hy => simp [keepIf] at hy

theorem allOf_iff (P : Str → List (Str × Str) → Prop) : ∀ xs : List Xml, AllOf P xs ↔ ∀ x ∈ xs, x.All P
  | [] => by simp [AllOf]
  | x :: xs => by simp [AllOf, allOf_iff P xs]

theorem tameAll_iff : ∀ xs : List Xml, TameAll xs ↔ ∀ x ∈ xs, x.Tame
  | [] => by simp [TameAll]
  | x :: xs => by simp [TameAll, tameAll_iff xs]

mutual

theorem prune_all (P : Str → List (Str × Str) → Prop) : ∀ (x : Xml) (ds : List Bool), x.All P →
    ∀ y ∈ (x.prune ds).1, y.All P
  | .text t, ds, h => by simp [Xml.prune, Xml.All]
  | .empty name attrs, ds, h => by
    simp only [Xml.prune]
    split
    · exact keepIf_all h ds
    · simpa using h
  | .elem name attrs ks, ds, h => by
    simp only [Xml.prune]
    split
    · split
      · exact keepIf_all h ds
      · refine keepIf_all (P := fun x => x.All P) ?_ _
        exact ⟨h.1, (allOf_iff P _).2 (pruneOf_all P ks ds h.2)⟩
    · simpa using h

theorem pruneOf_all (P : Str → List (Str × Str) → Prop) : ∀ (xs : List Xml) (ds : List Bool), AllOf P xs →
    ∀ y ∈ (pruneOf xs ds).1, y.All P
  | [], ds, h => by simp [pruneOf]
  | x :: xs, ds, h => by
    intro y hy
    simp only [pruneOf, List.mem_append] at hy
    rcases hy with hy | hy
    · exact prune_all P x ds h.1 y hy
    · exact pruneOf_all P xs _ h.2 y hy

end

mutual

theorem prune_tame : ∀ (x : Xml) (ds : List Bool), x.Tame → ∀ y ∈ (x.prune ds).1, y.Tame
  | .text t, ds, h => by simp [Xml.prune, Xml.Tame]
  | .empty name attrs, ds, h => by
    simp only [Xml.prune]
    split
    · exact keepIf_all h ds
    · simpa using h
  | .elem name attrs ks, ds, h => by
    simp only [Xml.prune]
    split
    · rename_i hk
      split
      · exact keepIf_all h ds
      · rename_i hd
        refine keepIf_all (P := fun x => x.Tame) ?_ _
        simp only [Xml.Tame, if_neg hd, if_pos hk] at h ⊢
        exact (tameAll_iff _).2 (pruneOf_tame ks ds h)
    · simpa using h

theorem pruneOf_tame : ∀ (xs : List Xml) (ds : List Bool), TameAll xs → ∀ y ∈ (pruneOf xs ds).1, y.Tame
  | [], ds, h => by simp [pruneOf]
  | x :: xs, ds, h => by
    intro y hy
    simp only [pruneOf, List.mem_append] at hy
    rcases hy with hy | hy
    · exact prune_tame x ds h.1 y hy
    · exact pruneOf_tame xs _ h.2 y hy

end

/-- Observers do not know that they act together. -/
theorem buildKnown_together {n : NumLib} {os : List (Observer σ)} {d : Nat} {e : Elem} {s : σ} {l : List Bool}
    {inner : Str} {height : Nat} {kids : Elem → σ → Outcome (Option (Elem × Str × σ))}
    {kids' : Elem → σ × List Bool → Outcome (Option (Elem × Str × σ × List Bool))} {child : Elem} {s2 : σ}
    (hk : ∀ e s l e1 t s2, kids e s = .ok (some (e1, t, s2)) →
      ∃ l', kids' e (s, l) = .ok (some (e1, t, s2, l')))
    (h : buildKnown n os d e s inner height kids = .ok (some (child, s2))) :
    ∃ l', buildKnown n [together os] d e (s, l) inner height kids' = .ok (some (child, s2, l')) := by
  obtain ⟨s1, hn, h3⟩ := buildKnown_inv h
  have hn' : callAll (fun o s => o.new s e) [together os] (s, l) = (true, s1, l) := by
    rw [callAll_single]
    simp only [together, hn]
  unfold buildKnown
  rw [hn']
  simp only
  rcases h3 with ⟨hx, hh, hf, rfl⟩ | ⟨hx, e1, text1, hkids, hf⟩
  · rw [if_pos hx, if_neg (by omega), hf]
    exact ⟨l, rfl⟩
  · obtain ⟨l', hl⟩ := hk _ _ l _ _ _ hkids
    rw [if_neg hx, hl]
    simp only [Outcome.ok_bind, hf]
    exact ⟨l', rfl⟩

theorem buildChild_together {n : NumLib} {os : List (Observer σ)} {d : Nat} {cur : Elem} {text : Str} {s : σ}
    {l : List Bool} {name : Str} {attrs : List (Str × Str)} {whole inner : Str} {height : Nat}
    {kids : Elem → σ → Outcome (Option (Elem × Str × σ))}
    {kids' : Elem → σ × List Bool → Outcome (Option (Elem × Str × σ × List Bool))} {c : Elem} {t : Str} {s' : σ}
    (hk : ∀ e s l e1 t s2, kids e s = .ok (some (e1, t, s2)) →
      ∃ l', kids' e (s, l) = .ok (some (e1, t, s2, l')))
    (h : buildChild n os d cur text s name attrs whole inner height kids = .ok (some (c, t, s'))) :
    ∃ l', buildChild n [together os] d cur text (s, l) name attrs whole inner height kids' =
      .ok (some (c, t, s', l')) := by
  obtain ⟨hd, rfl, h3⟩ := buildChild_inv h
  unfold buildChild
  rw [if_neg (by omega)]
  rcases h3 with ⟨hkn, hm, hh, rfl, rfl⟩ | ⟨hkn, e, child, s2, hm, hb, hg, ha⟩
  · rw [hm]
    simp only
    rw [if_neg (by omega)]
    exact ⟨l, rfl⟩
  · obtain ⟨l', hl⟩ := buildKnown_together (l := l) hk hb
    rw [hm]
    simp only [hl, Outcome.ok_bind, handOver, callAll_single]
    have e1 : ((together os).endElement (s2, l') cur child).1 =
        (callAll (fun o s => o.endElement s cur child) os s2).1 := rfl
    rw [e1, hg]
    simp only [Outcome.ok_bind, together, ha, if_true]
    exact ⟨_, rfl⟩

mutual

theorem buildKid_together (n : NumLib) (os : List (Observer σ)) : ∀ (x : Xml) (d : Nat) (cur : Elem)
    (text : Str) (s : σ) (l : List Bool) (c : Elem) (t : Str) (s' : σ),
    buildKid n os d cur text s x = .ok (some (c, t, s')) →
    ∃ l', buildKid n [together os] d cur text (s, l) x = .ok (some (c, t, s', l'))
  | .text t', d, cur, text, s, l, c, t, s', h => by
    simp only [buildKid, Outcome.ok.injEq, Option.some.injEq, Prod.mk.injEq] at h
    obtain ⟨rfl, rfl, rfl⟩ := h
    exact ⟨l, rfl⟩
  | .empty name attrs, d, cur, text, s, l, c, t, s', h => by
    rw [buildKid] at h ⊢
    exact buildChild_together (fun e s l e1 t s2 hr => by
      simp only [Outcome.ok.injEq, Option.some.injEq, Prod.mk.injEq] at hr
      obtain ⟨rfl, rfl, rfl⟩ := hr
      exact ⟨l, rfl⟩) h
  | .elem name attrs ks, d, cur, text, s, l, c, t, s', h => by
    rw [buildKid] at h ⊢
    exact buildChild_together (fun e s l e1 t s2 hr =>
      buildKids_together n os ks (d + 1) e [] s l e1 t s2 hr) h

theorem buildKids_together (n : NumLib) (os : List (Observer σ)) : ∀ (xs : List Xml) (d : Nat) (cur : Elem)
    (text : Str) (s : σ) (l : List Bool) (c : Elem) (t : Str) (s' : σ),
    buildKids n os d cur text s xs = .ok (some (c, t, s')) →
    ∃ l', buildKids n [together os] d cur text (s, l) xs = .ok (some (c, t, s', l'))
  | [], d, cur, text, s, l, c, t, s', h => by
    simp only [buildKids, Outcome.ok.injEq, Option.some.injEq, Prod.mk.injEq] at h
    obtain ⟨rfl, rfl, rfl⟩ := h
    exact ⟨l, rfl⟩
  | x :: xs, d, cur, text, s, l, c, t, s', h => by
    obtain ⟨c1, t1, s1, h1, h2⟩ := buildKids_cons_inv h
    obtain ⟨l1, e1⟩ := buildKid_together n os x d cur text s l c1 t1 s1 h1
    obtain ⟨l2, e2⟩ := buildKids_together n os xs d c1 t1 s1 l1 c t s' h2
    exact ⟨l2, by rw [buildKids, e1]; exact e2⟩

end

theorem buildRoot_together {n : NumLib} {os : List (Observer σ)} {s : σ} {l : List Bool}
    {name : Str} {attrs : List (Str × Str)} {ks : List Xml} {e : Elem} {s' : σ}
    (h : buildRoot n os s name attrs ks = .ok (some (e, s'))) :
    ∃ l', buildRoot n [together os] (s, l) name attrs ks = .ok (some (e, s', l')) := by
  unfold buildRoot at h ⊢
  rcases Option.eq_none_or_eq_some (makeElement n none (Xsd.elementId name) attrs) with hm | ⟨e0, hm⟩
  · rw [hm] at h; cases h
  · rw [hm] at h ⊢
    exact buildKnown_together (fun e s l e1 t s2 hr => buildKids_together n os ks 1 e [] s l e1 t s2 hr) h

end Kml.Dom
