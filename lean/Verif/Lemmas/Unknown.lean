import Verif.Spec.Unknown
import Verif.Lemmas.Print
import Verif.Lemmas.AttrRound
import Verif.Lemmas.Observers

/-! Lemmas on unknown content. -/

namespace Kml.Dom

open Kml

variable {σ : Type}

theorem addElement_unknown {n : NumLib} {cd : Str} {p c r : Elem} (h : addElement n cd p c = .ok r) :
    r.unknown = p.unknown ∧ r.isNode = p.isNode := by
  cases p with
  | field t s => cases h; exact ⟨rfl, rfl⟩
  | node t a slots mis unk =>
    rcases addElement_node h with ⟨_, rfl⟩ | ⟨_, _, _, _, rfl⟩ <;> exact ⟨rfl, rfl⟩

theorem giveChild_unknown {n : NumLib} {b : Bool} {p c r : Elem} (h : giveChild n b p c = .ok r) :
    r.unknown = p.unknown ∧ r.isNode = p.isNode := by
  unfold giveChild at h
  split at h
  · exact addElement_unknown h
  · cases h; exact ⟨rfl, rfl⟩

theorem finishElement_unknown {n : NumLib} {e e' : Elem} {s : Str} (h : finishElement n e s = .ok e') :
    e'.unknown = e.unknown := by
  have hs : (setCharData e s).unknown = e.unknown := by cases e <;> rfl
  unfold finishElement at h
  split at h
  · rw [(addElement_unknown h).1, hs]
  · cases h; exact hs

theorem addUnknown_unknown {e : Elem} {s : Str} (h : e.isNode = true) :
    (addUnknownElement e s).unknown = e.unknown ++ [s] ∧ (addUnknownElement e s).isNode = true := by
  cases e with
  | field => cases h
  | node => exact ⟨rfl, rfl⟩

theorem buildChild_unknown {n : NumLib} {os : List (Observer σ)} {d : Nat} {cur : Elem} {text : Str} {s : σ}
    {name : Str} {attrs : List (Str × Str)} {whole inner : Str} {height : Nat}
    {kids : Elem → σ → Outcome (Option (Elem × Str × σ))} {cur' : Elem} {text' : Str} {s' : σ}
    (hn : cur.isNode = true)
    (h : buildChild n os d cur text s name attrs whole inner height kids = .ok (some (cur', text', s'))) :
    cur'.isNode = true ∧ cur'.unknown = cur.unknown ++ (if isKnown name then [] else [whole ++ ['\n']]) := by
  obtain ⟨_, _, h⟩ := buildChild_inv h
  rcases h with ⟨hk, _, _, rfl, _⟩ | ⟨hk, e, child, s2, _, _, hg, _⟩
  · obtain ⟨h1, h2⟩ := addUnknown_unknown (s := whole ++ ['\n']) hn
    rw [hk]
    exact ⟨h2, h1⟩
  · obtain ⟨h1, h2⟩ := giveChild_unknown hg
    rw [hk, h1, h2]
    exact ⟨hn, by simp⟩

theorem buildKids_unknown {n : NumLib} {os : List (Observer σ)} {d : Nat} :
    ∀ (ks : List Xml) {cur : Elem} {text : Str} {s : σ} {cur' : Elem} {text' : Str} {s' : σ},
    cur.isNode = true → buildKids n os d cur text s ks = .ok (some (cur', text', s')) →
    cur'.isNode = true ∧ cur'.unknown = cur.unknown ++ (unknownAmong ks).map fun x => x.render ++ ['\n']
  | [], cur, text, s, cur', text', s', hn, h => by
    simp only [buildKids, Outcome.ok.injEq, Option.some.injEq, Prod.mk.injEq] at h
    obtain ⟨rfl, _⟩ := h
    exact ⟨hn, by simp [unknownAmong]⟩
  | x :: ks, cur, text, s, cur', text', s', hn, h => by
    obtain ⟨c, t, s1, h1, h2⟩ := buildKids_cons_inv h
    have key : c.isNode = true ∧ c.unknown = cur.unknown ++ (unknownAmong [x]).map fun x => x.render ++ ['\n'] := by
      cases x with
      | text u =>
        simp only [buildKid, Outcome.ok.injEq, Option.some.injEq, Prod.mk.injEq] at h1
        obtain ⟨rfl, _⟩ := h1
        exact ⟨hn, by simp [unknownAmong, Xml.name?]⟩
      | empty name attrs =>
        rw [buildKid] at h1
        obtain ⟨g1, g2⟩ := buildChild_unknown hn h1
        refine ⟨g1, ?_⟩
        rw [g2]
        cases hk : isKnown name <;> simp [unknownAmong, Xml.name?, hk]
      | elem name attrs ks' =>
        rw [buildKid] at h1
        obtain ⟨g1, g2⟩ := buildChild_unknown hn h1
        refine ⟨g1, ?_⟩
        rw [g2]
        cases hk : isKnown name <;> simp [unknownAmong, Xml.name?, hk]
    obtain ⟨g1, g2⟩ := buildKids_unknown ks key.1 h2
    refine ⟨g1, ?_⟩
    rw [g2, key.2, List.append_assoc, ← List.map_append]
    have e : unknownAmong (x :: ks) = unknownAmong [x] ++ unknownAmong ks :=
      List.filter_append (l₁ := [x]) (l₂ := ks) ..
    rw [e]

theorem buildKnown_unknown {n : NumLib} {os : List (Observer σ)} {d : Nat} {e : Elem} {s : σ}
    {ks : List Xml} {child : Elem} {s2 : σ} (hn : e.isNode = true) (hu : e.unknown = []) (hd : e.ty ≠ Ty.«description»)
    (h : buildKnown n os d e s (renderAll ks) (depthOf ks) (fun e s => buildKids n os d e [] s ks)
      = .ok (some (child, s2))) :
    child.unknown = (unknownAmong ks).map fun x => x.render ++ ['\n'] := by
  obtain ⟨s1, _, h⟩ := buildKnown_inv h
  rcases h with ⟨hx, _⟩ | ⟨_, e1, text, hk, hf⟩
  · exact absurd hx hd
  · rw [finishElement_unknown hf, (buildKids_unknown ks hn hk).2, hu]
    rfl

/-! ### Writing -/

theorem infix_append_left {a b c : Str} (h : a <:+: b) : a <:+: c ++ b := h.trans (List.suffix_append c b).isInfix
theorem infix_append_right {a b c : Str} (h : a <:+: b) : a <:+: b ++ c := h.trans (List.prefix_append b c).isInfix

mutual

theorem raw_in_print {nl ind x : Str} : (q : Doc) → ∀ (d : Nat) (first : Bool), Call.content x false ∈ q.calls →
    x <:+: q.print nl ind d first
  | .field t s, _, _, h => by simp [Doc.calls] at h
  | .color t s, _, _, h => by simp [Doc.calls] at h
  | .text s, _, _, h => by simp [Doc.calls] at h
  | .point s, _, _, h => by simp [Doc.calls] at h
  | .raw s, d, first, h => by
    simp only [Doc.calls, List.mem_cons, List.not_mem_nil, or_false, reduceCtorEq, false_or, Call.content.injEq,
      and_true] at h
    subst h
    rw [Doc.print]
    exact infix_append_left (List.infix_refl x)
  | .elem t a ks, d, first, h => by
    have h' : Call.content x false ∈ docsCalls ks := by simpa [Doc.calls] using h
    have ih := raws_in_print (nl := nl) (ind := ind) ks (d + 1) true h'
    have he : ¬ ks.isEmpty = true := by
      intro he
      rw [List.isEmpty_iff.1 he] at h'
      simp [docsCalls] at h'
    rw [Doc.print, if_neg he]
    apply infix_append_right
    apply infix_append_left
    apply infix_append_right
    apply infix_append_right
    apply infix_append_right
    apply infix_append_right
    exact infix_append_left ih

theorem raws_in_print {nl ind x : Str} : (qs : List Doc) → ∀ (d : Nat) (first : Bool), Call.content x false ∈ docsCalls qs →
    x <:+: printAll nl ind d first qs
  | [], _, _, h => by simp [docsCalls] at h
  | q :: qs, d, first, h => by
    rw [docsCalls] at h
    rw [printAll]
    rcases List.mem_append.1 h with h | h
    · exact infix_append_right (raw_in_print q d first h)
    · exact infix_append_left (raws_in_print qs d false h)

end

/-! ### Reading the text of unknown content again -/

mutual

theorem reads_render : (x : Xml) → x.Plain → ∀ k, ∃ k', Reads (.content k) x.render (.content k') x.full.events
  | .text s, h, k => by
    rw [Xml.Plain] at h
    rw [Xml.render, Xml.full, Xml.events]
    exact reads_plain k h
  | .empty n a, h, k => by
    rw [Xml.Plain] at h
    have h1 := reads_start k h.1 h.2
    have h2 := reads_stop 0 h.1
    refine ⟨0, ?_⟩
    have := reads_append h1 h2
    simpa [Xml.render, Xml.full, Xml.events, eventsOf] using this
  | .elem n a ks, h, k => by
    rw [Xml.Plain] at h
    have h1 := reads_start k h.1 h.2.1
    obtain ⟨k2, h2⟩ := reads_renderAll ks h.2.2 0
    have h3 := reads_stop k2 h.1
    refine ⟨0, ?_⟩
    have := reads_append h1 (reads_append h2 h3)
    simpa [Xml.render, Xml.full, Xml.events] using this

theorem reads_renderAll : (xs : List Xml) → PlainAll xs → ∀ k,
    ∃ k', Reads (.content k) (renderAll xs) (.content k') (eventsOf (fullAll xs))
  | [], _, k => ⟨k, rfl⟩
  | x :: xs, h, k => by
    rw [PlainAll] at h
    obtain ⟨k1, h1⟩ := reads_render x h.1 k
    obtain ⟨k2, h2⟩ := reads_renderAll xs h.2 k1
    rw [renderAll, fullAll, eventsOf]
    exact ⟨k2, reads_append h1 h2⟩

end

mutual

theorem full_render : (x : Xml) → x.full.render = x.render
  | .text s => rfl
  | .empty n a => by simp [Xml.full, Xml.render, renderAll]
  | .elem n a ks => by rw [Xml.full, Xml.render, Xml.render, full_renderAll]

theorem full_renderAll : (xs : List Xml) → renderAll (fullAll xs) = renderAll xs
  | [] => rfl
  | x :: xs => by rw [fullAll, renderAll, renderAll, full_render, full_renderAll]

end

end Kml.Dom
