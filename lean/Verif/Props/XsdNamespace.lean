import Verif.Model.XsdNamespace
import Verif.Props.XsdFile
import Verif.Props.Attributes
import Verif.Props.LinkUtil
/-! C68: the target namespace of an XSD file. -/
namespace Kml.XsdDoc
open Kml Kml.Attributes Kml.Dom

theorem split_mem {hits : List (Str × Str)} {e : Str × Str} :
    ∀ {acc : Attributes}, e ∈ hits.foldl (fun (acc : Attributes) h => acc.set (h.1.drop 6) h.2) acc →
      e ∈ acc ∨ ∃ h ∈ hits, e = (h.1.drop 6, h.2) := by
  induction hits with
  | nil => intro acc h; exact .inl h
  | cons x hits ih =>
    intro acc h
    rcases ih h with h | ⟨y, hy, he⟩
    · rcases Dom.mem_set h with h | h
      · exact .inr ⟨x, List.mem_cons_self, h⟩
      · exact .inl h
    · exact .inr ⟨y, List.mem_cons_of_mem _ hy, he⟩

/-- **C68, the namespace.** If the document has a target namespace that can be asked for, it is the value of
`targetNamespace` of its last `<schema>`, and the prefix is one that this `<schema>` declares for it. -/
theorem C68_namespace (x : Xml) (f : File) (h : createFromParse x.events = .ok f) (ns pre : Str)
    (h1 : f.getTargetNamespace = .ok ns) (h2 : f.getTargetNamespacePrefix = .ok pre) :
    ns ≠ [] ∧ pre ≠ [] ∧ ∃ a, lastSchema (tags [] x) = some a ∧
      getValue (attrMap a) (chars! "targetNamespace") = some ns ∧
      (chars! "xmlns:" ++ pre, ns) ∈ attrMap a := by
  have hs := (C68_records x f h []).2.2
  unfold File.getTargetNamespace at h1
  unfold File.getTargetNamespacePrefix at h2
  cases hf : f.schema with
  | none => rw [hf] at h1; exact nomatch h1
  | some s =>
    rw [hf] at h1 h2 hs
    injection h1 with h1
    injection h2 with h2
    subst h1 h2
    cases ha : lastSchema (tags [] x) with
    | none => rw [ha] at hs; exact nomatch hs
    | some a =>
      rw [ha] at hs
      have hs : Schema.create (attrMap a) = some s := hs.symm
      unfold Schema.create at hs
      split at hs
      · exact nomatch hs
      next hne =>
      split at hs
      · exact nomatch hs
      next m hm =>
      split at hs
      · exact nomatch hs
      next hk =>
      injection hs with hs
      subst hs
      refine ⟨hne, hk, a, rfl, ?_, ?_⟩
      · cases hg : getValue (attrMap a) (chars! "targetNamespace") with
        | none => rw [hg] at hne; exact absurd rfl hne
        | some v => rfl
      · dsimp only
        generalize (getValue (attrMap a) (chars! "targetNamespace")).getD [] = v at *
        unfold Xmlns.create at hm
        dsimp only at hm
        split at hm
        · injection hm with hm
          subst hm
          unfold Xmlns.getKey at hk ⊢
          dsimp only at hk ⊢
          split at hk
          case h_2 => exact absurd rfl hk
          next m' hm' =>
          unfold splitByPrefix at hm'
          dsimp only at hm'
          split at hm'
          · exact nomatch hm'
          injection hm' with hm'
          cases hfk : findKey m' v with
          | none => rw [hfk] at hk; exact absurd rfl hk
          | some k =>
            have hmem := findKey_some hfk
            rw [← hm'] at hmem
            rcases split_mem hmem with hm | ⟨e, he, hke⟩
            · exact nomatch hm
            · obtain ⟨he1, he2⟩ := List.mem_filter.1 he
              injection hke with hk1 hk2
              have ht : e.1.take 6 = chars! "xmlns:" := of_decide_eq_true he2
              have : e = (chars! "xmlns:" ++ k, v) := by
                rw [hk1, hk2, ← ht, List.take_append_drop]
              rw [Option.getD_some, ← this]
              exact he1
        · exact nomatch hm

/-- **C68 fails: no namespace.** A document without a target namespace, or with one that has no prefix, is accepted, and
asking for the namespace reads through a NULL pointer. -/
theorem C68_namespace_violated :
    (∃ f, createFromParse (Xml.elem (chars! "schema") [] []).events = .ok f ∧ f.getTargetNamespace = .ub) ∧
    ∃ f, createFromParse (Xml.elem (chars! "schema") [(chars! "targetNamespace", chars! "a"), (chars! "xmlns", chars! "a")]
      []).events = .ok f ∧ f.getTargetNamespace = .ub ∧ f.getTargetNamespacePrefix = .ub :=
  ⟨⟨{}, rfl, rfl⟩, ⟨{}, rfl, rfl, rfl⟩⟩

example : ∃ f, createFromParse (Xml.elem (chars! "schema") [(chars! "targetNamespace", chars! "a"),
    (chars! "xmlns:k", chars! "a")] []).events = .ok f ∧ f.getTargetNamespace = .ok (chars! "a") ∧
    f.getTargetNamespacePrefix = .ok (chars! "k") :=
  ⟨{ schema := some ⟨chars! "a", chars! "k"⟩ }, rfl, rfl, rfl⟩

end Kml.XsdDoc
