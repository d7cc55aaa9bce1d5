import Verif.Spec.XsdFile
import Verif.Lemmas.StdMap
import Mathlib.Data.List.Perm.Subperm

/-! # Lemmas: XSD files -/

namespace Kml.XsdDoc

open Kml Kml.Attributes

/-! ## Names -/

theorem splitNsName_eq_some {s : Schema} {t name : Str} :
    s.splitNsName t = some name ↔ name ≠ [] ∧ t = s.pre ++ ':' :: name := by
  unfold Schema.splitNsName
  constructor
  · intro h
    split at h
    · next hc =>
      cases h
      refine ⟨?_, ?_⟩
      · intro h0
        have := congrArg List.length h0
        simp at this
        omega
      · have := List.take_append_drop (s.pre.length + 1) t
        rw [hc.2] at this
        rw [← this]
        simp
    · cases h
  · rintro ⟨h1, rfl⟩
    have hl : 0 < name.length := List.length_pos_of_ne_nil h1
    rw [if_pos]
    · congr 1
      have : s.pre ++ ':' :: name = (s.pre ++ [':']) ++ name := by simp
      rw [this, List.drop_left' (by simp)]
    · refine ⟨by simp; omega, ?_⟩
      have : s.pre ++ ':' :: name = (s.pre ++ [':']) ++ name := by simp
      rw [this, List.take_left' (by simp)]

theorem splitNsName_eq_none {s : Schema} {t : Str} :
    s.splitNsName t = none ↔ ∀ name, name ≠ [] → t ≠ s.pre ++ ':' :: name := by
  constructor
  · intro h name h1 h2
    have := (splitNsName_eq_some (s := s)).2 ⟨h1, h2⟩
    rw [h] at this
    cases this
  · intro h
    rcases Option.eq_none_or_eq_some (s.splitNsName t) with h' | ⟨n, h'⟩
    · exact h'
    · exact absurd (splitNsName_eq_some.1 h').2 (h n (splitNsName_eq_some.1 h').1)

theorem typeIdFrom_zero {name : Str} : ∀ {l : List Str} {i : Nat}, 0 < i → (typeIdFrom name i l = 0 ↔ name ∉ l)
  | [], i, _ => by simp [typeIdFrom]
  | s :: r, i, hi => by
    simp only [typeIdFrom]
    split
    · next h => simp [h]; omega
    · next h => rw [typeIdFrom_zero (by omega)]; simp [h]

theorem typeIdFrom_get {name : Str} : ∀ {l : List Str} {i : Nat}, typeIdFrom name i l ≠ 0 →
    i ≤ typeIdFrom name i l ∧ l[typeIdFrom name i l - i]? = some name
  | [], i, h => by simp [typeIdFrom] at h
  | s :: r, i, h => by
    simp only [typeIdFrom] at h ⊢
    split
    · next he => simp [he]
    · next he =>
      rw [if_neg he] at h
      have ih := typeIdFrom_get h
      refine ⟨by omega, ?_⟩
      have : typeIdFrom name (i + 1) r - i = (typeIdFrom name (i + 1) r - (i + 1)) + 1 := by omega
      rw [this, List.getElem?_cons_succ]
      exact ih.2

theorem getTypeId_zero {name : Str} : getTypeId name = 0 ↔ name ∉ primitiveNames := typeIdFrom_zero (by omega)

/-! ## The hierarchy -/

theorem asComplex_some {t : Option XType} {c : Complex} : asComplex t = some c ↔ t = some (.complex c) := by
  rcases t with _ | ⟨_ | _ | c'⟩ <;> simp [asComplex]

theorem asSimple_some {t : Option XType} {c : Simple} : asSimple t = some c ↔ t = some (.simple c) := by
  rcases t with _ | ⟨_ | c' | _⟩ <;> simp [asSimple]

theorem getBaseType_some {f : File} (hf : f.Ok) {s : Schema} {c b : Complex} :
    f.getBaseType s c = some b ↔ BaseOf f s c b := by
  unfold File.getBaseType BaseOf
  constructor
  · intro h
    split at h
    · cases h
    · next name hn =>
      rw [splitNsName_eq_some] at hn
      rw [asComplex_some, File.findType] at h
      exact ⟨name, hn.1, hn.2, StdMap.mem_of_get h⟩
  · rintro ⟨name, h1, h2, h3⟩
    rw [splitNsName_eq_some.2 ⟨h1, h2⟩]
    exact asComplex_some.2 (StdMap.get_of_mem hf.types_sorted h3)

theorem baseOf_unique {f : File} (hf : f.Ok) {s : Schema} {c b b' : Complex} (h : BaseOf f s c b) (h' : BaseOf f s c b') :
    b = b' := by
  have h1 := (getBaseType_some hf).2 h
  rw [(getBaseType_some hf).2 h'] at h1
  exact (Option.some.inj h1).symm

theorem getBaseType_none {f : File} (hf : f.Ok) {s : Schema} {c : Complex} :
    f.getBaseType s c = none ↔ ∀ b, ¬ BaseOf f s c b := by
  constructor
  · intro h b hb
    rw [(getBaseType_some hf).2 hb] at h
    cases h
  · intro h
    rcases Option.eq_none_or_eq_some (f.getBaseType s c) with h' | ⟨b, h'⟩
    · exact h'
    · exact absurd ((getBaseType_some hf).1 h') (h b)

theorem baseOf_nonempty {f : File} {s : Schema} {c b : Complex} (h : BaseOf f s c b) : c.base ≠ [] := by
  obtain ⟨_, _, h, _⟩ := h
  rw [h]
  simp

theorem hierarchyLoop_chain {f : File} (hf : f.Ok) {s : Schema} : ∀ {fuel : Nat} {c : Complex} {done : Bool} {l : List Complex},
    f.hierarchyLoop s fuel c = some (done, l) → Chain f s c l done
  | 0, c, done, l, h => by simp [File.hierarchyLoop] at h
  | fuel + 1, c, done, l, h => by
    simp only [File.hierarchyLoop] at h
    split at h
    · next hb =>
      cases h
      exact .root hb
    · next hb =>
      split at h
      · next hn =>
        cases h
        exact .unknown hb ((getBaseType_none hf).1 hn)
      · next b hs =>
        simp only [Option.map_eq_some_iff] at h
        obtain ⟨⟨d, l'⟩, h1, h2⟩ := h
        cases h2
        exact .base ((getBaseType_some hf).1 hs) (hierarchyLoop_chain hf h1)

/-- A path of bases. -/
def Path (f : File) (s : Schema) : Complex → List Complex → Prop
  | _, [] => True
  | c, b :: l => BaseOf f s c b ∧ Path f s b l

theorem hierarchyLoop_none {f : File} (hf : f.Ok) {s : Schema} : ∀ {fuel : Nat} {c : Complex},
    f.hierarchyLoop s fuel c = none → ∃ l, l.length = fuel ∧ Path f s c l
  | 0, c, _ => ⟨[], rfl, trivial⟩
  | fuel + 1, c, h => by
    simp only [File.hierarchyLoop] at h
    split at h
    · cases h
    · split at h
      · cases h
      · next b hs =>
        simp only [Option.map_eq_none_iff] at h
        obtain ⟨l, hl, hp⟩ := hierarchyLoop_none hf h
        exact ⟨b :: l, by simp [hl], (getBaseType_some hf).1 hs, hp⟩

theorem path_mem {f : File} {s : Schema} : ∀ {c : Complex} {l : List Complex}, Path f s c l →
    ∀ b ∈ l, XType.complex b ∈ f.types.map (·.2) ∧ Ancestor f s c b
  | _, [], _, b, hb => by cases hb
  | c, a :: l, ⟨h1, h2⟩, b, hb => by
    rcases List.mem_cons.1 hb with rfl | hb
    · obtain ⟨n, _, _, h⟩ := h1
      exact ⟨List.mem_map.2 ⟨_, h, rfl⟩, .base ⟨n, by assumption, by assumption, h⟩⟩
    · have := path_mem h2 b hb
      exact ⟨this.1, .step h1 this.2⟩

theorem path_cyclic {f : File} {s : Schema} : ∀ {c : Complex} {l : List Complex}, Path f s c l → ¬ l.Nodup →
    ∃ b, Ancestor f s c b ∧ Ancestor f s b b
  | _, [], _, h => absurd List.nodup_nil h
  | c, a :: l, ⟨h1, h2⟩, h => by
    by_cases ha : a ∈ l
    · exact ⟨a, .base h1, (path_mem h2 a ha).2⟩
    · obtain ⟨b, hb1, hb2⟩ := path_cyclic h2 (fun hn => h (List.nodup_cons.2 ⟨ha, hn⟩))
      exact ⟨b, .step h1 hb1, hb2⟩

theorem long_path_cyclic {f : File} {s : Schema} {c : Complex} {l : List Complex} (hp : Path f s c l)
    (hl : f.types.length < l.length) : Cyclic f s c := by
  have hn : ¬ l.Nodup := by
    intro hn
    have hn' : (l.map XType.complex).Nodup := by
      rw [List.Nodup, List.pairwise_map]
      exact List.Pairwise.imp (fun h h' => h (XType.complex.inj h')) hn
    have hs : l.map XType.complex ⊆ f.types.map (·.2) := by
      intro t ht
      obtain ⟨b, hb, rfl⟩ := List.mem_map.1 ht
      exact (path_mem hp b hb).1
    have := (hn'.subperm hs).length_le
    simp at this
    omega
  obtain ⟨b, h1, h2⟩ := path_cyclic hp hn
  exact ⟨b, .inr h1, h2⟩

theorem hierarchyLoop_ends {f : File} (hf : f.Ok) {s : Schema} {c : Complex} (h : ¬ Cyclic f s c) {fuel : Nat}
    (hl : f.types.length < fuel) : ∃ r, f.hierarchyLoop s fuel c = some r := by
  rcases Option.eq_none_or_eq_some (f.hierarchyLoop s fuel c) with h' | h'
  · obtain ⟨l, h1, h2⟩ := hierarchyLoop_none hf h'
    exact absurd (long_path_cyclic h2 (by omega)) h
  · exact h'

theorem ancestor_chain {f : File} (hf : f.Ok) {s : Schema} {c b : Complex} {l : List Complex} {done : Bool} (h : Chain f s c l done) :
    b ∈ l ↔ Ancestor f s c b := by
  induction h with
  | root hb =>
    constructor
    · intro h; cases h
    · intro h
      cases h with
      | base h => exact absurd hb (baseOf_nonempty h)
      | step h _ => exact absurd hb (baseOf_nonempty h)
  | unknown hb hn =>
    constructor
    · intro h; cases h
    · intro h
      cases h with
      | base h => exact absurd h (hn _)
      | step h _ => exact absurd h (hn _)
  | base h1 _ ih =>
    constructor
    · intro h
      rcases List.mem_cons.1 h with rfl | h
      · exact .base h1
      · exact .step h1 (ih.1 h)
    · intro h
      cases h with
      | base h => exact List.mem_cons.2 (.inl (baseOf_unique hf h h1))
      | step h h' =>
        rw [baseOf_unique hf h h1] at h'
        exact List.mem_cons_of_mem _ (ih.2 h')

theorem ancestor_trans {f : File} {s : Schema} {c b a : Complex} (h : Ancestor f s c b) (h' : Ancestor f s b a) :
    Ancestor f s c a := by
  induction h with
  | base h => exact .step h h'
  | step h _ ih => exact .step h (ih h')

theorem chain_length {f : File} (hf : f.Ok) {s : Schema} {c : Complex} {l : List Complex} {done : Bool} (h : Chain f s c l done) :
    ∀ {l' : List Complex} {done' : Bool}, Chain f s c l' done' → l = l' ∧ done = done' := by
  induction h with
  | root hb =>
    intro l' d' h'
    cases h' with
    | root _ => exact ⟨rfl, rfl⟩
    | unknown h _ => exact absurd hb h
    | base h _ => exact absurd hb (baseOf_nonempty h)
  | unknown hb hn =>
    intro l' d' h'
    cases h' with
    | root h => exact absurd h hb
    | unknown _ _ => exact ⟨rfl, rfl⟩
    | base h _ => exact absurd h (hn _)
  | base h1 _ ih =>
    intro l' d' h'
    cases h' with
    | root h => exact absurd h (baseOf_nonempty h1)
    | unknown _ h => exact absurd h1 (h _)
    | base h h' =>
      rw [baseOf_unique hf h h1] at h'
      obtain ⟨h2, h3⟩ := ih h'
      exact ⟨by rw [h2, baseOf_unique hf h h1], h3⟩

theorem chain_not_cyclic {f : File} (hf : f.Ok) {s : Schema} {c : Complex} {l : List Complex} {done : Bool} (h : Chain f s c l done) :
    ¬ Ancestor f s c c := by
  -- the chain of an ancestor is shorter
  have key : ∀ {c : Complex} {l : List Complex} {done : Bool}, Chain f s c l done → ∀ b, Ancestor f s c b →
      ∃ l' d', Chain f s b l' d' ∧ l'.length < l.length := by
    intro c l done h
    induction h with
    | root hb => intro b hb'; cases hb' with
      | base h => exact absurd hb (baseOf_nonempty h)
      | step h _ => exact absurd hb (baseOf_nonempty h)
    | unknown hb hn => intro b hb'; cases hb' with
      | base h => exact absurd h (hn _)
      | step h _ => exact absurd h (hn _)
    | @base c' b' l' d' h1 h2 ih =>
      intro b hb
      cases hb with
      | base h => rw [baseOf_unique hf h h1]; exact ⟨l', d', h2, by simp⟩
      | step h h' =>
        rw [baseOf_unique hf h h1] at h'
        obtain ⟨m, e, h3, h4⟩ := ih b h'
        exact ⟨m, e, h3, by simp; omega⟩
  intro hc
  obtain ⟨l', d', h1, h2⟩ := key h c hc
  obtain ⟨h3, _⟩ := chain_length hf h h1
  rw [h3] at h2
  omega

theorem chain_acyclic {f : File} (hf : f.Ok) {s : Schema} {c : Complex} {l : List Complex} {done : Bool} (h : Chain f s c l done) :
    ¬ Cyclic f s c := by
  rintro ⟨b, hb, hbb⟩
  have key : ∀ {c : Complex} {l : List Complex} {done : Bool}, Chain f s c l done → ∀ b, Ancestor f s c b →
      ∃ l' d', Chain f s b l' d' := by
    intro c l done h
    induction h with
    | root hb => intro b hb'; cases hb' with
      | base h => exact absurd hb (baseOf_nonempty h)
      | step h _ => exact absurd hb (baseOf_nonempty h)
    | unknown hb hn => intro b hb'; cases hb' with
      | base h => exact absurd h (hn _)
      | step h _ => exact absurd h (hn _)
    | @base c' b' l' d' h1 h2 ih =>
      intro b hb
      cases hb with
      | base h => rw [baseOf_unique hf h h1]; exact ⟨l', d', h2⟩
      | step h h' =>
        rw [baseOf_unique hf h h1] at h'
        exact ih b h'
  rcases hb with rfl | hb
  · exact chain_not_cyclic hf h hbb
  · obtain ⟨l', d', h'⟩ := key h b hb
    exact chain_not_cyclic hf h' hbb

theorem search_ends {f : File} (hf : f.Ok) {s : Schema} (hs : f.schema = some s) {t : Complex} :
    ∀ {c : Complex} {l : List Complex} {done : Bool}, Chain f s c l done → ∀ {fuel : Nat}, l.length < fuel →
      f.searchTypeHierarchy fuel c t = some (decide (t.name = c.name ∨ ∃ b ∈ l, t.name = b.name)) := by
  intro c l done h
  induction h with
  | @root c hb =>
    intro fuel hl
    obtain ⟨k, rfl⟩ : ∃ k, fuel = k + 1 := ⟨fuel - 1, by simp at hl; omega⟩
    simp only [File.searchTypeHierarchy, hs]
    have : f.getBaseType s c = none := (getBaseType_none hf).2 fun b h => baseOf_nonempty h hb
    rw [this]
    by_cases h : t.name = c.name <;> simp [h]
  | @unknown c hb hn =>
    intro fuel hl
    obtain ⟨k, rfl⟩ : ∃ k, fuel = k + 1 := ⟨fuel - 1, by simp at hl; omega⟩
    simp only [File.searchTypeHierarchy, hs]
    have : f.getBaseType s c = none := (getBaseType_none hf).2 hn
    rw [this]
    by_cases h : t.name = c.name <;> simp [h]
  | @base c b l d h1 _ ih =>
    intro fuel hl
    obtain ⟨k, rfl⟩ : ∃ k, fuel = k + 1 := ⟨fuel - 1, by simp at hl; omega⟩
    simp only [File.searchTypeHierarchy, hs]
    rw [(getBaseType_some hf).2 h1]
    by_cases h : t.name = c.name
    · simp [h]
    · simp only [h, if_false]
      rw [ih (by simp at hl; omega)]
      congr 1
      simp

/-! ## Elements -/

theorem mem_allElements {f : File} {e : Element} : e ∈ f.getAllElements ↔ ∃ k, (k, e) ∈ f.elements := by
  simp [File.getAllElements]

theorem allElements_nodup {f : File} (hf : f.Ok) : f.getAllElements.Nodup := by
  unfold File.getAllElements
  rw [List.Nodup, List.pairwise_map]
  refine List.Pairwise.imp_of_mem ?_ hf.elements_sorted
  intro a b ha hb hlt hab
  have h1 := hf.elements_named a.1 a.2 ha
  have h2 := hf.elements_named b.1 b.2 hb
  rw [← h1, ← h2, hab, strLt_irrefl] at hlt
  cases hlt

theorem findElementType_some {f : File} (hf : f.Ok) {e : Element} (he : e ∈ f.getAllElements) {t : XType} :
    f.findElementType (some e) = some t ↔
      (HasBuiltin e ∧ t = .primitive (getTypeId e.type_)) ∨ (¬ HasBuiltin e ∧ HasType f e t) := by
  obtain ⟨k, hk⟩ := mem_allElements.1 he
  have hid := hf.type_ids k e hk
  have hp : e.isPrimitive = true ↔ HasBuiltin e := by
    unfold Element.isPrimitive HasBuiltin
    rw [hid, bne_iff_ne, ne_eq, getTypeId_zero]
    exact Decidable.not_not
  have hne : HasBuiltin e → e.type_ ≠ [] := by
    intro h h0
    unfold HasBuiltin at h
    rw [h0] at h
    exact absurd h (by decide)
  unfold File.findElementType
  by_cases hb : HasBuiltin e
  · simp only [if_neg (hne hb), hp.2 hb, if_true]
    rw [if_neg (by rw [getTypeId_zero]; exact fun h => h hb)]
    simp [hb, eq_comm]
  · have hpf : e.isPrimitive = false := by
      rw [← Bool.not_eq_true, hp]; exact hb
    simp only [hpf, hb, false_and, false_or, not_false_eq_true, true_and]
    constructor
    · intro h
      split at h
      · cases h
      · split at h
        · next h' => cases h'
        · split at h
          · cases h
          · next s hs =>
            split at h
            · cases h
            · next name hn =>
              rw [splitNsName_eq_some] at hn
              exact ⟨s, name, hs, hn.1, hn.2, StdMap.mem_of_get h⟩
    · rintro ⟨s, name, hs, h1, h2, h3⟩
      have : e.type_ ≠ [] := by rw [h2]; simp
      rw [if_neg this]
      simp only [hs, splitNsName_eq_some.2 ⟨h1, h2⟩]
      exact StdMap.get_of_mem hf.types_sorted h3

end Kml.XsdDoc
