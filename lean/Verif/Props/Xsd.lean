import Verif.Lemmas.Xsd
import Verif.Spec.Xsd

/-!
# C21, C22: element names, ids and enumeration values
-/

namespace Kml.Xsd

attribute [local irreducible] kml22Elements tagToId

theorem elementName_of_row {id : Ty} {r : Str × XsdKind} (h0 : Ty.Unknown < id) (h1 : id < Ty.Invalid)
    (hi : id ≠ Ty.IconStyleIcon) (h : kml22Elements[id]? = some r) : elementName id = r.1 := by
  have hv : isValid id = true := by
    unfold isValid; rw [Bool.and_eq_true]; exact ⟨decide_eq_true h0, decide_eq_true h1⟩
  unfold elementName
  rw [if_pos hv, if_neg hi, h]

theorem rows_nonempty : ∀ r ∈ kml22Elements, r.1 ≠ [] := by decide +kernel

/-- C21: every element id has a name, and looking the name up gives back the id. -/
theorem C21_name_to_id (id : Ty) (h0 : Ty.Unknown < id) (h1 : id < Ty.Invalid)
    (hi : id ≠ Ty.IconStyleIcon) : elementName id ≠ [] ∧ elementId (elementName id) = id := by
  obtain ⟨r, hr⟩ := row_exists h1
  rw [elementName_of_row h0 h1 hi hr]
  exact ⟨rows_nonempty r (List.mem_of_getElem? hr), elementId_of_row (n := r.1) (x := r.2) hr h1⟩

example : Ty.Unknown < Ty.Placemark ∧ Ty.Placemark < Ty.Invalid ∧ Ty.Placemark ≠ Ty.IconStyleIcon := by
  decide

/-- C21: the one exception: the icon of an icon style is written as Icon, which reads as Icon. -/
theorem C21_icon : elementName Ty.IconStyleIcon = chars! "Icon" ∧
    elementName Ty.Icon = chars! "Icon" ∧ elementId (chars! "Icon") = Ty.Icon := by
  refine ⟨by decide, by decide +kernel, ?_⟩
  exact elementId_of_row (x := .complex) (by decide +kernel) (by decide)

/-- C21: no two element ids share a name. -/
theorem C21_names_differ (a b : Ty) (ha : Ty.Unknown < a) (ha' : a < Ty.Invalid)
    (hb : Ty.Unknown < b) (hb' : b < Ty.Invalid) (hai : a ≠ Ty.IconStyleIcon)
    (hbi : b ≠ Ty.IconStyleIcon) (h : elementName a = elementName b) : a = b := by
  rw [← (C21_name_to_id a ha ha' hai).2, ← (C21_name_to_id b hb hb' hbi).2, h]

/-- C21: a name that is recognised is the name of the id it is recognised as (or names the icon of an
icon style by its internal name); so every name that is not the name of an element gives the unknown
id. -/
theorem C21_unknown (s : Str) (h : ∀ id, Ty.Unknown < id → id < Ty.Invalid → elementName id ≠ s)
    (hs : s ≠ chars! "IconStyleIcon") : elementId s = Ty.Unknown := by
  rcases Nat.eq_or_lt_of_le (Nat.zero_le (elementId s)) with h0 | h0
  · exact h0.symm
  · exfalso
    obtain ⟨h1, x, hx⟩ := row_of_elementId (n := s) (Nat.ne_of_gt h0)
    by_cases hi : elementId s = Ty.IconStyleIcon
    · apply hs
      have : kml22Elements[Ty.IconStyleIcon]? = some (chars! "IconStyleIcon", .complex) := by
        decide +kernel
      rw [hi, this] at hx
      injection hx with hx; injection hx with hx _; exact hx.symm
    · exact h _ h0 h1 (elementName_of_row h0 h1 hi hx)

example : ∀ id, Ty.Unknown < id → id < Ty.Invalid → elementName id ≠ chars! "zzz" := by
  have h : ∀ id < Ty.Invalid, elementName id ≠ chars! "zzz" := by decide +kernel
  exact fun id _ h1 => h id h1

/-- C21: ids outside the table have no name and no kind. -/
theorem C21_outside (id : Ty) (h : id = Ty.Unknown ∨ Ty.Invalid ≤ id) :
    elementName id = [] ∧ elementType id = .unknown := by
  have hv : isValid id = false := by
    unfold isValid
    rcases h with h | h
    · rw [h]; rfl
    · rw [Bool.and_eq_false_iff]; exact .inr (decide_eq_false (Nat.not_lt.2 h))
  constructor
  · unfold elementName; rw [hv]; rfl
  · unfold elementType; rw [hv]; rfl

example : Ty.Invalid ≤ 1000 := by decide

/-- C21: each id carries the name its enumerator stands for. -/
theorem C21_names_right : ∀ id, Ty.Unknown < id → id < Ty.Invalid →
    ∃ e, domTypeNames[id]? = some e ∧ Spec.NamedBy e (elementName id) = true := by
  have h : ∀ id < Ty.Invalid, Ty.Unknown < id →
      (domTypeNames[id]?.any fun e => Spec.NamedBy e (elementName id)) = true := by decide +kernel
  intro id h0 h1
  have := h id h1 h0
  rcases Option.eq_none_or_eq_some (domTypeNames[id]?) with he | ⟨e, he⟩
  · rw [he] at this; cases this
  · rw [he] at this; exact ⟨e, he, this⟩

/-- C21: the enumeration elements and their values, in order, are those of the schemas. -/
theorem C21_enums_right : kml22Enums.map (fun r => (elementName r.1, r.2)) = Spec.kmlEnums := by
  decide +kernel

theorem valueIndex_spec {v : Str} : ∀ (vs : List Str) (i j : Nat), valueIndex v vs i = some j →
    i ≤ j ∧ vs[j - i]? = some v
  | [], _, _, h => by simp [valueIndex] at h
  | w :: ws, i, j, h => by
    simp only [valueIndex] at h
    split at h
    · rename_i hw
      injection h with h; subst h; subst hw
      exact ⟨Nat.le_refl _, by simp⟩
    · obtain ⟨h1, h2⟩ := valueIndex_spec ws (i + 1) j h
      have : j - i = (j - (i + 1)) + 1 := by omega
      exact ⟨by omega, by rw [this]; simpa using h2⟩

theorem valueIndex_nodup {v : Str} : ∀ (vs : List Str) (i n : Nat), vs.Nodup → vs[n]? = some v →
    valueIndex v vs i = some (i + n)
  | [], _, _, _, h => by simp at h
  | w :: ws, i, 0, _, h => by
    simp at h; simp [valueIndex, h]
  | w :: ws, i, n + 1, hd, h => by
    simp only [List.nodup_cons, List.getElem?_cons_succ] at hd h
    have : w ≠ v := fun e => hd.1 (e ▸ List.mem_of_getElem? h)
    simp only [valueIndex, if_neg this]
    rw [valueIndex_nodup ws (i + 1) n hd.2 h]
    congr 1; omega

theorem enumIdIn_absent {t : Ty} {v : Str} : ∀ rows : List (Ty × List Str),
    t ∉ rows.map (·.1) → enumIdIn t v rows = none
  | [], _ => rfl
  | (t', vs) :: rows, h => by
    simp only [List.map_cons, List.mem_cons, not_or] at h
    simp only [enumIdIn, if_neg (Ne.symm h.1)]
    exact enumIdIn_absent rows h.2

/-- C21: an enumeration value that is read is written back as itself. -/
theorem C21_enum_read_write (t : Ty) (v : Str) (n : Nat) (h : enumId t v = some n) :
    enumValue t n = .ok v := by
  have hd : (kml22Enums.map (·.1)).Nodup := by decide
  have key : ∀ rows : List (Ty × List Str), (rows.map (·.1)).Nodup → enumIdIn t v rows = some n →
      enumValueIn t n rows = .ok v := by
    intro rows
    induction rows with
    | nil => intro _ h; simp [enumIdIn] at h
    | cons r rows ih =>
      obtain ⟨t', vs⟩ := r
      intro hd h
      simp only [List.map_cons, List.nodup_cons] at hd
      simp only [enumIdIn] at h
      simp only [enumValueIn]
      split at h
      · rename_i ht
        rw [if_pos ht]
        split at h
        · rename_i i hi
          injection h with h; subst h
          have := (valueIndex_spec vs 0 i hi).2
          rw [Nat.sub_zero] at this
          rw [this]
        · rw [enumIdIn_absent rows (ht ▸ hd.1)] at h; cases h
      · rename_i ht
        rw [if_neg ht]; exact ih hd.2 h
  have h0 : ¬ ((n : Int) < 0) := by omega
  unfold enumValue
  rw [if_neg h0, Int.toNat_natCast]
  exact key _ hd h

example : enumId Ty.altitudeMode (chars! "absolute") = some 2 := by decide

/-- C21: an enumeration value that is written is read back as itself. -/
theorem C21_enum_write_read (t : Ty) (v : Str) (n : Int) (h : enumValue t n = .ok v) (hv : v ≠ []) :
    0 ≤ n ∧ enumId t v = some n.toNat := by
  have hd : ∀ r ∈ kml22Enums, r.2.Nodup := by decide
  have key : ∀ rows : List (Ty × List Str), (∀ r ∈ rows, r.2.Nodup) → enumValueIn t n.toNat rows = .ok v →
      enumIdIn t v rows = some n.toNat := by
    intro rows
    induction rows with
    | nil =>
      intro _ h
      simp only [enumValueIn, Outcome.ok.injEq] at h
      exact absurd h.symm hv
    | cons r rows ih =>
      obtain ⟨t', vs⟩ := r
      intro hd h
      simp only [enumValueIn] at h
      simp only [enumIdIn]
      split at h
      · rename_i ht
        rw [if_pos ht]
        split at h
        · rename_i w hw
          injection h with h; subst h
          rw [valueIndex_nodup vs 0 _ (hd _ (List.mem_cons_self ..)) hw, Nat.zero_add]
        · cases h
      · rename_i ht
        rw [if_neg ht]; exact ih (fun r hr => hd r (List.mem_cons_of_mem _ hr)) h
  unfold enumValue at h
  split at h
  · injection h with h; exact absurd h.symm hv
  · exact ⟨by omega, key _ hd h⟩

example : enumValue Ty.units 2 = .ok (chars! "insetPixels") := by decide

/-- C21: a text that is not one of the values of the enumeration is not read as a value. -/
theorem C21_enum_unknown (t : Ty) (v : Str) (h : ∀ r ∈ kml22Enums, r.1 = t → v ∉ r.2) :
    enumId t v = none := by
  rcases Option.eq_none_or_eq_some (enumId t v) with hn | ⟨n, hn⟩
  · exact hn
  · exfalso
    unfold enumId at hn
    have key : ∀ rows : List (Ty × List Str), enumIdIn t v rows = some n →
        ∃ r ∈ rows, r.1 = t ∧ v ∈ r.2 := by
      intro rows
      induction rows with
      | nil => intro h; cases h
      | cons r rows ih =>
        obtain ⟨t', vs⟩ := r
        intro h
        simp only [enumIdIn] at h
        split at h
        · rename_i ht
          split at h
          · rename_i i hi
            exact ⟨_, List.mem_cons_self .., ht, List.mem_of_getElem? (valueIndex_spec vs 0 i hi).2⟩
          · obtain ⟨r, hr, h⟩ := ih h; exact ⟨r, List.mem_cons_of_mem _ hr, h⟩
        · obtain ⟨r, hr, h⟩ := ih h; exact ⟨r, List.mem_cons_of_mem _ hr, h⟩
    obtain ⟨r, hr, ht, hv⟩ := key _ hn
    exact h r hr ht hv

example : ∀ r ∈ kml22Enums, r.1 = Ty.altitudeMode → chars! "somewhere" ∉ r.2 := by decide

/-- C21: asking for the text of a value past the end of its enumeration is undefined. -/
theorem C21_enum_past_end : enumValue Ty.altitudeMode 3 = .ub ∧ enumValue Ty.altitudeMode 2 ≠ .ub := by
  decide

/-- C22 fails: from the types of gx tracks on, the names are those of other types. -/
theorem C22_violated : kmlDomTypeToString Ty.GxMultiTrack = .ok (chars! "Type_GxPlaylist") ∧
    kmlDomTypeToString Ty.GxY = .ub := by decide +kernel

/-- C22: what does hold: every type before `Type_GxMultiTrack` is reported by its name.  Missing: the
types after it, for which it fails (`C22_violated`). -/
theorem C22_partial (t : Ty) (h : t < Ty.GxMultiTrack) :
    ∃ e, domTypeNames[t]? = some e ∧ kmlDomTypeToString t = .ok e := by
  have hh : ∀ t < Ty.GxMultiTrack, domTypeNames[t]?.isSome = true ∧
      domTypeStrings[t]? = domTypeNames[t]? := by decide +kernel
  obtain ⟨h1, h2⟩ := hh t h
  obtain ⟨e, he⟩ := Option.isSome_iff_exists.1 h1
  refine ⟨e, he, ?_⟩
  unfold kmlDomTypeToString
  rw [h2, he]

example : Ty.Placemark < Ty.GxMultiTrack := by decide

/-- C22: no type from `Type_GxMultiTrack` on is reported by its own name. -/
theorem C22_all_wrong_after (t : Ty) (h : Ty.GxMultiTrack ≤ t) (h' : t < Ty.Invalid) :
    ∀ e, domTypeNames[t]? = some e → kmlDomTypeToString t ≠ .ok e := by
  have hh : ∀ t < Ty.Invalid, Ty.GxMultiTrack ≤ t →
      (domTypeStrings[t]?.isNone || decide (domTypeStrings[t]? ≠ domTypeNames[t]?)) = true := by
    decide +kernel
  intro e he hk
  have := hh t h' h
  unfold kmlDomTypeToString at hk
  rcases Option.eq_none_or_eq_some (domTypeStrings[t]?) with hs | ⟨s, hs⟩
  · rw [hs] at hk; cases hk
  · rw [hs] at hk this
    injection hk with hk
    rw [he, hk] at this
    simp at this

end Kml.Xsd
