import Verif.Props.Convenience
/-! C64: which data are read, and scores that are not there. -/
namespace Kml.Dom
open Kml

/-- **C64, reading.** The value read is that of the first `<Data>` of that name; there is none exactly if the feature has no
`<ExtendedData>` with one. -/
theorem C64_first (feature : Elem) (name : Str) :
    (∀ v, getExtendedDataValue feature name = some v ↔ ∃ ed front d back, feature.only M.«extendeddata» = some ed ∧
      ed.items M.«data_array» = front ++ d :: back ∧ (∀ x ∈ front, x.known (chars! "name") ≠ some name) ∧
      d.known (chars! "name") = some name ∧ d.text M.«value» = v) ∧
    (getExtendedDataValue feature name = none ↔ ∀ ed, feature.only M.«extendeddata» = some ed →
      ∀ d ∈ ed.items M.«data_array», d.known (chars! "name") ≠ some name) := by
  have some_iff : ∀ (l : List Elem) (v : Str), findData name l = some v ↔ ∃ front d back, l = front ++ d :: back ∧
      (∀ x ∈ front, x.known (chars! "name") ≠ some name) ∧ d.known (chars! "name") = some name ∧ d.text M.«value» = v := by
    intro l v
    induction l with
    | nil => simp [findData]
    | cons x l ih =>
      unfold findData
      split
      next h =>
        constructor
        · intro hv
          exact ⟨[], x, l, rfl, by simp, h, Option.some.inj hv⟩
        · rintro ⟨front, d, back, h1, h2, h3, h4⟩
          cases front with
          | nil => injection h1 with h1 _; rw [h1, h4]
          | cons y front => injection h1 with h1 _; exact absurd (h1 ▸ h) (h2 y List.mem_cons_self)
      next h =>
        rw [ih]
        constructor
        · rintro ⟨front, d, back, h1, h2, h3⟩
          refine ⟨x :: front, d, back, by rw [h1]; rfl, ?_, h3⟩
          intro y hy
          rcases List.mem_cons.1 hy with rfl | hy
          · exact h
          · exact h2 y hy
        · rintro ⟨front, d, back, h1, h2, h3⟩
          cases front with
          | nil => injection h1 with h1 _; exact absurd (h1 ▸ h3.1) h
          | cons y front =>
            injection h1 with _ h1
            exact ⟨front, d, back, h1, fun z hz => h2 z (List.mem_cons_of_mem _ hz), h3⟩
  have none_iff : ∀ l : List Elem, findData name l = none ↔ ∀ d ∈ l, d.known (chars! "name") ≠ some name := by
    intro l
    induction l with
    | nil => simp [findData]
    | cons x l ih =>
      unfold findData
      split
      next h => simp [h]
      next h => rw [ih]; simp [h]
  unfold getExtendedDataValue
  cases h : feature.only M.«extendeddata» with
  | none => simp
  | some ed =>
    refine ⟨fun v => ?_, ?_⟩
    · rw [some_iff]
      exact ⟨fun ⟨a, b, c, h⟩ => ⟨ed, a, b, c, rfl, h⟩, fun ⟨_, a, b, c, h1, h⟩ => Option.some.inj h1 ▸ ⟨a, b, c, h⟩⟩
    · rw [none_iff]
      exact ⟨fun h' _ h1 => Option.some.inj h1 ▸ h', fun h' => h' ed rfl⟩

/-- **C64, no score.** A feature without a `<Data>` called `kml.FeatureScore` has the score zero. -/
theorem C64_no_score (feature : Elem) (h : ∀ ed, feature.only M.«extendeddata» = some ed →
    ∀ d ∈ ed.items M.«data_array», d.known (chars! "name") ≠ some (chars! "kml.FeatureScore")) : getFeatureScore feature = 0 := by
  have hs : Geo.scoreName = chars! "kml.FeatureScore" := by decide
  unfold getFeatureScore
  rw [hs, (C64_first feature (chars! "kml.FeatureScore")).2.2 h]

example : getFeatureScore (setExtendedDataValue (chars! "a") (chars! "7") (newNode Ty.«Placemark»)) = 0 := by decide +kernel

end Kml.Dom
