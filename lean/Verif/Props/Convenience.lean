import Verif.Spec.Convenience
import Verif.Props.StringUtil
import Verif.Props.FeatureList
import Verif.Spec.Unknown
import Verif.Spec.Numbers
import Verif.Lemmas.StdMap

/-!
# C62, C64, C65 and C76: conveniences
-/

namespace Kml.Dom

open Kml

/-! ### Setters and getters -/

theorem setSlot_get (slots : Mem → List Elem) (m i : Mem) (v : List Elem) :
    setSlot slots m v i = if i = m then v else slots i := rfl

theorem setSlot_hit (slots : Mem → List Elem) (m : Mem) (v : List Elem) : setSlot slots m v m = v := if_pos rfl

theorem setSlot_miss (slots : Mem → List Elem) {m i : Mem} (v : List Elem) (h : i ≠ m) : setSlot slots m v i = slots i := if_neg h

/-! ## C64 -/

theorem findData_append (name : Str) (l r : List Elem) : findData name (l ++ r) = (findData name l).or (findData name r) := by
  induction l with
  | nil => rfl
  | cons d l ih =>
    show (if _ then _ else _) = (if _ then _ else _ : Option Str).or _
    split
    · rfl
    · exact ih

theorem findData_new (name name' value : Str) :
    findData name [createDataNameValue name' value] = if name' = name then some value else none := by
  show (if some name' = some name then some value else none) = _
  by_cases h : name' = name
  · rw [if_pos (by rw [h]), if_pos h]
  · rw [if_neg (fun h' => h (Option.some.inj h')), if_neg h]

/-- An `ExtendedData` is an element with children. -/
def HasChildren (feature : Elem) : Prop := ∀ ed, feature.only M.«extendeddata» = some ed → ed.isNode = true

theorem get_add (name value name' : Str) (t : Ty) (a : Attrs) (slots : Mem → List Elem) (mis : List Elem) (unk : List Str)
    (h : HasChildren (.node t a slots mis unk)) :
    getExtendedDataValue (addExtendedDataValue name value (.node t a slots mis unk)) name' =
      (getExtendedDataValue (.node t a slots mis unk) name').or (if name = name' then some value else none) := by
  rcases Option.eq_none_or_eq_some ((Elem.node t a slots mis unk).only M.«extendeddata») with h1 | ⟨ed, h1⟩
  · unfold getExtendedDataValue addExtendedDataValue
    rw [h1]
    exact findData_new ..
  · have hn := h ed h1
    unfold getExtendedDataValue addExtendedDataValue
    rw [h1]
    cases ed with
    | field => cases hn
    | node t' a' slots' mis' unk' =>
      show findData name' (setSlot slots' M.«data_array» _ M.«data_array») = _
      rw [setSlot_hit, findData_append, findData_new]
      rfl

/-- **C64, adding.** After a value was added under a name that had none, reading the name gives the value. -/
theorem C64_add_partial (name value : Str) (t : Ty) (a : Attrs) (slots : Mem → List Elem) (mis : List Elem) (unk : List Str)
    (h : HasChildren (.node t a slots mis unk)) (hnew : getExtendedDataValue (.node t a slots mis unk) name = none) :
    getExtendedDataValue (addExtendedDataValue name value (.node t a slots mis unk)) name = some value := by
  rw [get_add _ _ _ _ _ _ _ _ h, hnew, if_pos rfl]
  rfl

/-- **C64, violated.** After a value was added under a name that had one, reading the name still gives the old value. -/
theorem C64_add_violated (name value old : Str) (t : Ty) (a : Attrs) (slots : Mem → List Elem) (mis : List Elem) (unk : List Str)
    (h : HasChildren (.node t a slots mis unk)) (hold : getExtendedDataValue (.node t a slots mis unk) name = some old) :
    getExtendedDataValue (addExtendedDataValue name value (.node t a slots mis unk)) name = some old := by
  rw [get_add _ _ _ _ _ _ _ _ h, hold]
  rfl

/-- **C64, adding leaves the rest.** Other names, the `Data` there were, and everything else in the feature. -/
theorem C64_add_others (name value : Str) (t : Ty) (a : Attrs) (slots : Mem → List Elem) (mis : List Elem) (unk : List Str)
    (h : HasChildren (.node t a slots mis unk)) :
    (∀ name', name' ≠ name → getExtendedDataValue (addExtendedDataValue name value (.node t a slots mis unk)) name' =
      getExtendedDataValue (.node t a slots mis unk) name') ∧
    (addExtendedDataValue name value (.node t a slots mis unk)).dataPairs =
      (Elem.node t a slots mis unk).dataPairs ++ [(some name, value)] ∧
    SameBut M.«extendeddata» (.node t a slots mis unk) (addExtendedDataValue name value (.node t a slots mis unk)) := by
  refine ⟨fun name' hne => ?_, ?_, rfl, rfl, rfl, rfl, fun i hi => setSlot_miss _ _ hi⟩
  · rw [get_add _ _ _ _ _ _ _ _ h, if_neg (Ne.symm hne), Option.or_none]
  · rcases Option.eq_none_or_eq_some ((Elem.node t a slots mis unk).only M.«extendeddata») with h1 | ⟨ed, h1⟩
    · unfold Elem.dataPairs addExtendedDataValue
      rw [h1]
      rfl
    · have hn := h ed h1
      unfold Elem.dataPairs addExtendedDataValue
      rw [h1]
      cases ed with
      | field => cases hn
      | node t' a' slots' mis' unk' =>
        show List.map _ (setSlot slots' M.«data_array» _ M.«data_array») = _
        rw [setSlot_hit, List.map_append]
        rfl

/-- **C64, setting.** After a value was set, reading its name gives it, and nothing else in the feature than its extended
data has changed. -/
theorem C64_set (name value : Str) (t : Ty) (a : Attrs) (slots : Mem → List Elem) (mis : List Elem) (unk : List Str) :
    getExtendedDataValue (setExtendedDataValue name value (.node t a slots mis unk)) name = some value ∧
    SameBut M.«extendeddata» (.node t a slots mis unk) (setExtendedDataValue name value (.node t a slots mis unk)) := by
  refine ⟨?_, rfl, rfl, rfl, rfl, fun i hi => ?_⟩
  · show findData name [createDataNameValue name value] = _
    rw [findData_new, if_pos rfl]
  · show setSlot (setSlot slots _ _) _ _ i = _
    rw [setSlot_miss _ _ hi, setSlot_miss _ _ hi]

/-- **C64, violated.** Setting a value removes every other name: none can be read afterwards. -/
theorem C64_set_violated (name value : Str) (t : Ty) (a : Attrs) (slots : Mem → List Elem) (mis : List Elem) (unk : List Str)
    (name' : Str) (h : name' ≠ name) :
    getExtendedDataValue (setExtendedDataValue name value (.node t a slots mis unk)) name' = none := by
  show findData name' [createDataNameValue name value] = _
  rw [findData_new, if_neg (Ne.symm h)]

/-- **C64, scores.** A score that was set is read back. -/
theorem C64_score (k : Nat) (t : Ty) (a : Attrs) (slots : Mem → List Elem) (mis : List Elem) (unk : List Str) :
    getFeatureScore (setFeatureScore (Nat.toDigits 10 k) (.node t a slots mis unk)) = k ∧
    getFeatureScore (setFeatureScore ('-' :: Nat.toDigits 10 k) (.node t a slots mis unk)) = -k := by
  have h : ∀ text : Str, getFeatureScore (setFeatureScore text (.node t a slots mis unk)) = Geo.atoi text := by
    intro text
    unfold getFeatureScore setFeatureScore
    rw [(C64_set Geo.scoreName text t a slots mis unk).1]
  obtain ⟨h1, h2⟩ := Geo.C60_set_score (K := Int) ⟨0, none, none⟩ k
  have e : ∀ text : Str, (Geo.Item.setScore (K := Int) ⟨0, none, none⟩ text).score = Geo.atoi text := by
    intro text
    unfold Geo.Item.score Geo.Item.setScore
    rw [Option.getD_some, List.find?_cons_of_pos (by simp)]
  rw [e] at h1 h2
  rw [h, h]
  exact ⟨h1, h2⟩

/-- A feature with a name that has a value, and one that has not; a name that is lost. -/
example :
    HasChildren (newNode Ty.«Placemark») ∧ HasChildren (addExtendedDataValue ['a'] ['x'] (newNode Ty.«Placemark»)) ∧
    getExtendedDataValue (addExtendedDataValue ['a'] ['x'] (newNode Ty.«Placemark»)) ['a'] = some ['x'] ∧
    getExtendedDataValue (addExtendedDataValue ['a'] ['y'] (addExtendedDataValue ['a'] ['x'] (newNode Ty.«Placemark»))) ['a'] =
      some ['x'] ∧
    getExtendedDataValue (setExtendedDataValue ['b'] ['y'] (addExtendedDataValue ['a'] ['x'] (newNode Ty.«Placemark»))) ['a'] =
      none := by
  refine ⟨fun ed h => (by cases h), fun ed h => ?_, by decide +kernel, by decide +kernel, by decide +kernel⟩
  injection h with h
  subst h
  rfl

/-! ## C65 -/

section Simplify

variable {V K : Type} [Zero K] [LinearOrder K] (dist : V → V → K)

/-- Each point with the one before it. -/
def withPrevious : V → List V → List (V × V)
  | _, [] => []
  | p, v :: l => (p, v) :: withPrevious v l

/-- **C65, the rule.** With a positive tolerance the first point is kept, and each other one exactly if it is farther than
the tolerance from the point before it. -/
theorem C65_rule_partial (tolerance : K) (h : 0 < tolerance) (v : V) (l dest : List V) :
    simplifyCoordinates dist tolerance (v :: l) dest =
      dest ++ v :: ((withPrevious v l).filter fun e => decide (tolerance < dist e.1 e.2)).map (·.2) := by
  show dest ++ v :: _ = _
  congr 2
  induction l generalizing v with
  | nil => rfl
  | cons w l ih =>
    unfold simplifyFrom withPrevious
    rw [if_pos h, List.filter_cons]
    by_cases hd : dist v w ≤ tolerance
    · rw [if_pos hd, if_neg (by simpa using hd), ih]
    · rw [if_neg hd, if_pos (by simpa using hd), ih]
      rfl

/-- **C65, a subsequence.** The points that are added are points of the source, in order, and the first one is there. -/
theorem C65_subsequence (tolerance : K) (src dest : List V) :
    ∃ l, simplifyCoordinates dist tolerance src dest = dest ++ l ∧ List.Sublist l src ∧ l.head? = src.head? := by
  have h : ∀ (l : List V) (v : V), List.Sublist (simplifyFrom dist tolerance v l) l := by
    intro l
    induction l with
    | nil => intro v; exact List.Sublist.refl _
    | cons w l ih =>
      intro v
      unfold simplifyFrom
      split
      · split
        · exact (ih w).cons _
        · exact (ih w).cons_cons _
      · exact (ih w).cons_cons _
  cases src with
  | nil => exact ⟨[], (List.append_nil _).symm, List.Sublist.refl _, rfl⟩
  | cons v l => exact ⟨_, rfl, (h l v).cons_cons _, rfl⟩

/-- **C65, no tolerance.** Without a positive tolerance every point is kept. -/
theorem C65_all (tolerance : K) (h : tolerance ≤ 0) (src dest : List V) :
    simplifyCoordinates dist tolerance src dest = dest ++ src := by
  cases src with
  | nil => exact (List.append_nil _).symm
  | cons v l =>
    show dest ++ v :: _ = _
    congr 2
    induction l generalizing v with
    | nil => rfl
    | cons w l ih =>
      unfold simplifyFrom
      rw [if_neg (not_lt.2 h), ih]

end Simplify

/-- The distance on a line. -/
def lineDist (a b : Int) : Int := max (a - b) (b - a)

/-- **C65, violated.** A point that is kept need not be farther than the tolerance from the last one kept: the distance is
taken to the point before it, even if that was dropped. -/
theorem C65_apart_violated :
    simplifyCoordinates lineDist 2 [0, 2, 4, 1] [] = [0, 1] ∧ ¬ (2 < lineDist 0 1) := by decide

/-- **C65, violated.** A point that is far from every point kept may be dropped. -/
theorem C65_creep_violated :
    simplifyCoordinates lineDist 2 [0, 2, 4, 6, 8, 10] [] = [0] ∧ 2 < lineDist 0 10 := by decide

/-- Points kept and points dropped. -/
example : simplifyCoordinates lineDist 2 [0, 1, 5, 6, 20] [7] = [7, 0, 5, 20] ∧ simplifyCoordinates lineDist 0 [0, 0] [] = [0, 0] := by
  decide

/-! ## C62 -/

theorem caseEqual_name {a b : Str} (hb : '\x00' ∉ b) : StringUtil.stringCaseEqual a b = true ↔ a.map toLower = b.map toLower := by
  have h : ∀ (a b : Str), a.length = b.length → '\x00' ∉ b → (StringUtil.strncaseEq a b = true ↔ a.map toLower = b.map toLower) := by
    intro a
    induction a with
    | nil => intro b hl _; cases b with | nil => exact ⟨fun _ => rfl, fun _ => rfl⟩ | cons => cases hl
    | cons c a ih =>
      intro b hl hb
      cases b with
      | nil => cases hl
      | cons d b =>
        have hb' : '\x00' ∉ b := fun h => hb (List.mem_cons_of_mem _ h)
        have := ih b (by simpa using hl) hb'
        unfold StringUtil.strncaseEq
        rw [Bool.and_eq_true, Bool.or_eq_true, decide_eq_true_eq, decide_eq_true_eq, this, List.map_cons, List.map_cons,
          List.cons.injEq]
        refine and_congr_right fun hcd => or_iff_right_of_imp fun hc => ?_
        exfalso
        subst hc
        refine hb ?_
        have hd : d = '\x00' := StringUtil.toLower_nul.1 (hcd.symm.trans (by decide))
        rw [hd]
        exact List.mem_cons_self
  unfold StringUtil.stringCaseEqual
  rw [Bool.and_eq_true, decide_eq_true_eq]
  constructor
  · rintro ⟨h1, h2⟩; exact (h a b h1 hb).1 h2
  · intro h1
    have hl : a.length = b.length := by simpa using congrArg List.length h1
    exact ⟨hl, (h a b hl hb).2 h1⟩

/-! ### The schema -/

theorem column_fields (s : CsvSchema) (i : Nat) (col : Str) :
    (s.column i col).size = s.size ∧
    (s.column i col).name = (if col.map toLower = chars! "name" then some i else s.name) ∧
    (s.column i col).description = (if col.map toLower = chars! "description" then some i else s.description) ∧
    (s.column i col).lat = (if col.map toLower = chars! "latitude" then some i else s.lat) ∧
    (s.column i col).lon = (if col.map toLower = chars! "longitude" then some i else s.lon) ∧
    (s.column i col).featureId = (if col.map toLower = chars! "feature-id" then some i else s.featureId) ∧
    (s.column i col).styleId = (if col.map toLower = chars! "style-id" then some i else s.styleId) ∧
    (s.column i col).others = s.others ++ (if reserved.contains (col.map toLower) then [] else [(i, col)]) := by
  have e : ∀ b : Str, '\x00' ∉ b → b.map toLower = b → (StringUtil.stringCaseEqual col b = true ↔ col.map toLower = b) := by
    intro b hb hl
    rw [caseEqual_name hb, hl]
  unfold CsvSchema.column reserved
  simp only [e _ (show '\x00' ∉ chars! "name" by decide) (by decide), e _ (show '\x00' ∉ chars! "description" by decide) (by decide),
    e _ (show '\x00' ∉ chars! "latitude" by decide) (by decide), e _ (show '\x00' ∉ chars! "longitude" by decide) (by decide),
    e _ (show '\x00' ∉ chars! "feature-id" by decide) (by decide), e _ (show '\x00' ∉ chars! "style-id" by decide) (by decide)]
  generalize col.map toLower = x
  by_cases h1 : x = chars! "name"
  · subst h1; simp
  by_cases h2 : x = chars! "description"
  · subst h2; simp
  by_cases h3 : x = chars! "latitude"
  · subst h3; simp
  by_cases h4 : x = chars! "longitude"
  · subst h4; simp
  by_cases h5 : x = chars! "feature-id"
  · subst h5; simp
  by_cases h6 : x = chars! "style-id"
  · subst h6; simp
  simp [h1, h2, h3, h4, h5, h6]

/-- The last column with a name, counting from `i`. -/
def columnFrom (i : Nat) (header : List Str) (name : Str) : Option Nat :=
  (((header.zipIdx i).filter fun e => e.1.map toLower = name).getLast?).map (·.2)

theorem columnFrom_cons (i : Nat) (col : Str) (l : List Str) (name : Str) :
    columnFrom i (col :: l) name = (columnFrom (i + 1) l name).or (if col.map toLower = name then some i else none) := by
  unfold columnFrom
  rw [List.zipIdx_cons, List.filter_cons]
  by_cases h : col.map toLower = name
  · rw [if_pos (by simpa using h), if_pos h, List.getLast?_cons]
    cases ((l.zipIdx (i + 1)).filter fun e => decide (e.1.map toLower = name)).getLast? <;> rfl
  · rw [if_neg (by simpa using h), if_neg h, Option.or_none]

/-- The other columns, counting from `i`. -/
def othersFrom (i : Nat) (header : List Str) : List (Nat × Str) :=
  ((header.zipIdx i).filter fun e => !(reserved.contains (e.1.map toLower))).map fun e => (e.2, e.1)

theorem or_step {a b : Option Nat} {c : Prop} [Decidable c] {i : Nat} :
    a.or (if c then some i else b) = (a.or (if c then some i else none)).or b := by
  cases a with
  | some _ => rfl
  | none => by_cases h : c <;> simp [h]

theorem columns_fields (header : List Str) : ∀ (s : CsvSchema) (i : Nat),
    (s.columns i header).size = s.size ∧
    (s.columns i header).name = (columnFrom i header (chars! "name")).or s.name ∧
    (s.columns i header).description = (columnFrom i header (chars! "description")).or s.description ∧
    (s.columns i header).lat = (columnFrom i header (chars! "latitude")).or s.lat ∧
    (s.columns i header).lon = (columnFrom i header (chars! "longitude")).or s.lon ∧
    (s.columns i header).featureId = (columnFrom i header (chars! "feature-id")).or s.featureId ∧
    (s.columns i header).styleId = (columnFrom i header (chars! "style-id")).or s.styleId ∧
    (s.columns i header).others = s.others ++ othersFrom i header := by
  induction header with
  | nil =>
    intro s i
    exact ⟨rfl, rfl, rfl, rfl, rfl, rfl, rfl, (List.append_nil _).symm⟩
  | cons col l ih =>
    intro s i
    obtain ⟨h0, h1, h2, h3, h4, h5, h6, h7⟩ := ih (s.column i col) (i + 1)
    obtain ⟨g0, g1, g2, g3, g4, g5, g6, g7⟩ := column_fields s i col
    unfold CsvSchema.columns
    simp only [columnFrom_cons]
    refine ⟨h0.trans g0, ?_, ?_, ?_, ?_, ?_, ?_, ?_⟩
    · rw [h1, g1]; exact or_step
    · rw [h2, g2]; exact or_step
    · rw [h3, g3]; exact or_step
    · rw [h4, g4]; exact or_step
    · rw [h5, g5]; exact or_step
    · rw [h6, g6]; exact or_step
    · rw [h7, g7, List.append_assoc]
      congr 1
      unfold othersFrom
      rw [List.zipIdx_cons, List.filter_cons]
      cases h : reserved.contains (col.map toLower) <;> simp

/-! ### The placemark -/

theorem lookup_others (i : Nat) (header : List Str) (pre : List (Nat × Str)) (hpre : ∀ e ∈ pre, e.1 < i) :
    (pre ++ othersFrom i header).lookup i =
      header.head?.bind fun col => if reserved.contains (col.map toLower) then none else some col := by
  have hnone : ∀ (pre : List (Nat × Str)) (r : List (Nat × Str)), (∀ e ∈ pre, e.1 < i) → (pre ++ r).lookup i = r.lookup i := by
    intro pre r
    induction pre with
    | nil => intro _; rfl
    | cons e pre ih =>
      intro h
      have : (i == e.1) = false := by
        have := h e (by simp)
        simp; omega
      rw [List.cons_append, List.lookup_cons, this]
      exact ih fun e he => h e (List.mem_cons_of_mem _ he)
  rw [hnone _ _ hpre]
  have hgt : ∀ (l : List Str) (j : Nat), i < j → (othersFrom j l).lookup i = none := by
    intro l
    induction l with
    | nil => intro j _; rfl
    | cons col l ih =>
      intro j hj
      unfold othersFrom
      rw [List.zipIdx_cons, List.filter_cons]
      split
      · rw [List.map_cons, List.lookup_cons]
        have : (i == j) = false := by simp; omega
        rw [this]
        exact ih (j + 1) (by omega)
      · exact ih (j + 1) (by omega)
  cases header with
  | nil => rfl
  | cons col l =>
    unfold othersFrom
    rw [List.zipIdx_cons, List.filter_cons, List.head?_cons, Option.bind_some]
    cases h : reserved.contains (col.map toLower) with
    | true =>
      rw [if_neg (by simp), if_pos rfl]
      exact hgt l (i + 1) (by omega)
    | false =>
      rw [if_pos (by simp), if_neg (by simp), List.map_cons, List.lookup_cons]
      simp

/-- Everything about a placemark that the loop over the other columns leaves. -/
theorem csvData_spec (s : CsvSchema) : ∀ (line header : List Str) (i : Nat) (pre : List (Nat × Str)) (p : Elem),
    s.others = pre ++ othersFrom i header → (∀ e ∈ pre, e.1 < i) → p.isNode = true → HasChildren p →
    (csvData s p i line).dataPairs = p.dataPairs ++ extraCells header line ∧
    SameBut M.«extendeddata» p (csvData s p i line) := by
  have same : ∀ p : Elem, p.isNode = true → SameBut M.«extendeddata» p p := by
    intro p hp
    cases p with
    | field => cases hp
    | node => exact ⟨rfl, rfl, rfl, rfl, fun _ _ => rfl⟩
  intro line
  induction line with
  | nil =>
    intro header i pre p _ _ hp _
    refine ⟨?_, same p hp⟩
    unfold extraCells
    rw [List.zip_nil_right]
    exact (List.append_nil _).symm
  | cons value line ih =>
    intro header i pre p ho hpre hp hch
    have hl := lookup_others i header pre hpre
    rw [← ho] at hl
    cases header with
    | nil =>
      unfold csvData
      rw [hl]
      have := ih [] (i + 1) pre p ho (fun e he => Nat.lt_succ_of_lt (hpre e he)) hp hch
      unfold extraCells at this ⊢
      rw [List.zip_nil_left] at this ⊢
      exact this
    | cons col header =>
      rw [List.head?_cons, Option.bind_some] at hl
      unfold csvData
      rw [hl]
      cases h : reserved.contains (col.map toLower) with
      | true =>
        rw [if_pos rfl]
        dsimp only
        have ho' : s.others = pre ++ othersFrom (i + 1) header := by
          rw [ho]
          unfold othersFrom
          rw [List.zipIdx_cons, List.filter_cons, if_neg (by dsimp only; rw [h]; decide)]
        have := ih header (i + 1) pre p ho' (fun e he => Nat.lt_succ_of_lt (hpre e he)) hp hch
        refine ⟨?_, this.2⟩
        rw [this.1]
        unfold extraCells
        rw [List.zip_cons_cons, List.filter_cons, if_neg (by dsimp only; rw [h]; decide)]
      | false =>
        rw [if_neg (by simp)]
        dsimp only
        have ho' : s.others = (pre ++ [(i, col)]) ++ othersFrom (i + 1) header := by
          rw [ho, List.append_assoc]
          unfold othersFrom
          rw [List.zipIdx_cons, List.filter_cons, if_pos (by dsimp only; rw [h]; decide)]
          rfl
        cases p with
        | field => cases hp
        | node t a slots mis unk =>
          obtain ⟨_, g2, g3⟩ := C64_add_others col value t a slots mis unk hch
          obtain ⟨h1, h2⟩ := ih header (i + 1) (pre ++ [(i, col)]) (addExtendedDataValue col value (.node t a slots mis unk)) ho'
            (fun e he => by
              rcases List.mem_append.1 he with he | he
              · exact Nat.lt_succ_of_lt (hpre e he)
              · rw [List.mem_singleton.1 he]; exact Nat.lt_succ_self i)
            rfl (by
              intro ed hed
              have hed : some (((((Elem.node t a slots mis unk).only M.«extendeddata»).getD (newNode Ty.«ExtendedData»)).addItem
                M.«data_array» (createDataNameValue col value))) = some ed := hed
              injection hed with hed
              subst hed
              rcases Option.eq_none_or_eq_some ((Elem.node t a slots mis unk).only M.«extendeddata») with he | ⟨ed, he⟩
              · rw [he]; rfl
              · rw [he]
                have := hch ed he
                cases ed with
                | field => cases this
                | node => rfl)
          refine ⟨?_, ?_⟩
          · rw [h1, g2, List.append_assoc]
            unfold extraCells
            rw [List.zip_cons_cons, List.filter_cons, if_pos (by dsimp only; rw [h]; decide)]
            rfl
          · revert h2
            generalize csvData s _ _ _ = q
            intro h2
            cases q with
            | field => exact h2.elim
            | node t' a' slots' mis' unk' =>
              obtain ⟨k1, k2, k3, k4, k5⟩ := h2
              exact ⟨k1, k2, k3, k4, fun j hj => (k5 j hj).trans (setSlot_miss _ _ hj)⟩

theorem beginsNumber_eq (s : Str) : StringUtil.isDecimalDoubleString s = beginsNumber s := by
  have hm : isDigit '-' = false := by decide
  have hp : isDigit '.' = false := by decide
  cases s with
  | nil => rfl
  | cons c r =>
    unfold StringUtil.isDecimalDoubleString
    dsimp only
    by_cases h1 : c = '-'
    · subst h1
      rw [if_pos rfl]
      cases r with
      | nil => simp [beginsNumber, hm]
      | cons d r =>
        by_cases h2 : d = '.'
        · subst h2
          dsimp only
          rw [if_pos rfl]
          cases r with
          | nil => simp [beginsNumber, hp]
          | cons e r => simp [beginsNumber]
        · dsimp only
          rw [if_neg h2]
          unfold beginsNumber
          split <;> simp_all
    · rw [if_neg h1]
      by_cases h2 : c = '.'
      · subst h2
        dsimp only
        rw [if_pos rfl]
        cases r with
        | nil => simp [beginsNumber, hp]
        | cons e r => simp [beginsNumber]
      · dsimp only
        rw [if_neg h2]
        unfold beginsNumber
        split <;> simp_all

/-- What is known of a placemark while it is made. -/
structure Made (q : Elem) (name description id style : Option Str) (g : Elem) : Prop where
  node : q.isNode = true
  ty : q.ty = Ty.«Placemark»
  name : q.simple M.«name» = name
  description : q.simple M.«description» = description
  id : q.known (chars! "id") = id
  style : q.simple M.«styleurl» = style
  geometry : q.only M.«geometry» = some g
  data : q.only M.«extendeddata» = none

theorem made_name {q : Elem} {d i st : Option Str} {g : Elem} (h : Made q none d i st g) (col : Option Nat) (line : List Str) :
    Made (whenColumn col line (fun v p => p.setSimple M.«name» Ty.«name» v) q) (col.map fun i => line.getD i []) d i st g := by
  obtain ⟨h0, h1, h2, h3, h4, h5, h6, h7⟩ := h
  cases col with
  | none => exact ⟨h0, h1, h2, h3, h4, h5, h6, h7⟩
  | some k =>
    cases q with
    | field => cases h0
    | node => exact ⟨rfl, h1, rfl, h3, h4, h5, h6, h7⟩

theorem made_description {q : Elem} {nm i st : Option Str} {g : Elem} (h : Made q nm none i st g) (col : Option Nat)
    (line : List Str) :
    Made (whenColumn col line (fun v p => p.setSimple M.«description» Ty.«description» v) q) nm
      (col.map fun i => line.getD i []) i st g := by
  obtain ⟨h0, h1, h2, h3, h4, h5, h6, h7⟩ := h
  cases col with
  | none => exact ⟨h0, h1, h2, h3, h4, h5, h6, h7⟩
  | some k =>
    cases q with
    | field => cases h0
    | node => exact ⟨rfl, h1, h2, rfl, h4, h5, h6, h7⟩

theorem made_id {q : Elem} {nm d st : Option Str} {g : Elem} (h : Made q nm d none st g) (col : Option Nat)
    (line : List Str) :
    Made (whenColumn col line (fun v p => if v = [] then p else p.setKnown (chars! "id") (chars! "feature-" ++ v)) q) nm d
      (((col.map fun i => line.getD i []).filter (fun v => v ≠ [])).map (chars! "feature-" ++ ·)) st g := by
  obtain ⟨h0, h1, h2, h3, h4, h5, h6, h7⟩ := h
  cases col with
  | none => exact ⟨h0, h1, h2, h3, h4, h5, h6, h7⟩
  | some k =>
    unfold whenColumn
    dsimp only
    by_cases hv : line.getD k [] = []
    · rw [if_pos hv, Option.map_some, Option.filter_some_neg (by simpa using hv)]
      exact ⟨h0, h1, h2, h3, h4, h5, h6, h7⟩
    · rw [if_neg hv, Option.map_some, Option.filter_some_pos (by simpa using hv)]
      cases q with
      | field => cases h0
      | node t a slots mis unk =>
        refine ⟨rfl, h1, h2, h3, ?_, h5, h6, h7⟩
        show (a.known.set _ _).get _ = _
        rw [StdMap.get_set, if_pos rfl]
        rfl

theorem made_style {q : Elem} {nm d i : Option Str} {g : Elem} (h : Made q nm d i none g) (col : Option Nat)
    (line : List Str) :
    Made (whenColumn col line (fun v p => if v = [] then p
        else p.setSimple M.«styleurl» Ty.«styleUrl» (chars! "style.kml" ++ ['#'] ++ chars! "style-" ++ v)) q) nm d i
      (((col.map fun i => line.getD i []).filter (fun v => v ≠ [])).map (chars! "style.kml#style-" ++ ·)) g := by
  obtain ⟨h0, h1, h2, h3, h4, h5, h6, h7⟩ := h
  cases col with
  | none => exact ⟨h0, h1, h2, h3, h4, h5, h6, h7⟩
  | some k =>
    unfold whenColumn
    dsimp only
    by_cases hv : line.getD k [] = []
    · rw [if_pos hv, Option.map_some, Option.filter_some_neg (by simpa using hv)]
      exact ⟨h0, h1, h2, h3, h4, h5, h6, h7⟩
    · rw [if_neg hv, Option.map_some, Option.filter_some_pos (by simpa using hv)]
      cases q with
      | field => cases h0
      | node t a slots mis unk => exact ⟨rfl, h1, h2, h3, h4, rfl, h6, h7⟩

theorem columnOf_lt {header : List Str} {name : Str} {i : Nat} (h : columnOf header name = some i) : i < header.length := by
  unfold columnOf at h
  obtain ⟨e, he, rfl⟩ := Option.map_eq_some_iff.1 h
  have := List.mem_of_getLast? he
  have := List.mem_filter.1 this |>.1
  have := List.mem_zipIdx this
  omega

/-- The schema that `SetSchema` makes for a header. -/
def schemaFor (header : List Str) : CsvSchema := { CsvSchema.init with size := header.length }.columns 0 header

theorem csvLine_spec (n : NumLib) (header line : List Str) :
    (csvLineToPlacemark n (schemaFor header) line (newNode Ty.«Placemark»)).1 = csvStatus header line ∧
    (csvStatus header line = .ok → Shows n header line
      (csvLineToPlacemark n (schemaFor header) line (newNode Ty.«Placemark»)).2) ∧
    (csvStatus header line ≠ .ok →
      (csvLineToPlacemark n (schemaFor header) line (newNode Ty.«Placemark»)).2 = newNode Ty.«Placemark») := by
  obtain ⟨h0, h1, h2, h3, h4, h5, h6, h7⟩ := columns_fields header { CsvSchema.init with size := header.length } 0
  have e0 : (schemaFor header).size = header.length := h0
  have e1 : (schemaFor header).name = columnOf header (chars! "name") := h1.trans (Option.or_none ..)
  have e2 : (schemaFor header).description = columnOf header (chars! "description") := h2.trans (Option.or_none ..)
  have e3 : (schemaFor header).lat = columnOf header (chars! "latitude") := h3.trans (Option.or_none ..)
  have e4 : (schemaFor header).lon = columnOf header (chars! "longitude") := h4.trans (Option.or_none ..)
  have e5 : (schemaFor header).featureId = columnOf header (chars! "feature-id") := h5.trans (Option.or_none ..)
  have e6 : (schemaFor header).styleId = columnOf header (chars! "style-id") := h6.trans (Option.or_none ..)
  have e7 : (schemaFor header).others = [] ++ othersFrom 0 header := h7
  unfold csvLineToPlacemark csvStatus
  by_cases c1 : (line.head?.bind List.head?) = some '#'
  · rw [if_pos c1, if_pos c1]
    exact ⟨rfl, fun h => (by cases h), fun _ => rfl⟩
  rw [if_neg c1, if_neg c1, e0]
  by_cases c2 : line.length ≠ header.length
  · rw [if_pos c2, if_pos c2]
    exact ⟨rfl, fun h => (by cases h), fun _ => rfl⟩
  rw [if_neg c2, if_neg c2, e3, e4]
  have c2 : line.length = header.length := Decidable.not_not.1 c2
  unfold cell
  rcases Option.eq_none_or_eq_some (columnOf header (chars! "latitude")) with k1 | ⟨lat, k1⟩
  · rw [k1]
    exact ⟨rfl, fun h => (by cases h), fun _ => rfl⟩
  rcases Option.eq_none_or_eq_some (columnOf header (chars! "longitude")) with k2 | ⟨lon, k2⟩
  · rw [k1, k2]
    dsimp only
    have : ((Option.map (fun i => line.getD i []) (some lat)).any beginsNumber &&
        (Option.map (fun i => line.getD i []) (none : Option Nat)).any beginsNumber) = false := by
      rw [Option.map_none, Option.any_none, Bool.and_false]
    rw [this, if_neg (by decide)]
    exact ⟨rfl, fun h => (by cases h), fun _ => rfl⟩
  rw [k1, k2]
  dsimp only
  have l1 := columnOf_lt k1
  have l2 := columnOf_lt k2
  rw [if_pos (by omega), Option.map_some, Option.map_some, Option.any_some, Option.any_some]
  unfold stringToDouble
  rw [beginsNumber_eq, beginsNumber_eq]
  by_cases b1 : beginsNumber (line.getD lat []) = true
  · by_cases b2 : beginsNumber (line.getD lon []) = true
    · rw [b1, b2, if_pos rfl, if_pos rfl, if_pos (by rfl)]
      refine ⟨rfl, fun _ => ?_, fun h => absurd rfl h⟩
      dsimp only
      have m0 : Made ((newNode Ty.«Placemark»).setOne M.«geometry» (createPointLatLon (n.num (line.getD lat []))
          (n.num (line.getD lon [])))) none none none none (createPointLatLon (n.num (line.getD lat [])) (n.num (line.getD lon []))) :=
        ⟨rfl, rfl, rfl, rfl, rfl, rfl, rfl, rfl⟩
      have m1 := made_style (made_id (made_description (made_name m0 (schemaFor header).name line)
        (schemaFor header).description line) (schemaFor header).featureId line) (schemaFor header).styleId line
      revert m1
      generalize whenColumn (schemaFor header).styleId line _ _ = q
      intro m1
      have hch : HasChildren q := by
        intro ed hed
        rw [m1.data] at hed
        cases hed
      obtain ⟨d1, d2⟩ := csvData_spec (schemaFor header) line header 0 [] q e7 (by simp) m1.node hch
      have d0 : q.dataPairs = [] := by
        unfold Elem.dataPairs
        rw [m1.data]
      rw [d0] at d1
      revert d1 d2
      generalize csvData (schemaFor header) q 0 line = r
      intro d1 d2
      obtain ⟨n0, n1, n2, n3, n4, n5, n6, n7⟩ := m1
      cases q with
      | field => cases n0
      | node t a slots mis unk =>
        cases r with
        | field => exact d2.elim
        | node t' a' slots' mis' unk' =>
          obtain ⟨g1, g2, g3, g4, g5⟩ := d2
          subst g1 g2
          refine ⟨n1, fun la lo hla hlo => ?_, ?_, ?_, ?_, ?_, d1⟩
          · unfold cell at hla hlo
            rw [k1] at hla
            rw [k2] at hlo
            cases hla
            cases hlo
            refine ⟨createPointLatLon (n.num (line.getD lat [])) (n.num (line.getD lon [])), (newNode Ty.«coordinates»).addItem M.«coordinates_array» (.field Ty.Unknown (pointText _)),
              ?_, rfl, rfl, rfl, ?_⟩
            · show (slots' M.«geometry»).head? = _
              rw [g5 _ (by decide)]
              exact n6
            · show [Elem.field Ty.Unknown (pointText _)] = _
              unfold pointText
              simp
          · show single (slots' M.«name») = _
            rw [g5 _ (by decide)]
            exact n2.trans (by rw [e1]; rfl)
          · show single (slots' M.«description») = _
            rw [g5 _ (by decide)]
            exact n3.trans (by rw [e2]; rfl)
          · exact n4.trans (by rw [e5]; rfl)
          · show single (slots' M.«styleurl») = _
            rw [g5 _ (by decide)]
            exact n5.trans (by rw [e6]; rfl)
    · rw [if_pos b1, if_neg b2, if_neg (by rw [b1, Bool.true_and]; exact b2)]
      exact ⟨rfl, fun h => (by cases h), fun _ => rfl⟩
  · rw [if_neg b1, if_neg (show ¬ ((beginsNumber (line.getD lat []) && beginsNumber (line.getD lon [])) = true) from
      fun h => b1 (Bool.and_eq_true _ _ ▸ h).1)]
    exact ⟨rfl, fun h => (by cases h), fun _ => rfl⟩

/-! ### The lines -/

theorem parseCsvData_feed {σ : Type} (n : NumLib) (schema : CsvSchema) (h : CsvHandler σ) : ∀ (fuel : Nat)
    (c : StringUtil.CsvSplitter) (k : Nat) (s : σ) (lines : List Str), StringUtil.allLines fuel c = some lines →
    parseCsvData n schema h fuel c [] k s = some (feed h s ((lines.zipIdx k).map fun e =>
      (e.2, (csvLineToPlacemark n schema (csvColumns e.1) (newNode Ty.«Placemark»)).1,
        (csvLineToPlacemark n schema (csvColumns e.1) (newNode Ty.«Placemark»)).2))) := by
  intro fuel
  induction fuel with
  | zero => intro c k s lines hl; cases hl
  | succ fuel ih =>
    intro c k s lines hl
    unfold StringUtil.allLines at hl
    unfold parseCsvData
    cases hs : StringUtil.splitCurrentLine c with
    | none =>
      rw [hs] at hl
      cases hl
      rfl
    | some r =>
      obtain ⟨text, c'⟩ := r
      rw [hs] at hl
      obtain ⟨rest, hrest, rfl⟩ := Option.map_eq_some_iff.1 hl
      dsimp only
      rw [List.zipIdx_cons, List.map_cons]
      unfold feed
      dsimp only
      show (match h s k (csvLineToPlacemark n schema (csvColumns text) (newNode Ty.«Placemark»)).1
          (some (csvLineToPlacemark n schema (csvColumns text) (newNode Ty.«Placemark»)).2) with
        | (false, s) => some (false, s)
        | (true, s) => parseCsvData n schema h fuel c' [] (k + 1) s) = _
      rcases hh : h s k (csvLineToPlacemark n schema (csvColumns text) (newNode Ty.«Placemark»)).1
          (some (csvLineToPlacemark n schema (csvColumns text) (newNode Ty.«Placemark»)).2) with ⟨b, s'⟩
      cases b with
      | false => rfl
      | true => exact ih c' (k + 1) s' rest hrest

/-- **C62.** Parsing CSV data ends.  The first line is the header.  If it is blank, or has no latitude or no longitude, the
handler is told so once, for line 1, and the result is `false`.  Otherwise the handler is called for every other line that is
not blank, in order, until it returns `false`, with the status of the line (`csvStatus`) and with a placemark, which shows
what the line says if the status is OK and is empty if not; the result says if the handler was called for all.

The number given for a line counts the header and the lines before it that are not blank. -/
theorem C62_calls {σ : Type} (n : NumLib) (h : CsvHandler σ) (s : σ) (data : Str) :
    ∃ header lines, StringUtil.linesOf data = header :: lines ∧
    ∃ mark : List Str → Elem,
      (∀ line, csvStatus (csvColumns header) line = .ok → Shows n (csvColumns header) line (mark line)) ∧
      (∀ line, csvStatus (csvColumns header) line ≠ .ok → mark line = newNode Ty.«Placemark») ∧
    ∃ fuel, parseCsv n h fuel (.init data) s = some (
      if csvColumns header = [] then (false, (h s 1 .blankLine none).2)
      else if columnOf (csvColumns header) (chars! "latitude") = none ∨ columnOf (csvColumns header) (chars! "longitude") = none then
        (false, (h s 1 .noLatLon none).2)
      else feed h s ((lines.zipIdx 2).map fun e =>
        (e.2, csvStatus (csvColumns header) (csvColumns e.1), mark (csvColumns e.1)))) := by
  obtain ⟨fuel, hf⟩ := StringUtil.C07_lines data
  cases fuel with
  | zero => cases hf
  | succ fuel =>
    unfold StringUtil.allLines at hf
    cases hs : StringUtil.splitCurrentLine (.init data) with
    | none =>
      exfalso
      unfold StringUtil.splitCurrentLine StringUtil.CsvSplitter.init at hs
      simp at hs
    | some r =>
      obtain ⟨header, c⟩ := r
      rw [hs] at hf
      obtain ⟨lines, hl, hf⟩ := Option.map_eq_some_iff.1 hf
      refine ⟨header, lines, hf.symm, fun line => (csvLineToPlacemark n (schemaFor (csvColumns header)) line
        (newNode Ty.«Placemark»)).2, fun line => (csvLine_spec n _ line).2.1, fun line => (csvLine_spec n _ line).2.2, fuel, ?_⟩
      unfold parseCsv
      rw [hs]
      dsimp only
      unfold setSchema
      show (match (if csvColumns header = [] then _ else _ : CsvStatus × CsvSchema) with
        | (.ok, schema) => parseCsvData n schema h fuel c [] 2 s
        | (status, _) => some (false, (h s 1 status none).2)) = _
      by_cases c1 : csvColumns header = []
      · rw [if_pos c1, if_pos c1]
      · rw [if_neg c1, if_neg c1]
        obtain ⟨_, _, _, h3, h4, _⟩ := columns_fields (csvColumns header)
          { CsvSchema.init with size := (csvColumns header).length } 0
        have e3 : (schemaFor (csvColumns header)).lat = columnOf (csvColumns header) (chars! "latitude") := h3.trans (Option.or_none ..)
        have e4 : (schemaFor (csvColumns header)).lon = columnOf (csvColumns header) (chars! "longitude") := h4.trans (Option.or_none ..)
        show (match ((if (schemaFor (csvColumns header)).lat = none ∨ (schemaFor (csvColumns header)).lon = none then
            CsvStatus.noLatLon else .ok, schemaFor (csvColumns header)) : CsvStatus × CsvSchema) with
          | (.ok, schema) => parseCsvData n schema h fuel c [] 2 s
          | (status, _) => some (false, (h s 1 status none).2)) = _
        rw [e3, e4]
        by_cases c2 : columnOf (csvColumns header) (chars! "latitude") = none ∨ columnOf (csvColumns header) (chars! "longitude") = none
        · rw [if_pos c2, if_pos c2]
        · rw [if_neg c2, if_neg c2]
          dsimp only
          rw [parseCsvData_feed n _ h fuel c 2 s lines hl]
          simp only [(csvLine_spec n (csvColumns header) _).1]

/-- A handler that writes down what it is told and goes on. -/
def logHandler : CsvHandler (List (Nat × CsvStatus)) := fun s k status _ => (true, s ++ [(k, status)])

theorem feed_log (l : List (Nat × CsvStatus × Elem)) (s : List (Nat × CsvStatus)) :
    feed logHandler s l = (true, s ++ l.map fun e => (e.1, e.2.1)) := by
  induction l generalizing s with
  | nil => show (true, s) = _; rw [List.map_nil, List.append_nil]
  | cons e l ih =>
    unfold feed
    rw [if_pos (by rfl), ih]
    show (true, (s ++ [_]) ++ _) = _
    rw [List.append_assoc]
    rfl

/-- Lines without line ends, all but the first of them not blank, joined by line ends. -/
theorem linesOf_join (eol : Str) (he : eol = ['\n'] ∨ eol = ['\r'] ∨ eol = ['\r', '\n']) (first : Str) (lines : List Str)
    (h : ∀ l ∈ first :: lines, ∀ c ∈ l, c ≠ '\n' ∧ c ≠ '\r') (hne : ∀ l ∈ lines, l ≠ []) :
    StringUtil.linesOf (StringUtil.joinWith eol (first :: lines)) = first :: lines := by
  have hno : ∀ l : Str, (∀ c ∈ l, c ≠ '\n' ∧ c ≠ '\r') → ∀ c ∈ l, (decide (c = '\r') || decide (c = '\n')) = false := by
    intro l hl c hc
    have := hl c hc
    simp [this.1, this.2]
  have main : ∀ (lines : List Str) (first : Str), (∀ l ∈ first :: lines, ∀ c ∈ l, c ≠ '\n' ∧ c ≠ '\r') →
      ∃ pieces, StringUtil.segments (fun c => c = '\r' || c = '\n') (StringUtil.joinWith eol (first :: lines)) = first :: pieces ∧
        pieces.filter (· ≠ []) = lines.filter (· ≠ []) := by
    intro lines
    induction lines with
    | nil =>
      intro first h
      exact ⟨[], StringUtil.segments_no (hno first (h first (by simp))), rfl⟩
    | cons second lines ih =>
      intro first h
      obtain ⟨pieces, h1, h2⟩ := ih second (fun l hl => h l (List.mem_cons_of_mem _ hl))
      have hf := hno first (h first (by simp))
      have hs : (second :: pieces).filter (· ≠ []) = (second :: lines).filter (· ≠ []) := by
        rw [List.filter_cons, List.filter_cons, h2]
      rcases he with rfl | rfl | rfl
      · refine ⟨second :: pieces, ?_, hs⟩
        show StringUtil.segments _ (first ++ ['\n'] ++ _) = _
        rw [List.append_assoc]
        rw [List.singleton_append, StringUtil.segments_cut hf rfl, h1]
      · refine ⟨second :: pieces, ?_, hs⟩
        show StringUtil.segments _ (first ++ ['\r'] ++ _) = _
        rw [List.append_assoc]
        rw [List.singleton_append, StringUtil.segments_cut hf rfl, h1]
      · refine ⟨[] :: second :: pieces, ?_, ?_⟩
        · show StringUtil.segments _ (first ++ ['\r', '\n'] ++ _) = _
          rw [List.append_assoc, List.cons_append, StringUtil.segments_cut hf rfl]
          have := StringUtil.segments_cut (p := fun c => decide (c = '\r') || decide (c = '\n')) (a := []) (c := '\n')
            (r := StringUtil.joinWith ['\r', '\n'] (second :: lines)) (by simp) rfl
          rw [List.nil_append] at this
          rw [List.singleton_append, this, h1]
        · rw [List.filter_cons, if_neg (by simp), hs]
  obtain ⟨pieces, h1, h2⟩ := main lines first h
  unfold StringUtil.linesOf
  rw [h1]
  show first :: pieces.filter (· ≠ []) = _
  rw [h2, List.filter_eq_self.2 (by simpa using hne)]

/-- **C62, line numbers.** In data without blank lines, whose lines end in LF, CR or CR LF, the handler is called exactly
once for every line, with its number and its status. -/
theorem C62_numbers_partial (n : NumLib) (eol : Str) (he : eol = ['\n'] ∨ eol = ['\r'] ∨ eol = ['\r', '\n']) (header : Str)
    (lines : List Str) (h : ∀ l ∈ header :: lines, ∀ c ∈ l, c ≠ '\n' ∧ c ≠ '\r') (hne : ∀ l ∈ lines, l ≠ [])
    (hcols : csvColumns header ≠ [])
    (hlat : columnOf (csvColumns header) (chars! "latitude") ≠ none)
    (hlon : columnOf (csvColumns header) (chars! "longitude") ≠ none) :
    ∃ fuel, parseCsv n logHandler fuel (.init (StringUtil.joinWith eol (header :: lines))) [] =
      some (true, (lines.zipIdx 2).map fun e => (e.2, csvStatus (csvColumns header) (csvColumns e.1))) := by
  obtain ⟨header', lines', h1, mark, _, _, fuel, h2⟩ := C62_calls n logHandler [] (StringUtil.joinWith eol (header :: lines))
  rw [linesOf_join eol he header lines h hne] at h1
  cases h1
  refine ⟨fuel, ?_⟩
  rw [h2, if_neg hcols, if_neg (by rintro (h | h); exacts [hlat h, hlon h]), feed_log, List.nil_append, List.map_map]
  rfl

/-- **C62, violated.** Blank lines are not counted: the data on line 3 is reported as line 2. -/
theorem C62_number_violated :
    parseCsv NumLib.integers logHandler 9 (.init (chars! "latitude,longitude\n\n1,2")) [] = some (true, [(2, .ok)]) := by
  decide +kernel

/-- **C62, violated.** A latitude that is not a number but begins with one is accepted, and one with a plus sign is not. -/
theorem C62_numeric_violated :
    parseCsv NumLib.integers logHandler 9 (.init (chars! "latitude,longitude\n1 mile,2\n+1,2")) [] =
      some (true, [(2, .ok), (3, .badLatLon)]) := by
  decide +kernel

/-- Lines of all kinds. -/
example :
    parseCsv NumLib.integers logHandler 9
      (.init (chars! "Name,LATITUDE,longitude,size\na,1,2,big\n# no,1,2,3\nb,1,2\nc,x,2,3")) [] =
      some (true, [(2, .ok), (3, .comment), (4, .invalidData), (5, .badLatLon)]) := by
  decide +kernel

/-- A handler that stops, and headers that are no good. -/
example :
    parseCsv NumLib.integers (fun s k status _ => (decide (k < 3), s ++ [(k, status)])) 9
      (.init (chars! "latitude,longitude\n1,2\n3,4\n5,6")) ([] : List (Nat × CsvStatus)) =
      some (false, [(2, .ok), (3, .ok)]) ∧
    parseCsv NumLib.integers logHandler 9 (.init (chars! "latitude\n1")) [] = some (false, [(1, .noLatLon)]) ∧
    parseCsv NumLib.integers logHandler 9 (.init []) [] = some (false, [(1, .blankLine)]) := by
  decide +kernel

/-- A placemark for a line. -/
example :
    (csvLineToPlacemark NumLib.integers (schemaFor [chars! "name", chars! "latitude", chars! "longitude", chars! "size",
      chars! "style-id"]) [['a'], ['1'], ['2'], chars! "big", ['7']] (newNode Ty.«Placemark»)).2.dataPairs =
        [(some (chars! "size"), chars! "big")] ∧
    (csvLineToPlacemark NumLib.integers (schemaFor [chars! "name", chars! "latitude", chars! "longitude", chars! "size",
      chars! "style-id"]) [['a'], ['1'], ['2'], chars! "big", ['7']] (newNode Ty.«Placemark»)).2.simple M.«styleurl» =
        some (chars! "style.kml#style-7") := by
  decide +kernel

/-! ## C76 -/

/-- **C76, a line.** A line of five or more fields, which are separated by bars, becomes a placemark at the end of the list:
the first field is its score, then come its latitude, longitude, name and description, and its style if there is a sixth.  A
field that does not begin with a number counts as the number 0.  A shorter line changes nothing. -/
theorem C76_line (n : NumLib) (fields : List Str) (features : List Elem) (hne : fields ≠ []) (h : ∀ f ∈ fields, '|' ∉ f) :
    (fields.length < 5 → parseCsvLine n (StringUtil.joinWith ['|'] fields) features = some features) ∧
    (∀ score lat lon name description rest, fields = score :: lat :: lon :: name :: description :: rest →
      ∃ p, parseCsvLine n (StringUtil.joinWith ['|'] fields) features = some (features ++ [p]) ∧
        p.ty = Ty.«Placemark» ∧ p.simple M.«name» = some name ∧ p.simple M.«description» = some description ∧
        p.simple M.«styleurl» = rest.head? ∧ p.dataPairs = [(some (chars! "kml.FeatureScore"), score)] ∧
        p.IsAt (if beginsNumber lat then n.num lat else ['0']) (if beginsNumber lon then n.num lon else ['0'])) := by
  have hs := StringUtil.C05_join_split '|' fields hne h
  unfold parseCsvLine
  rw [hs]
  dsimp only
  refine ⟨fun hl => if_pos hl, ?_⟩
  intro score lat lon name description rest hf
  subst hf
  rw [if_neg (by simp)]
  refine ⟨_, rfl, ?_⟩
  have hnum : ∀ x : Str, (stringToDouble n x).getD ['0'] = if beginsNumber x then n.num x else ['0'] := by
    intro x
    unfold stringToDouble
    rw [beginsNumber_eq]
    split <;> rfl
  show Elem.ty (setFeatureScore score (if 5 < (score :: lat :: lon :: name :: description :: rest).length then
    (((createPointPlacemark name ((stringToDouble n lat).getD ['0']) ((stringToDouble n lon).getD ['0'])).setSimple
      M.«description» Ty.«description» description).setSimple M.«styleurl» Ty.«styleUrl»
        ((score :: lat :: lon :: name :: description :: rest).getD 5 [])) else
    ((createPointPlacemark name ((stringToDouble n lat).getD ['0']) ((stringToDouble n lon).getD ['0'])).setSimple
      M.«description» Ty.«description» description))) = _ ∧ _
  rw [hnum, hnum]
  cases rest with
  | nil =>
    rw [if_neg (by simp)]
    refine ⟨rfl, rfl, rfl, rfl, rfl, createPointLatLon _ _, (newNode Ty.«coordinates»).addItem M.«coordinates_array»
      (.field Ty.Unknown (pointText ⟨_, _, ['0'], false⟩)), rfl, rfl, rfl, rfl, ?_⟩
    show [Elem.field Ty.Unknown (pointText _)] = _
    unfold pointText
    simp [hnum]
  | cons style rest =>
    rw [if_pos (by simp)]
    refine ⟨rfl, rfl, rfl, rfl, rfl, createPointLatLon _ _, (newNode Ty.«coordinates»).addItem M.«coordinates_array»
      (.field Ty.Unknown (pointText ⟨_, _, ['0'], false⟩)), rfl, rfl, rfl, rfl, ?_⟩
    show [Elem.field Ty.Unknown (pointText _)] = _
    unfold pointText
    simp [hnum]

/-- **C76, a file.** A file is read line by line, in order, to its end or the first empty line, and nothing else matters. -/
theorem C76_file (n : NumLib) (lines more : List Str) (features : List Elem) (h : ∀ l ∈ lines, l ≠ []) :
    parseCsvFile n (lines ++ [] :: more) features = parseCsvFile n lines features ∧
    ∀ line, line ≠ [] → parseCsvFile n (lines ++ [line]) features =
      (parseCsvFile n lines features).bind (parseCsvLine n line) := by
  induction lines generalizing features with
  | nil =>
    refine ⟨rfl, fun line hl => ?_⟩
    show (if line = [] then _ else _) = _
    rw [if_neg hl]
    show _ = parseCsvLine n line features
    cases parseCsvLine n line features <;> rfl
  | cons l lines ih =>
    have hl := h l (by simp)
    have ih := fun f => ih f (fun l hl => h l (List.mem_cons_of_mem _ hl))
    refine ⟨?_, fun line hline => ?_⟩
    · show (if l = [] then _ else _) = (if l = [] then _ else _ : Option (List Elem))
      rw [if_neg hl, if_neg hl]
      cases hp : parseCsvLine n l features with
      | none => rfl
      | some f => exact (ih f).1
    · show (if l = [] then _ else _) = (if l = [] then _ else _ : Option (List Elem)).bind _
      rw [if_neg hl, if_neg hl]
      cases hp : parseCsvLine n l features with
      | none => rfl
      | some f => exact (ih f).2 line hline

/-- A line with a style, and one that is too short. -/
example :
    ((parseCsvLine NumLib.integers (chars! "7|1|2|a|b|#s") []).map fun l => l.map fun p =>
      (p.simple M.«name», p.simple M.«styleurl», getFeatureScore p)) = some [(some ['a'], some ['#', 's'], 7)] ∧
    ((parseCsvLine NumLib.integers (chars! "7|1|2|a") []).map List.length) = some 0 := by
  decide +kernel

end Kml.Dom
