import Verif.Spec.Entity
import Verif.Props.Merge
import Verif.Lemmas.StdMap
import Verif.Props.StringUtil

/-!
# C54 and C75: entities and balloons

Spec/Entity.lean lists the entities of a feature and what is shown of its extended data.
-/

namespace Kml.Dom

open Kml

/-! ### Maps and lists -/

theorem lastValue_nil (key : Str) : lastValue key [] = none := rfl

theorem lastValue_append (key : Str) (a b : List (Str × Str)) :
    lastValue key (a ++ b) = (lastValue key b).or (lastValue key a) := by
  unfold lastValue
  rw [List.filter_append, List.getLast?_append]
  cases (List.filter (fun e => decide (e.1 = key)) b).getLast? <;> simp

theorem lastValue_one (key k v : Str) : lastValue key [(k, v)] = if k = key then some v else none := by
  unfold lastValue
  by_cases h : k = key <;> simp [h]

/-- A mapper has put a list of entities into its map, and nothing else. -/
structure Puts (s s' : EntityMapper) (l : List (Str × Str)) : Prop where
  get : ∀ k, s'.map.get k = (lastValue k l).or (s.map.get k)

theorem Puts.append {a b c : EntityMapper} {l l' : List (Str × Str)} (h : Puts a b l) (h' : Puts b c l') : Puts a c (l ++ l') := by
  refine ⟨fun k => ?_⟩
  rw [h'.get, h.get, lastValue_append, Option.or_assoc]

theorem Puts.same {s s' : EntityMapper} (h : s'.map = s.map) : Puts s s' [] := ⟨fun k => by rw [h]; rfl⟩

theorem Puts.then {a b c : EntityMapper} {l : List (Str × Str)} (h : Puts a b l) (h' : c.map = b.map) : Puts a c l := by
  refine ⟨fun k => ?_⟩
  rw [h', h.get]

theorem puts_put (s : EntityMapper) (k v : Str) : Puts s (s.put k v) [(k, v)] := by
  refine ⟨fun j => ?_⟩
  show (s.map.set k v).get j = _
  rw [StdMap.get_set, lastValue_one]
  split <;> rfl

theorem puts_putIf (s : EntityMapper) (k : Str) (v : Option Str) : Puts s (s.putIf k v) (named k v) := by
  cases v with
  | none => exact .same rfl
  | some v => exact puts_put s k v

theorem puts_foldl {f : EntityMapper → Elem → EntityMapper} {g : Elem → List (Str × Str)}
    (h : ∀ s e, Puts s (f s e) (g e)) : ∀ (l : List Elem) (s : EntityMapper), Puts s (l.foldl f s) (l.flatMap g)
  | [], s => .same rfl
  | e :: l, s => by
    rw [List.foldl_cons, List.flatMap_cons]
    exact (h s e).append (puts_foldl h l _)

theorem map_foldl {f : EntityMapper → Elem → EntityMapper} (h : ∀ s e, (f s e).map = s.map) :
    ∀ (l : List Elem) (s : EntityMapper), (l.foldl f s).map = s.map
  | [], s => rfl
  | e :: l, s => by rw [List.foldl_cons, map_foldl h l, h]

theorem push_map (s : EntityMapper) (a b : Str) : (s.push a b).map = s.map := rfl

theorem puts_simpleData (schema : Option Elem) (s : EntityMapper) (d : Elem) :
    Puts s (s.simpleData ((schema.map Elem.nameOr).getD [] ++ ['/']) d) (simpleDataEntities schema d) := by
  have hmap : ∀ (s : EntityMapper) (name text : Str), (if s.alt.isSome then
      if s.names.isEmpty then s.push name text
      else
        match s.names.get name with
        | some label => s.push label text
        | none => { s with names := s.names.set name [] }.push [] text
    else s).map = s.map := by
    intro s name text
    split
    · split
      · rfl
      · split <;> rfl
    · rfl
  unfold EntityMapper.simpleData simpleDataEntities
  rcases Option.eq_none_or_eq_some (d.known (chars! "name")) with h | ⟨name, h⟩
  · rw [h]
    dsimp only [Option.isSome_none, Option.getD_none]
    exact .same ((hmap _ _ _).trans rfl)
  · rw [h]
    dsimp only [Option.isSome_some, Option.getD_some]
    rw [if_pos rfl]
    exact (puts_put s _ _).then (hmap ..)

theorem puts_data (s : EntityMapper) (d : Elem) : Puts s (s.dataFields d) (dataEntities d) := by
  unfold EntityMapper.dataFields dataEntities
  rcases Option.eq_none_or_eq_some (d.known (chars! "name")) with h | ⟨name, h⟩
  · rw [h]; exact .same rfl
  · rw [h]
    exact ((puts_put s _ _).append (puts_putIf _ _ _)).then rfl

theorem puts_simpleField (schema : Elem) (s : EntityMapper) (f : Elem) :
    Puts s (s.simpleField schema f) (simpleFieldEntities schema f) := by
  unfold EntityMapper.simpleField simpleFieldEntities
  rcases Option.eq_none_or_eq_some (f.known (chars! "name")) with h | ⟨name, h⟩
  · rw [h]; exact .same rfl
  · rw [h]
    rcases Option.eq_none_or_eq_some (f.simple M.«displayname») with h' | ⟨d, h'⟩
    · rw [h']; exact .same rfl
    · rw [h']; exact puts_put ..

theorem puts_schemaData (fragment : Str → Option Str) (find : Str → Option Elem) (s : EntityMapper) (sd : Elem) :
    Puts s (s.schemaData fragment find sd) (schemaDataEntities (schemaOf fragment find sd) sd) := by
  unfold EntityMapper.schemaData schemaDataEntities
  rcases Option.eq_none_or_eq_some (schemaOf fragment find sd) with h | ⟨sc, h⟩
  · rw [h]
    dsimp only
    exact puts_foldl (fun s d => puts_simpleData none s d) _ _
  · rw [h]
    dsimp only
    have h1 := puts_foldl (puts_simpleField sc) (sc.items M.«simplefield_array») s
    refine h1.append ?_
    refine Puts.append (l := []) (.same ?_) (puts_foldl (fun s d => puts_simpleData (some sc) s d) _ _)
    split
    · refine map_foldl (fun s f => ?_) _ _
      unfold EntityMapper.fieldName
      split <;> rfl
    · rfl

/-! ## C54 -/

/-- **C54.** After the entities of a feature were gathered, every name stands for the last value given for it by the feature,
in the order of `entities`, and any other name for what it stood for before. -/
theorem C54_entities (fragment : Str → Option Str) (find : Str → Option Elem) (s : EntityMapper) (feature : Elem) (key : Str) :
    (s.getEntityFields fragment find feature).map.get key =
      (lastValue key (entities (schemaOf fragment find) feature)).or (s.map.get key) := by
  have h1 : Puts s ((s.objectFields feature).featureFields feature) (fieldEntities feature) := by
    unfold EntityMapper.objectFields EntityMapper.featureFields fieldEntities
    exact (((((puts_putIf ..).append (puts_putIf ..)).append (puts_putIf ..)).append (puts_putIf ..)).append
      (puts_putIf ..)).append (puts_putIf ..)
  refine (Puts.append h1 ?_).get key
  unfold EntityMapper.getEntityFields EntityMapper.extendedData
  rcases Option.eq_none_or_eq_some (feature.only M.«extendeddata») with h | ⟨ed, h⟩
  · rw [h]; exact .same rfl
  · rw [h]
    exact (puts_foldl puts_data _ _).append (puts_foldl (puts_schemaData fragment find) _ _)

/-- **C54, the schema.** The schema used for a `SchemaData` is the object of the file that the fragment of its schema
address names, if that is a `Schema`; nothing else is used as a schema. -/
theorem C54_schema (fragment : Str → Option Str) (find : Str → Option Elem) (sd sc : Elem) :
    schemaOf fragment find sd = some sc ↔
      ∃ url id, sd.known (chars! "schemaUrl") = some url ∧ fragment url = some id ∧ find id = some sc ∧
        sc.isA Ty.«Schema» = true := by
  unfold schemaOf
  rcases Option.eq_none_or_eq_some (sd.known (chars! "schemaUrl")) with h | ⟨url, h⟩
  · simp [h]
  · rcases Option.eq_none_or_eq_some (fragment url) with h1 | ⟨id, h1⟩
    · simp [h, h1]
    · rcases Option.eq_none_or_eq_some (find id) with h2 | ⟨e, h2⟩
      · simp [h, h1, h2]
      · simp only [h, h1, h2, Option.some.injEq]
        constructor
        · intro h3
          split at h3
          · rename_i h4
            cases h3
            exact ⟨url, id, rfl, h1, h2, h4⟩
          · cases h3
        · rintro ⟨_, _, rfl, h3, h4, h5⟩
          rw [h1] at h3
          cases h3
          rw [h2] at h4
          cases h4
          rw [if_pos h5]

/-! ### The table -/

/-- The state of a mapper with a table. -/
structure Tells (s s' : EntityMapper) (l : List (Str × Str)) : Prop where
  alt : ∀ a, s.alt = some a → s'.alt = some (a ++ l)
  names : s'.names = s.names

theorem Tells.append {a b c : EntityMapper} {l l' : List (Str × Str)} (h : Tells a b l) (h' : Tells b c l') : Tells a c (l ++ l') := by
  refine ⟨fun x hx => ?_, by rw [h'.names, h.names]⟩
  rw [h'.alt _ (h.alt x hx), List.append_assoc]

theorem Tells.same {s s' : EntityMapper} (h : s'.alt = s.alt) (h' : s'.names = s.names) : Tells s s' [] :=
  ⟨fun a ha => by rw [h, ha, List.append_nil], h'⟩

theorem tells_foldl {f : EntityMapper → Elem → EntityMapper} {g : Elem → List (Str × Str)} : ∀ (l : List Elem),
    (∀ e ∈ l, ∀ s, Tells s (f s e) (g e)) → ∀ (s : EntityMapper), Tells s (l.foldl f s) (l.flatMap g)
  | [], _, s => .same rfl rfl
  | e :: l, h, s => by
    rw [List.foldl_cons, List.flatMap_cons]
    exact (h e (by simp) s).append (tells_foldl l (fun e he => h e (List.mem_cons_of_mem _ he)) _)

theorem tells_push (s : EntityMapper) (a b : Str) : Tells s (s.push a b) [(a, b)] :=
  ⟨fun x hx => by show s.alt.map _ = _; rw [hx]; rfl, rfl⟩

theorem tells_putIf (s : EntityMapper) (k : Str) (v : Option Str) : Tells s (s.putIf k v) [] := by
  cases v <;> exact .same rfl rfl

theorem tells_data (s : EntityMapper) (d : Elem) : Tells s (s.dataFields d) (dataRows d) := by
  unfold EntityMapper.dataFields dataRows
  rcases Option.eq_none_or_eq_some (d.known (chars! "name")) with h | ⟨name, h⟩
  · rw [h]; exact .same rfl rfl
  · rw [h]
    have h1 : Tells s (s.put name (d.text M.«value»)) [] := .same rfl rfl
    exact (h1.append (tells_putIf ..)).append (tells_push ..)

/-- What the labels of a schema add to the names. -/
theorem fieldNames_get (sc : Elem) (l : List Elem) (s : EntityMapper) (name : Str) :
    (l.foldl (EntityMapper.fieldName sc) s).names.get name =
      (lastValue name (l.flatMap fun field =>
        (field.known (chars! "name")).toList.map fun f =>
          (f, sc.nameOr ++ [':'] ++ (field.simple M.«displayname»).getD f))).or (s.names.get name) := by
  induction l generalizing s with
  | nil => rfl
  | cons f l ih =>
    rw [List.foldl_cons, ih, List.flatMap_cons, lastValue_append, Option.or_assoc]
    congr 1
    unfold EntityMapper.fieldName
    rcases Option.eq_none_or_eq_some (f.known (chars! "name")) with h | ⟨n, h⟩
    · rw [h]; rfl
    · rw [h]
      show (s.names.set n _).get name = (lastValue name [(n, _)]).or _
      rw [StdMap.get_set, lastValue_one]
      split <;> rfl

theorem fieldNames_alt (sc : Elem) (l : List Elem) (s : EntityMapper) : (l.foldl (EntityMapper.fieldName sc) s).alt = s.alt := by
  induction l generalizing s with
  | nil => rfl
  | cons f l ih =>
    rw [List.foldl_cons, ih]
    unfold EntityMapper.fieldName
    split <;> rfl

theorem simpleFields_same (sc : Elem) (l : List Elem) (s : EntityMapper) :
    (l.foldl (EntityMapper.simpleField sc) s).alt = s.alt ∧ (l.foldl (EntityMapper.simpleField sc) s).names = s.names := by
  induction l generalizing s with
  | nil => exact ⟨rfl, rfl⟩
  | cons f l ih =>
    rw [List.foldl_cons]
    have : ((s.simpleField sc f).alt = s.alt) ∧ (s.simpleField sc f).names = s.names := by
      unfold EntityMapper.simpleField
      split <;> exact ⟨rfl, rfl⟩
    rw [(ih _).1, (ih _).2, this.1, this.2]
    exact ⟨rfl, rfl⟩

/-- One row, when the names say what they should. -/
theorem simpleData_row {s : EntityMapper} {a : List (Str × Str)} (ha : s.alt = some a) (pre : Str) (d : Elem) (label : Str)
    (h : s.names = [] ∧ label = d.nameOr ∨ s.names.get d.nameOr = some label) :
    (s.simpleData pre d).alt = some (a ++ [(label, d.text M.«text»)]) ∧ (s.simpleData pre d).names = s.names := by
  have key : ∀ s : EntityMapper, s.alt = some a → (s.names = [] ∧ label = d.nameOr ∨ s.names.get d.nameOr = some label) →
      ∀ t : EntityMapper, t = (if s.alt.isSome then
        if s.names.isEmpty then s.push ((d.known (chars! "name")).getD []) (d.text M.«text»)
        else
          match s.names.get ((d.known (chars! "name")).getD []) with
          | some label => s.push label (d.text M.«text»)
          | none => { s with names := s.names.set ((d.known (chars! "name")).getD []) [] }.push [] (d.text M.«text»)
        else s) → t.alt = some (a ++ [(label, d.text M.«text»)]) ∧ t.names = s.names := by
    intro s ha h t ht
    subst ht
    rw [if_pos (by rw [ha]; rfl)]
    rcases h with ⟨h1, h2⟩ | h
    · rw [if_pos (by rw [h1]; rfl), h2]
      exact ⟨by show s.alt.map _ = _; rw [ha]; rfl, rfl⟩
    · have hne : s.names.isEmpty = false := by
        cases hn : s.names with
        | nil => rw [hn] at h; cases h
        | cons => rfl
      unfold Elem.nameOr at h
      rw [hne, if_neg (by decide), h]
      exact ⟨by show s.alt.map _ = _; rw [ha]; rfl, rfl⟩
  unfold EntityMapper.simpleData
  dsimp only
  split
  · exact key (s.put _ _) ha h _ rfl
  · exact key s ha h _ rfl

/-- The rows of a `SchemaData`, when the names say what they should. -/
theorem simpleDatas_rows (pre : Str) (label : Elem → Str) : ∀ (l : List Elem) {s : EntityMapper} {a : List (Str × Str)},
    s.alt = some a → (∀ d ∈ l, s.names = [] ∧ label d = d.nameOr ∨ s.names.get d.nameOr = some (label d)) →
    (l.foldl (EntityMapper.simpleData pre) s).alt = some (a ++ l.map fun d => (label d, d.text M.«text»)) ∧
    (l.foldl (EntityMapper.simpleData pre) s).names = s.names
  | [], s, a, ha, _ => ⟨by simp [ha], rfl⟩
  | d :: l, s, a, ha, h => by
    rw [List.foldl_cons, List.map_cons]
    obtain ⟨h1, h2⟩ := simpleData_row ha pre d (label d) (h d (by simp))
    obtain ⟨h3, h4⟩ := simpleDatas_rows pre label l h1 (fun e he => by rw [h2]; exact h e (List.mem_cons_of_mem _ he))
    exact ⟨by rw [h3]; simp, by rw [h4, h2]⟩

theorem labels_none {sc : Elem} (h : ¬ Labels (some sc)) (name : Str) : labelIn sc name = none := by
  rcases Option.eq_none_or_eq_some (labelIn sc name) with h1 | ⟨l, h1⟩
  · exact h1
  · exact absurd ⟨sc, name, l, rfl, h1⟩ h

theorem get_none_nil {m : StdMap Str} (h : ∀ k, m.get k = none) : m = [] := by
  cases m with
  | nil => rfl
  | cons e m =>
    have := h e.1
    simp [StdMap.get] at this

theorem orderly_rows (fragment : Str → Option Str) (find : Str → Option Elem) {l : List Elem}
    (h : Orderly (schemaOf fragment find) l) : ∀ {s : EntityMapper} {a : List (Str × Str)}, s.alt = some a → s.names = [] →
    (l.foldl (EntityMapper.schemaData fragment find) s).alt =
      some (a ++ l.flatMap fun sd => (sd.items M.«simpledata_array»).map (simpleDataRow (schemaOf fragment find sd))) := by
  have labelled : ∀ {l : List Elem}, (∀ sd ∈ l, ∃ sc, schemaOf fragment find sd = some sc ∧
      ∀ d ∈ sd.items M.«simpledata_array», (labelIn sc d.nameOr).isSome = true) →
      ∀ {s : EntityMapper} {a : List (Str × Str)}, s.alt = some a →
      (l.foldl (EntityMapper.schemaData fragment find) s).alt =
        some (a ++ l.flatMap fun sd => (sd.items M.«simpledata_array»).map (simpleDataRow (schemaOf fragment find sd))) := by
    intro l
    induction l with
    | nil => intro _ s a ha; simp [ha]
    | cons sd l ih =>
      intro hl s a ha
      rw [List.foldl_cons, List.flatMap_cons, ← List.append_assoc]
      refine ih (fun sd h => hl sd (List.mem_cons_of_mem _ h)) ?_
      obtain ⟨sc, hsc, hd⟩ := hl sd (by simp)
      unfold EntityMapper.schemaData
      rw [hsc]
      dsimp only
      obtain ⟨f1, f2⟩ := simpleFields_same sc (sc.items M.«simplefield_array») s
      rw [f1, ha, if_pos (by rfl)]
      have f3 := fieldNames_alt sc (sc.items M.«simplefield_array»)
        ((sc.items M.«simplefield_array»).foldl (EntityMapper.simpleField sc) s)
      rw [f1, ha] at f3
      exact (simpleDatas_rows _ (fun d => (simpleDataRow (some sc) d).1) _ f3 (fun d hdm => by
        right
        have := hd d hdm
        rw [fieldNames_get]
        obtain ⟨lab, hlab⟩ := Option.isSome_iff_exists.1 this
        unfold simpleDataRow
        rw [Option.bind_some, hlab]
        unfold labelIn at hlab
        rw [hlab]
        rfl)).1
  induction h with
  | labelled hl => intro s a ha _; exact labelled hl ha
  | @plain sd l hn _ ih =>
    intro s a ha hnames
    rw [List.foldl_cons, List.flatMap_cons, ← List.append_assoc]
    have hrow : ∀ d, (simpleDataRow (schemaOf fragment find sd) d).1 = d.nameOr := by
      intro d
      unfold simpleDataRow
      rcases Option.eq_none_or_eq_some (schemaOf fragment find sd) with h | ⟨sc, h⟩
      · rw [h]; rfl
      · rw [h] at hn ⊢
        rw [Option.bind_some, labels_none hn]
        rfl
    have hsd : (s.schemaData fragment find sd).alt =
        some (a ++ (sd.items M.«simpledata_array»).map (simpleDataRow (schemaOf fragment find sd))) ∧
        (s.schemaData fragment find sd).names = [] := by
      have hmap : (sd.items M.«simpledata_array»).map (simpleDataRow (schemaOf fragment find sd)) =
          (sd.items M.«simpledata_array»).map fun d => (d.nameOr, d.text M.«text») :=
        List.map_congr_left fun d _ => Prod.ext (hrow d) rfl
      rw [hmap]
      unfold EntityMapper.schemaData
      rcases Option.eq_none_or_eq_some (schemaOf fragment find sd) with h | ⟨sc, h⟩
      · rw [h]
        dsimp only
        obtain ⟨k1, k2⟩ := simpleDatas_rows ['/'] (fun d => d.nameOr) (sd.items M.«simpledata_array») ha
          (fun d _ => .inl ⟨hnames, rfl⟩)
        exact ⟨k1, by rw [k2, hnames]⟩
      · rw [h] at hn ⊢
        dsimp only
        obtain ⟨f1, f2⟩ := simpleFields_same sc (sc.items M.«simplefield_array») s
        rw [f1, ha, if_pos (by rfl)]
        have f3 := fieldNames_alt sc (sc.items M.«simplefield_array»)
          ((sc.items M.«simplefield_array»).foldl (EntityMapper.simpleField sc) s)
        rw [f1, ha] at f3
        have f4 : ((sc.items M.«simplefield_array»).foldl (EntityMapper.fieldName sc)
            ((sc.items M.«simplefield_array»).foldl (EntityMapper.simpleField sc) s)).names = [] := by
          refine get_none_nil fun k => ?_
          rw [fieldNames_get, f2, hnames]
          have := labels_none hn k
          unfold labelIn at this
          rw [this]
          rfl
        obtain ⟨k1, k2⟩ := simpleDatas_rows (((sc.known (chars! "name")).getD []) ++ ['/']) (fun d => d.nameOr)
          (sd.items M.«simpledata_array») f3 (fun d _ => .inl ⟨f4, rfl⟩)
        exact ⟨k1, by rw [k2, f4]⟩
    exact ih hsd.1 hsd.2

/-- **C54, the table.** With a new mapper, the table of a feature has a row for every `Data` with a name and every
`SimpleData`, each under its display name, as its own schema gives it.

The `SchemaData` of the feature must be in order (`Orderly`): else the names of one schema are used for the data of
another (`C54_leak_violated`), or there is no name at all (`C54_unlisted_violated`). -/
theorem C54_table_partial (fragment : Str → Option Str) (find : Str → Option Elem) (map : StdMap Str)
    (before : List (Str × Str)) (feature : Elem)
    (h : ∀ ed, feature.only M.«extendeddata» = some ed →
      Orderly (schemaOf fragment find) (ed.items M.«schemadata_array»)) :
    ((EntityMapper.init map (some before)).getEntityFields fragment find feature).alt =
      some (before ++ rows (schemaOf fragment find) feature) := by
  have h1 : Tells (EntityMapper.init map (some before))
      (((EntityMapper.init map (some before)).objectFields feature).featureFields feature) [] := by
    unfold EntityMapper.objectFields EntityMapper.featureFields
    exact (((((tells_putIf ..).append (tells_putIf ..)).append (tells_putIf ..)).append (tells_putIf ..)).append
      (tells_putIf ..)).append (tells_putIf ..)
  unfold EntityMapper.getEntityFields EntityMapper.extendedData rows
  rcases Option.eq_none_or_eq_some (feature.only M.«extendeddata») with he | ⟨ed, he⟩
  · rw [he]
    exact h1.alt before rfl
  · rw [he]
    dsimp only
    have h2 := h1.append (tells_foldl (f := EntityMapper.dataFields) (g := dataRows) (ed.items M.«data_array»)
      (fun d _ s => tells_data s d) _)
    rw [orderly_rows fragment find (h ed he) (h2.alt before rfl) h2.names]
    simp

/-- Without a table none is made. -/
theorem C54_no_table (fragment : Str → Option Str) (find : Str → Option Elem) (map : StdMap Str) (feature : Elem) :
    ((EntityMapper.init map none).getEntityFields fragment find feature).alt = none := by
  have hput : ∀ (s : EntityMapper) k v, (s.putIf k v).alt = s.alt := by intro s k v; cases v <;> rfl
  have hdata : ∀ (l : List Elem) (s : EntityMapper), s.alt = none → (l.foldl EntityMapper.dataFields s).alt = none := by
    intro l
    induction l with
    | nil => intro s h; exact h
    | cons d l ih =>
      intro s h
      rw [List.foldl_cons]
      refine ih _ ?_
      unfold EntityMapper.dataFields
      split
      · exact h
      · show ((s.put _ _).putIf _ _).alt.map _ = none
        rw [hput]
        show s.alt.map _ = none
        rw [h]
        rfl
  have hsimple : ∀ (pre : Str) (l : List Elem) (s : EntityMapper), s.alt = none →
      (l.foldl (EntityMapper.simpleData pre) s).alt = none := by
    intro pre l
    induction l with
    | nil => intro s h; exact h
    | cons d l ih =>
      intro s h
      rw [List.foldl_cons]
      refine ih _ ?_
      unfold EntityMapper.simpleData
      dsimp only
      have : ∀ t : EntityMapper, t.alt = none → (if t.alt.isSome then
        if t.names.isEmpty then t.push ((d.known (chars! "name")).getD []) (d.text M.«text»)
        else
          match t.names.get ((d.known (chars! "name")).getD []) with
          | some label => t.push label (d.text M.«text»)
          | none => { t with names := t.names.set ((d.known (chars! "name")).getD []) [] }.push [] (d.text M.«text»)
        else t).alt = none := by
        intro t ht
        rw [ht, if_neg (by decide)]
        exact ht
      split
      · exact this _ h
      · exact this _ h
  have hschema : ∀ (l : List Elem) (s : EntityMapper), s.alt = none →
      (l.foldl (EntityMapper.schemaData fragment find) s).alt = none := by
    intro l
    induction l with
    | nil => intro s h; exact h
    | cons sd l ih =>
      intro s h
      rw [List.foldl_cons]
      refine ih _ ?_
      unfold EntityMapper.schemaData
      split
      · exact hsimple _ _ _ h
      · rename_i sc _
        dsimp only
        rw [(simpleFields_same sc _ s).1, h, if_neg (by decide)]
        exact hsimple _ _ _ (by rw [(simpleFields_same sc _ s).1, h])
  unfold EntityMapper.getEntityFields EntityMapper.extendedData EntityMapper.objectFields EntityMapper.featureFields
  have h0 : (((((((EntityMapper.init map none).putIf (chars! "id") (feature.known (chars! "id"))).putIf (chars! "targetId")
      (feature.known (chars! "targetId"))).putIf (chars! "name") (feature.simple M.«name»)).putIf
      (chars! "address") (feature.simple M.«address»)).putIf
      (chars! "Snippet") ((feature.only M.«snippet»).map fun p => p.text M.«text»)).putIf
      (chars! "description") (feature.simple M.«description»)).alt = none := by
    simp only [hput]
    rfl
  split
  · exact h0
  · exact hschema _ _ (hdata _ _ h0)

/-! ## C75 -/

/-- **C75, it ends.** The text of a balloon is always computed. -/
theorem C75_ends (fragment : Str → Option Str) (find : Str → Option Elem) (style feature : Elem) :
    (createBalloonText fragment find style feature).isSome = true := by
  have hx : ∀ t (m : StdMap Str), ∃ r, createExpandedEntities t m = some r := fun t m => StringUtil.C04_terminates ..
  unfold createBalloonText
  dsimp only
  split
  · obtain ⟨r, hr⟩ := hx _ _; rw [hr]; rfl
  · split
    · obtain ⟨r, hr⟩ := hx _ _; rw [hr]; rfl
    · rfl

/-- **C75, the style.** If the style has a text for balloons, the balloon is that text with the entities of the feature
expanded. -/
theorem C75_style (fragment : Str → Option Str) (find : Str → Option Elem) (style feature : Elem) (b : Elem) (text : Str)
    (hb : style.only M.«balloonstyle» = some b) (ht : b.simple M.«text» = some text) :
    ∃ m : StdMap Str, createBalloonText fragment find style feature = createExpandedEntities text m ∧
      ∀ key, m.get key = lastValue key (entities (schemaOf fragment find) feature) := by
  refine ⟨_, by unfold createBalloonText; rw [hb, Option.bind_some, ht], fun key => ?_⟩
  rw [C54_entities]
  show (lastValue key _).or none = _
  rw [Option.or_none]

/-- **C75, the default.** Otherwise it is a heading, the description with the entities of the feature expanded, and the table
of its extended data if it has any. -/
theorem C75_default_partial (fragment : Str → Option Str) (find : Str → Option Elem) (style feature : Elem)
    (hb : ∀ b, style.only M.«balloonstyle» = some b → b.simple M.«text» = none)
    (ho : ∀ ed, feature.only M.«extendeddata» = some ed →
      Orderly (schemaOf fragment find) (ed.items M.«schemadata_array»)) :
    ∃ m : StdMap Str, createBalloonText fragment find style feature =
      balloonOf (fun t => createExpandedEntities t m) (feature.simple M.«name») (feature.simple M.«description»)
        ((feature.only M.«extendeddata»).map fun _ => rows (schemaOf fragment find) feature) ∧
      ∀ key, m.get key = lastValue key (entities (schemaOf fragment find) feature) := by
  refine ⟨((EntityMapper.init [] (some [])).getEntityFields fragment find feature).map, ?_, fun key => ?_⟩
  · have hnone : ((style.only M.«balloonstyle»).bind fun b => b.simple M.«text») = none := by
      rcases Option.eq_none_or_eq_some (style.only M.«balloonstyle») with h | ⟨b, h⟩
      · rw [h]; rfl
      · rw [h]; exact hb b h
    have halt := C54_table_partial fragment find [] [] feature ho
    unfold createBalloonText
    dsimp only
    rw [hnone, halt]
    dsimp only
    unfold balloonOf
    rcases Option.eq_none_or_eq_some (feature.simple M.«description») with hd | ⟨d, hd⟩
    · rw [hd]
      rcases Option.eq_none_or_eq_some (feature.only M.«extendeddata») with he | ⟨ed, he⟩
      · rw [he]
        rcases Option.eq_none_or_eq_some (feature.simple M.«name») with hn | ⟨nm, hn⟩ <;> rw [hn] <;> simp
      · rw [he]
        rcases Option.eq_none_or_eq_some (feature.simple M.«name») with hn | ⟨nm, hn⟩ <;> rw [hn] <;> simp
    · rw [hd]
      obtain ⟨r, hr⟩ := StringUtil.C04_terminates d
        ((EntityMapper.init [] (some [])).getEntityFields fragment find feature).map (chars! "$[") [']']
      have hr : createExpandedEntities d ((EntityMapper.init [] (some [])).getEntityFields fragment find feature).map = some r := hr
      simp only [Option.map_some, Option.getD_some, hr]
      rcases Option.eq_none_or_eq_some (feature.only M.«extendeddata») with he | ⟨ed, he⟩
      · rw [he]
        rcases Option.eq_none_or_eq_some (feature.simple M.«name») with hn | ⟨nm, hn⟩ <;> rw [hn] <;> simp
      · rw [he]
        rcases Option.eq_none_or_eq_some (feature.simple M.«name») with hn | ⟨nm, hn⟩ <;> rw [hn] <;> simp
  · rw [C54_entities]
    show (lastValue key _).or none = _
    rw [Option.or_none]

/-! ## Examples and violations -/

/-- `<SimpleField name="…"/>`, with a display name if there is one. -/
def eField (name : Str) (display : Option Str) : Elem :=
  .node Ty.«SimpleField» ⟨[(chars! "name", name)], [], []⟩
    (setSlot (fun _ => []) M.«displayname» (display.map fun d => Elem.field Ty.«displayName» d).toList) [] []

/-- `<Schema id="s" name="S"><SimpleField name="f"><displayName>F</displayName></SimpleField></Schema>` -/
def eSchema : Elem :=
  .node Ty.«Schema» ⟨[(chars! "id", ['s']), (chars! "name", ['S'])], [], []⟩
    (setSlot (fun _ => []) M.«simplefield_array» [eField ['f'] (some ['F'])]) [] []

/-- `<SimpleData name="…">…</SimpleData>` -/
def eSimple (name text : Str) : Elem :=
  .node Ty.«SimpleData» ⟨[(chars! "name", name)], [], []⟩ (setSlot (fun _ => []) M.«text» [.field Ty.«Unknown» text]) [] []

/-- `<SchemaData schemaUrl="…">…</SchemaData>` -/
def eSchemaData (url : Str) (l : List Elem) : Elem :=
  .node Ty.«SchemaData» ⟨[(chars! "schemaUrl", url)], [], []⟩ (setSlot (fun _ => []) M.«simpledata_array» l) [] []

/-- `<Data name="d"><displayName>D</displayName><value>v</value></Data>` -/
def eData : Elem :=
  .node Ty.«Data» ⟨[(chars! "name", ['d'])], [], []⟩
    (setSlot (setSlot (fun _ => []) M.«displayname» [.field Ty.«displayName» ['D']]) M.«value» [.field Ty.«value» ['v']]) [] []

/-- A `Placemark` with a description and extended data. -/
def eMark (data schemas : List Elem) : Elem :=
  .node Ty.«Placemark» ⟨[(chars! "id", ['p'])], [], []⟩
    (setSlot (setSlot (fun _ => []) M.«description» [.field Ty.«description» (chars! "$[d]$[S/f]")]) M.«extendeddata»
      [.node Ty.«ExtendedData» .empty
        (setSlot (setSlot (fun _ => []) M.«data_array» data) M.«schemadata_array» schemas) [] []]) [] []

/-- `#id`. -/
def eFragment : Str → Option Str
  | '#' :: id => some id
  | _ => none

/-- A file with the schema. -/
def eFind (id : Str) : Option Elem := if id = ['s'] then some eSchema else none

set_option maxRecDepth 100000 in
/-- Such a feature and such a schema are parsed. -/
example : Held NumLib.integers eSchema ∧ Held NumLib.integers (eMark [eData] [eSchemaData ['#', 's'] [eSimple ['f'] ['w']]]) :=
  ⟨parse_held (os := ([] : List (Observer Unit))) (s := ()) (s' := ()) (evs :=
    [.start (chars! "Schema") [(chars! "id", ['s']), (chars! "name", ['S'])],
      .start (chars! "SimpleField") [(chars! "name", ['f'])],
      .start (chars! "displayName") [], .chars ['F'], .stop (chars! "displayName"), .stop (chars! "SimpleField"),
      .stop (chars! "Schema")]) rfl,
   parse_held (os := ([] : List (Observer Unit))) (s := ()) (s' := ()) (evs :=
    [.start (chars! "Placemark") [(chars! "id", ['p'])],
      .start (chars! "description") [], .chars (chars! "$[d]$[S/f]"), .stop (chars! "description"),
      .start (chars! "ExtendedData") [],
      .start (chars! "Data") [(chars! "name", ['d'])],
      .start (chars! "displayName") [], .chars ['D'], .stop (chars! "displayName"),
      .start (chars! "value") [], .chars ['v'], .stop (chars! "value"), .stop (chars! "Data"),
      .start (chars! "SchemaData") [(chars! "schemaUrl", ['#', 's'])],
      .start (chars! "SimpleData") [(chars! "name", ['f'])], .chars ['w'], .stop (chars! "SimpleData"),
      .stop (chars! "SchemaData"), .stop (chars! "ExtendedData"), .stop (chars! "Placemark")]) rfl⟩

/-- The entities of a feature with data and schema data. -/
example : entities (schemaOf eFragment eFind) (eMark [eData] [eSchemaData ['#', 's'] [eSimple ['f'] ['w']]]) =
    [(chars! "id", ['p']), (chars! "description", chars! "$[d]$[S/f]"), (['d'], ['v']), (chars! "d/displayName", ['D']),
      (chars! "S/f/displayName", ['F']), (chars! "S/f", ['w'])] := by decide +kernel

/-- The later of two values wins. -/
example : ((EntityMapper.init [] none).getEntityFields eFragment eFind
    (eMark [] [eSchemaData ['#', 's'] [eSimple ['f'] ['w'], eSimple ['f'] ['x']]])).map.get (chars! "S/f") = some ['x'] := by
  decide +kernel

theorem eOrderly : Orderly (schemaOf eFragment eFind)
    [eSchemaData ['#', 'x'] [eSimple ['g'] ['y']], eSchemaData ['#', 's'] [eSimple ['f'] ['w']]] := by
  refine .plain ?_ (.labelled ?_)
  · rintro ⟨sc, _, _, h, _⟩
    have : (schemaOf eFragment eFind (eSchemaData ['#', 'x'] [eSimple ['g'] ['y']])).isSome = false := by decide +kernel
    rw [h] at this
    cases this
  · intro sd hsd
    rw [List.mem_singleton.1 hsd]
    refine ⟨eSchema, rfl, fun d hd => ?_⟩
    rw [List.mem_singleton.1 (show d ∈ [eSimple ['f'] ['w']] from hd)]
    decide +kernel

/-- A feature whose schema data are in order, and its table. -/
example :
    (∀ ed, (eMark [eData] [eSchemaData ['#', 'x'] [eSimple ['g'] ['y']], eSchemaData ['#', 's'] [eSimple ['f'] ['w']]]).only
      M.«extendeddata» = some ed → Orderly (schemaOf eFragment eFind) (ed.items M.«schemadata_array»)) ∧
    rows (schemaOf eFragment eFind)
      (eMark [eData] [eSchemaData ['#', 'x'] [eSimple ['g'] ['y']], eSchemaData ['#', 's'] [eSimple ['f'] ['w']]]) =
      [(['D'], ['v']), (['g'], ['y']), (chars! "S:F", ['w'])] := by
  refine ⟨fun ed h => ?_, by decide +kernel⟩
  injection h with h
  subst h
  exact eOrderly

/-- **C54, violated.** The names of one schema are used for the data of another: data without a schema is shown under the
name that a schema before it gives to its own data. -/
theorem C54_leak_violated :
    ∃ (feature : Elem), ((EntityMapper.init [] (some [])).getEntityFields eFragment eFind feature).alt =
        some [(chars! "S:F", ['w']), (chars! "S:F", ['y'])] ∧
      rows (schemaOf eFragment eFind) feature = [(chars! "S:F", ['w']), (['f'], ['y'])] :=
  ⟨eMark [] [eSchemaData ['#', 's'] [eSimple ['f'] ['w']], eSchemaData ['#', 'x'] [eSimple ['f'] ['y']]],
    by decide +kernel, by decide +kernel⟩

/-- **C54, violated.** Data that its schema does not have is shown with an empty name. -/
theorem C54_unlisted_violated :
    ∃ (feature : Elem), ((EntityMapper.init [] (some [])).getEntityFields eFragment eFind feature).alt =
        some [([], ['w'])] ∧
      rows (schemaOf eFragment eFind) feature = [(['g'], ['w'])] :=
  ⟨eMark [] [eSchemaData ['#', 's'] [eSimple ['g'] ['w']]], by decide +kernel, by decide +kernel⟩

/-- **C54, violated.** A mapper used for a second feature keeps the names of the schemas of the first. -/
theorem C54_reused_violated :
    ∃ (first second : Elem),
      (((EntityMapper.init [] (some [])).getEntityFields eFragment eFind first).getEntityFields eFragment eFind second).alt =
        some [(chars! "S:F", ['w']), ([], ['y'])] ∧
      rows (schemaOf eFragment eFind) second = [(['g'], ['y'])] :=
  ⟨eMark [] [eSchemaData ['#', 's'] [eSimple ['f'] ['w']]], eMark [] [eSchemaData ['#', 'x'] [eSimple ['g'] ['y']]],
    by decide +kernel, by decide +kernel⟩

/-- **C75, violated.** The table is for features without a description, yet a feature with a description has it too, and the
second cell of a row is not closed. -/
theorem C75_table_violated :
    ∃ (feature : Elem), (feature.simple M.«description»).isSome = true ∧
      createBalloonText eFragment eFind (newNode Ty.«Style») feature =
        some (chars! "v$[S/f]\n<table border=\"1\">\n<tr><td>D</td><td>v</tr>\n</table>\n") :=
  ⟨eMark [eData] [], by decide +kernel, by decide +kernel⟩

/-- A balloon from a style, and one without. -/
example :
    createBalloonText eFragment eFind
      (.node Ty.«Style» .empty (setSlot (fun _ => []) M.«balloonstyle»
        [.node Ty.«BalloonStyle» .empty (setSlot (fun _ => []) M.«text» [.field Ty.«text» (chars! "<b>$[S/f]</b>")]) [] []]) [] [])
      (eMark [eData] [eSchemaData ['#', 's'] [eSimple ['f'] ['w']]]) = some (chars! "<b>w</b>") ∧
    createBalloonText eFragment eFind (newNode Ty.«Style») (eMark [eData] [eSchemaData ['#', 's'] [eSimple ['f'] ['w']]]) =
      some (chars! "vw\n<table border=\"1\">\n<tr><td>D</td><td>v</tr>\n<tr><td>S:F</td><td>w</tr>\n</table>\n") := by
  decide +kernel

end Kml.Dom
