import Verif.Lemmas.OldSchema

/-! Documents with an old-style schema: the runs of the parser. -/

namespace Kml.Dom

open Kml

variable {σ : Type}

/-- The schema data of a field. -/
def dataOf (f : Str × Str) : Elem :=
  setText (.node Ty.«SimpleData» ⟨[(chars! "name", f.1)], [], []⟩ (fun _ => []) [] []) f.2

/-- The extended data made of fields. -/
def dataElem (N : Str) (data : List Elem) : Elem :=
  .node Ty.«ExtendedData» .empty (fun m => if m = M.«schemadata_array» then
    [.node Ty.«SchemaData» ⟨[(chars! "schemaUrl", N ++ chars! "_id")], [], []⟩
      (fun m => if m = M.«simpledata_array» then data else []) [] []] else []) [] []

theorem id_ed : Xsd.elementId (chars! "ExtendedData") = Ty.«ExtendedData» := by decide +kernel
theorem id_sd : Xsd.elementId (chars! "SchemaData") = Ty.«SchemaData» := by decide +kernel
theorem id_sdata : Xsd.elementId (chars! "SimpleData") = Ty.«SimpleData» := by decide +kernel
theorem id_schema : Xsd.elementId (chars! "Schema") = Ty.«Schema» := by decide +kernel
theorem id_placemark : Xsd.elementId (chars! "Placemark") = Ty.«Placemark» := by decide +kernel
theorem id_simpleField : Xsd.elementId (chars! "SimpleField") = Ty.«SimpleField» := by decide +kernel

theorem make_ed (n : NumLib) (p : Option Ty) :
    makeElement n p Ty.«ExtendedData» [] = some (.node Ty.«ExtendedData» .empty (fun _ => []) [] []) := rfl

theorem make_sd (n : NumLib) (p : Option Ty) (u : Str) : makeElement n p Ty.«SchemaData» [(chars! "schemaUrl", u)] =
    some (.node Ty.«SchemaData» ⟨[(chars! "schemaUrl", u)], [], []⟩ (fun _ => []) [] []) := rfl

theorem make_sdata (n : NumLib) (p : Option Ty) (u : Str) : makeElement n p Ty.«SimpleData» [(chars! "name", u)] =
    some (.node Ty.«SimpleData» ⟨[(chars! "name", u)], [], []⟩ (fun _ => []) [] []) := rfl

theorem make_schema_new (n : NumLib) (p : Option Ty) (u N : Str) :
    makeElement n p Ty.«Schema» [(chars! "id", u), (chars! "name", N)] =
    some (.node Ty.«Schema» ⟨[(chars! "id", u), (chars! "name", N)], [], []⟩ (fun _ => []) [] []) := rfl

theorem make_schema_old (n : NumLib) (p : Option Ty) (u N : Str) :
    makeElement n p Ty.«Schema» [(chars! "name", N), (chars! "parent", u)] =
    some (.node Ty.«Schema» ⟨[(chars! "name", N)], [(chars! "parent", u)], []⟩ (fun _ => []) [] []) := rfl

theorem make_schema_old' (n : NumLib) (p : Option Ty) (u N : Str) :
    makeElement n p Ty.«Schema» [(chars! "parent", u), (chars! "name", N)] =
    some (.node Ty.«Schema» ⟨[(chars! "name", N)], [(chars! "parent", u)], []⟩ (fun _ => []) [] []) := rfl

theorem find_old (u N : Str) : findOldSchemaName [(chars! "name", N), (chars! "parent", u)] [] = N ∧
    findOldSchemaName [(chars! "parent", u), (chars! "name", N)] [] = N := ⟨rfl, rfl⟩

theorem add_sdata (n : NumLib) (a : Attrs) (slots : Mem → List Elem) (mis : List Elem) (unk : List Str) (f : Str × Str) :
    addElement n [] (.node Ty.«SchemaData» a slots mis unk) (dataOf f) =
      .ok (.node Ty.«SchemaData» a (setSlot slots M.«simpledata_array» (slots M.«simpledata_array» ++ [dataOf f])) mis unk) := rfl

theorem finish_sdata (n : NumLib) (f : Str × Str) :
    finishElement n (.node Ty.«SimpleData» ⟨[(chars! "name", f.1)], [], []⟩ (fun _ => []) [] []) f.2 = .ok (dataOf f) := rfl

theorem add_sd (n : NumLib) (a a' : Attrs) (slots slots' : Mem → List Elem) (mis mis' : List Elem) (unk unk' : List Str) :
    addElement n [] (.node Ty.«ExtendedData» a slots mis unk) (.node Ty.«SchemaData» a' slots' mis' unk') =
      .ok (.node Ty.«ExtendedData» a (setSlot slots M.«schemadata_array» (slots M.«schemadata_array» ++
        [.node Ty.«SchemaData» a' slots' mis' unk'])) mis unk) := rfl

theorem add_ed (n : NumLib) (a a' : Attrs) (slots slots' : Mem → List Elem) (mis mis' : List Elem) (unk unk' : List Str) :
    addElement n [] (.node Ty.«Placemark» a slots mis unk) (.node Ty.«ExtendedData» a' slots' mis' unk') =
      .ok (.node Ty.«Placemark» a (setSlot slots M.«extendeddata» [.node Ty.«ExtendedData» a' slots' mis' unk']) mis unk) := rfl

theorem known_names : isKnown (chars! "ExtendedData") = true ∧ isKnown (chars! "SchemaData") = true ∧
    isKnown (chars! "SimpleData") = true ∧ isKnown (chars! "Schema") = true ∧ isKnown (chars! "Placemark") = true ∧
    isKnown (chars! "SimpleField") = true ∧ isKnown (chars! "description") = true := by decide +kernel

theorem schema_rules : classOf Ty.«Schema» = some «Schema».cls ∧ «Schema».cls.rules =
    [(.ty Ty.«SimpleField», .many M.«simplefield_array»), (.ty Ty.«GxSimpleArrayField», .many M.«gx_simplearrayfield_array»)] :=
  ⟨rfl, rfl⟩

theorem simpleField_reads : (chars! "name", AttrKind.str) ∈ (classAt Ty.«SimpleField»).reads ∧
    ((classAt Ty.«SimpleField»).reads.map (·.1)).Nodup := by decide +kernel

theorem make_placemark (n : NumLib) (p : Option Ty) (a : List (Str × Str)) :
    ∃ at', makeElement n p Ty.«Placemark» a = some (.node Ty.«Placemark» at' (fun _ => []) [] []) := ⟨_, rfl⟩

theorem make_simpleField (n : NumLib) (p : Option Ty) (a : List (Str × Str)) :
    makeElement n p Ty.«SimpleField» a = some (.node Ty.«SimpleField»
      (if a = [] then .empty else parseAttributes n (classAt Ty.«SimpleField») (attrMap a)) (fun _ => []) [] []) := rfl

attribute [local irreducible] kml22Elements Xsd.tagToId classes inc dec uintSize

/-! ### What content does, without observers -/

theorem child_inv {n : NumLib} {d : Nat} {cur : Elem} {text : Str} {s : σ} {name : Str} {attrs : List (Str × Str)}
    {whole inner : Str} {height : Nat} {kids : Elem → σ → Outcome (Option (Elem × Str × σ))} {r : Elem × Str × σ}
    (hk : isKnown name = true) (hd : name ≠ chars! "description")
    (h : buildChild n [] d cur text s name attrs whole inner height kids = .ok (some r)) :
    d + 1 ≤ 100 ∧ r.2.1 = text ∧ ∃ e e1 t1 child, makeElement n (some cur.ty) (Xsd.elementId name) attrs = some e ∧
      e.ty ≠ Ty.«description» ∧ kids e s = .ok (some (e1, t1, r.2.2)) ∧ finishElement n e1 t1 = .ok child ∧
      addElement n [] cur child = .ok r.1 := by
  obtain ⟨cur', text', s'⟩ := r
  obtain ⟨h1, h2, h3⟩ := buildChild_inv h
  refine ⟨h1, h2, ?_⟩
  rcases h3 with ⟨h3, _⟩ | ⟨_, e, child, s2, h4, h5, h6, h7⟩
  · rw [hk] at h3
    cases h3
  · have hde : e.ty ≠ Ty.«description» := fun he => hd ((makeElement_description h4).1 he)
    obtain ⟨s1, h8, h9⟩ := buildKnown_inv h5
    rcases h9 with ⟨h9, _⟩ | ⟨_, e1, t1, h10, h11⟩
    · exact absurd h9 hde
    · refine ⟨e, e1, t1, child, h4, hde, ?_, h11, ?_⟩
      · cases h8
        cases h7
        exact h10
      · have : giveChild n true cur child = .ok cur' := h6
        unfold giveChild at this
        rw [if_pos rfl] at this
        exact this

theorem data_list {n : NumLib} {d : Nat} {s : σ} : ∀ (fields : List (Str × Str)) {a : Attrs} {slots : Mem → List Elem} {mis : List Elem}
    {unk : List Str} {text : Str} {r : Elem × Str × σ},
    buildKids n [] d (.node Ty.«SchemaData» a slots mis unk) text s
      (fields.map fun f => .elem (chars! "SimpleData") [(chars! "name", f.1)] [.text f.2]) = .ok (some r) →
    r.1 = .node Ty.«SchemaData» a (setSlot slots M.«simpledata_array» (slots M.«simpledata_array» ++ fields.map dataOf)) mis unk ∧
      r.2.2 = s
  | [], a, slots, mis, unk, text, r, h => by
    unfold List.map buildKids at h
    cases h
    refine ⟨?_, rfl⟩
    dsimp only
    congr 1
    funext i
    unfold setSlot
    split
    · rename_i hi
      rw [hi]
      exact (List.append_nil _).symm
    · rfl
  | f :: fields, a, slots, mis, unk, text, r, h => by
    obtain ⟨c, t, s1, h1, h2⟩ := buildKids_cons_inv (show buildKids n [] d _ text s
      (Xml.elem (chars! "SimpleData") [(chars! "name", f.1)] [.text f.2] :: fields.map fun f => .elem (chars! "SimpleData")
        [(chars! "name", f.1)] [.text f.2]) = _ from h)
    unfold buildKid at h1
    obtain ⟨_, h3, e, e1, t1, child, h4, _, h5, h6, h7⟩ := child_inv known_names.2.2.1 (by decide) h1
    rw [id_sdata, make_sdata] at h4
    cases h4
    unfold buildKids buildKid at h5
    cases h5
    rw [show (([] : Str) ++ f.2) = f.2 from rfl, finish_sdata] at h6
    cases h6
    rw [add_sdata] at h7
    cases h7
    obtain ⟨h8, h9⟩ := data_list fields h2
    refine ⟨?_, h9⟩
    rw [h8]
    congr 1
    funext i
    unfold setSlot
    split
    · rw [if_pos rfl, List.append_assoc]
      rfl
    · rfl

theorem data_build {n : NumLib} {d : Nat} {s : σ} {N : Str} {fields : List (Str × Str)} {a : Attrs} {slots : Mem → List Elem}
    {mis : List Elem} {unk : List Str} {text : Str} {r : Elem × Str × σ}
    (h : buildKids n [] d (.node Ty.«Placemark» a slots mis unk) text s [asSchemaData N fields] = .ok (some r)) :
    r = (.node Ty.«Placemark» a (setSlot slots M.«extendeddata» [dataElem N (fields.map dataOf)]) mis unk, text, s) := by
  obtain ⟨c, t, s1, h1, h2⟩ := buildKids_cons_inv h
  unfold buildKids at h2
  cases h2
  unfold asSchemaData buildKid at h1
  obtain ⟨_, h3, e, e1, t1, child, h4, _, h5, h6, h7⟩ := child_inv known_names.1 (by decide) h1
  rw [id_ed, make_ed] at h4
  cases h4
  obtain ⟨c', t', s1', k1, k2⟩ := buildKids_cons_inv h5
  unfold buildKids at k2
  cases k2
  unfold buildKid at k1
  obtain ⟨_, m3, e', e1', t1', child', m4, _, m5, m6, m7⟩ := child_inv known_names.2.1 (by decide) k1
  rw [id_sd, make_sd] at m4
  cases m4
  obtain ⟨q1, q2⟩ := data_list fields m5
  dsimp only at q1 q2 h3 m3
  subst q1 q2
  cases m6
  rw [show setCharData (Elem.node Ty.«SchemaData» _ _ _ _) t1' = Elem.node Ty.«SchemaData» _ _ _ _ from rfl, add_sd] at m7
  cases m7
  cases h6
  rw [show setCharData (Elem.node Ty.«ExtendedData» _ _ _ _) t1 = Elem.node Ty.«ExtendedData» _ _ _ _ from rfl, add_ed] at h7
  cases h7
  subst h3
  rfl

end Kml.Dom
