import Verif.Model.XsdMake
import Verif.Props.XsdFile
/-! C121: schemas, elements and types made by name. -/
namespace Kml.XsdDoc
open Kml Kml.Attributes

/-- **C121, schemas.** A schema is made exactly from a namespace and a prefix that are not empty, and then has them. -/
theorem C121_schema (pre ns : Str) :
    createXsdSchema pre ns = if pre = [] ∨ ns = [] then none else some ⟨ns, pre⟩ := by
  have hm : setValue (setValue [] (chars! "xmlns:" ++ pre) ns) (chars! "targetNamespace") ns =
      [(chars! "targetNamespace", ns), (chars! "xmlns:" ++ pre, ns)] := by
    simp [setValue, StdMap.set, strLt]
  unfold createXsdSchema
  rw [hm]
  have hg : getValue [(chars! "targetNamespace", ns), (chars! "xmlns:" ++ pre, ns)] (chars! "targetNamespace") = some ns := rfl
  have hx : Xmlns.create [(chars! "targetNamespace", ns), (chars! "xmlns:" ++ pre, ns)] = some ⟨[], some [(pre, ns)]⟩ := by
    simp [Xmlns.create, getValue, StdMap.get, splitByPrefix, clone, hasPrefix, StdMap.set]
  unfold Schema.create
  rw [hg, hx]
  by_cases h1 : ns = []
  · simp [h1]
  · by_cases h2 : pre = [] <;> simp [h1, h2, Xmlns.getKey, findKey]

example : createXsdSchema (chars! "kml") (chars! "a:b") = some ⟨chars! "a:b", chars! "kml"⟩ := by decide

/-- **C121, elements.** An element is always made, with the name and the type given, even empty ones; it is neither abstract
nor a reference, and has no default and no substitution group. -/
theorem C121_element (name type : Str) : ∃ e, createXsdElement name type = some e ∧ e.name_ = name ∧ e.type_ = type ∧
    e.abstract_ = false ∧ e.ref_ = false ∧ e.default_ = [] ∧ e.substitutionGroup = [] ∧
    (e.isPrimitive = true ↔ type ∈ primitiveNames) := by
  have hm : setValue (setValue [] (chars! "name") name) (chars! "type") type =
      [(chars! "name", name), (chars! "type", type)] := by
    simp [setValue, StdMap.set, strLt]
  unfold createXsdElement
  rw [hm]
  refine ⟨_, rfl, rfl, rfl, rfl, rfl, rfl, rfl, ?_⟩
  have key : ∀ (l : List Str) (i : Nat), 0 < i → (typeIdFrom type i l ≠ 0 ↔ type ∈ l) := by
    intro l
    induction l with
    | nil => intro i _; simp [typeIdFrom]
    | cons s r ih =>
      intro i hi
      unfold typeIdFrom
      split
      next h => simp [h, Nat.pos_iff_ne_zero.1 hi]
      next h => rw [ih (i + 1) (Nat.succ_pos i)]; simp [h]
  show (getTypeId type != 0) = true ↔ _
  rw [bne_iff_ne]
  exact key _ 1 Nat.one_pos

/-- **C121, types.** A complex type is always made, with the name given, no base and no elements. -/
theorem C121_type (name : Str) : createXsdComplexType name = some ⟨name, [], []⟩ := rfl

theorem colon_not_primitive (pre l : Str) : pre ++ ':' :: l ∉ primitiveNames := by
  intro h
  have : ∀ s ∈ primitiveNames, ':' ∉ s := by decide
  exact this _ h (by simp)

/-- **C121, together.** In a file with a made schema, a type added last under its name is the type of every made element whose
type is the prefix, a colon and that name. -/
theorem C121_found (f : File) (pre ns tn name : Str) (hp : pre ≠ []) (hn : ns ≠ []) (ht : tn ≠ []) (c : Complex)
    (hc : createXsdComplexType tn = some c) (e : Element) (he : createXsdElement name (pre ++ ':' :: tn) = some e) :
    ∃ g, { f with schema := createXsdSchema pre ns }.addType (some (.complex c)) = .ok g ∧
      g.findElementType (some e) = some (.complex c) ∧ (g.addElement e).findElement name = some e ∧
      (g.addElement e).findElementType (some e) = some (.complex c) := by
  obtain ⟨e', h1, h2, h3, _, _, _, _, h8⟩ := C121_element name (pre ++ ':' :: tn)
  rw [he] at h1
  cases h1
  cases hc
  have hs : createXsdSchema pre ns = some ⟨ns, pre⟩ := by rw [C121_schema]; simp [hp, hn]
  have hprim : e.isPrimitive = false := by
    cases hb : e.isPrimitive with
    | false => rfl
    | true => exact absurd (h8.1 hb) (colon_not_primitive _ _)
  have hsp : (Schema.mk ns pre).splitNsName (pre ++ ':' :: tn) = some tn := (C69_split _ _ _).2 ⟨ht, rfl⟩
  refine ⟨_, rfl, ?_, ?_, ?_⟩
  · simp [File.findElementType, h3, hprim, hs, hsp, File.findType, StdMap.get_set, XType.name]
  · simp [File.addElement, File.findElement, StdMap.get_set, h2]
  · simp [File.addElement, File.findElementType, h3, hprim, hs, hsp, File.findType, StdMap.get_set, XType.name]

example : ∃ c e, createXsdComplexType (chars! "LookAtType") = some c ∧
    createXsdElement (chars! "LookAt") (chars! "kml:LookAtType") = some e ∧ e.isPrimitive = false :=
  ⟨_, _, rfl, rfl, by decide⟩

/-- **C121, built-in types.** A made element of a built-in type has that type whatever the file has. -/
theorem C121_builtin (f : File) (name type : Str) (ht : type ∈ primitiveNames) (e : Element)
    (he : createXsdElement name type = some e) :
    ∃ i, f.findElementType (some e) = some (.primitive i) ∧ getTypeName i = .ok type := by
  obtain ⟨e', h1, h2, h3, _, _, _, _, h8⟩ := C121_element name type
  rw [he] at h1
  cases h1
  have hpr := h8.2 ht
  have hall : ∀ s ∈ primitiveNames, s ≠ [] ∧ getTypeId s ≠ 0 ∧ getTypeName (getTypeId s) = .ok s := by decide
  obtain ⟨a1, a2, a3⟩ := hall type ht
  refine ⟨getTypeId type, ?_, a3⟩
  simp [File.findElementType, h3, hpr, a1, a2]

example : chars! "double" ∈ primitiveNames := by decide

end Kml.XsdDoc
