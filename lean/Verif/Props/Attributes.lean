import Verif.Model.Attributes
import Verif.Model.StringUtil
import Verif.Lemmas.StdMap
import Verif.Lemmas.Attributes
import Verif.Spec.Xml
import Verif.Lemmas.Find
/-! Properties C10–C12: attributes. -/
namespace Kml.Attributes
open Kml

/-! ### C10 -/

/-- The calls that change an `Attributes` object. -/
inductive Op where
  | set (k v : Str)
  | cut (k : Str)
  /-- merge an object on which these pairs were set in this order -/
  | merge (pairs : List (Str × Str))

/-- The specification: a partial function from names to values. -/
abbrev Fun := Str → Option Str

def Fun.set (f : Fun) (k v : Str) : Fun := fun k' => if k = k' then some v else f k'
def Fun.cut (f : Fun) (k : Str) : Fun := fun k' => if k = k' then none else f k'
def Fun.override (f g : Fun) : Fun := fun k => (g k).or (f k)
def Fun.ofPairs (pairs : List (Str × Str)) : Fun := pairs.foldl (fun f e => f.set e.1 e.2) (fun _ => none)

def Fun.step (f : Fun) : Op → Fun
  | .set k v => f.set k v
  | .cut k => f.cut k
  | .merge pairs => f.override (Fun.ofPairs pairs)

/-- The same calls on the model. -/
def step (m : Attributes) : Op → Attributes
  | .set k v => setValue m k v
  | .cut k => (cutValue m k).2
  | .merge pairs => mergeAttributes m (pairs.foldl (fun a e => setValue a e.1 e.2) [])

theorem foldl_set_spec (l : List (Str × Str)) (m : Attributes) (hs : StdMap.Sorted m) :
    StdMap.Sorted (l.foldl (fun (a : Attributes) e => a.set e.1 e.2) m) ∧
    ∀ k, StdMap.get (l.foldl (fun (a : Attributes) e => a.set e.1 e.2) m) k
      = (l.foldl (fun (f : Fun) e => f.set e.1 e.2) (StdMap.get m)) k := by
  induction l generalizing m with
  | nil => exact ⟨hs, fun _ => rfl⟩
  | cons e l ih =>
    obtain ⟨h1, h2⟩ := ih (m.set e.1 e.2) (StdMap.sorted_set hs _ _)
    refine ⟨h1, fun k => ?_⟩
    rw [List.foldl_cons, List.foldl_cons, h2 k]
    have : StdMap.get (m.set e.1 e.2) = Fun.set (StdMap.get m) e.1 e.2 := by
      funext k'; rw [StdMap.get_set]; rfl
    rw [this]

theorem step_spec (m : Attributes) (hs : StdMap.Sorted m) (op : Op) :
    StdMap.Sorted (step m op) ∧ StdMap.get (step m op) = Fun.step (StdMap.get m) op := by
  cases op with
  | set k v =>
    refine ⟨StdMap.sorted_set hs _ _, ?_⟩
    funext k'; simp only [step, setValue, Fun.step, StdMap.get_set, Fun.set]
  | cut k =>
    simp only [step, cutValue, Fun.step]
    cases hg : StdMap.get m k with
    | none =>
      refine ⟨hs, ?_⟩
      funext k'
      simp only [Fun.cut]
      split
      · rename_i h; rw [← h, hg]
      · rfl
    | some v =>
      refine ⟨StdMap.sorted_erase hs _, ?_⟩
      funext k'
      simp only [Fun.cut, StdMap.get_erase hs]
  | merge pairs =>
    obtain ⟨h1, h2⟩ := foldl_set_spec pairs [] StdMap.sorted_nil
    obtain ⟨h3, h4⟩ := merge_spec _ m h1 hs
    refine ⟨h3, ?_⟩
    funext k
    simp only [step, Fun.step, Fun.override, Fun.ofPairs]
    have := h4 k
    rw [h2 k] at this
    exact this

/-- After every history, reading any name gives what the partial function gives. -/
theorem C10_get (ops : List Op) (k : Str) :
    getValue (ops.foldl step []) k = (ops.foldl Fun.step (fun _ => none)) k := by
  have : ∀ (m : Attributes), StdMap.Sorted m →
      StdMap.get (ops.foldl step m) = ops.foldl Fun.step (StdMap.get m) := by
    induction ops with
    | nil => intro m _; rfl
    | cons op ops ih =>
      intro m hs
      obtain ⟨h1, h2⟩ := step_spec m hs op
      rw [List.foldl_cons, List.foldl_cons, ih _ h1, h2]
  have h := this [] StdMap.sorted_nil
  exact congrFun h k

/-- Every reachable object keeps its names in strictly ascending order. -/
theorem reachable_sorted (ops : List Op) : StdMap.Sorted (ops.foldl step ([] : Attributes)) := by
  have : ∀ (m : Attributes), StdMap.Sorted m → StdMap.Sorted (ops.foldl step m) := by
    induction ops with
    | nil => intro m h; exact h
    | cons op ops ih => intro m hs; exact ih _ (step_spec m hs op).1
  exact this [] StdMap.sorted_nil

/-- The size is the number of names that have a value. -/
theorem C10_size (ops : List Op) : ∃ names : List Str, names.Nodup ∧
    names.length = getSize (ops.foldl step []) ∧
    ∀ k, k ∈ names ↔ (ops.foldl Fun.step (fun _ => none)) k ≠ none := by
  have hs := reachable_sorted ops
  refine ⟨(ops.foldl step ([] : Attributes)).map (·.1), StdMap.nodup_keys hs, by simp [getSize], ?_⟩
  intro k
  rw [← C10_get]
  generalize ops.foldl step ([] : Attributes) = m at *
  rw [List.mem_map, getValue]
  constructor
  · rintro ⟨e, he, rfl⟩
    rw [StdMap.get_of_mem hs (show (e.1, e.2) ∈ m from he)]
    simp
  · intro h
    obtain ⟨v, hv⟩ := Option.ne_none_iff_exists'.1 h
    exact ⟨_, StdMap.mem_of_get hv, rfl⟩

/-- Cutting reports the value that reading would have reported. -/
theorem C10_cut_value (m : Attributes) (k : Str) : (cutValue m k).1 = getValue m k := by
  unfold cutValue getValue
  cases StdMap.get m k <;> rfl

/-- A bool set as an attribute reads back as the same bool. -/
theorem C10_bool (m : Attributes) (k : Str) (b : Bool) :
    (getValue (setValue m k (StringUtil.boolToString b)) k).map StringUtil.boolFromString = some b := by
  rw [getValue, setValue, StdMap.get_set]
  simp only [if_true, Option.map_some]
  cases b <;> decide

/-- A clone reads like its original, and changing the clone later leaves the original as it was
(immediate in a functional model: the map is copied by value). -/
theorem C10_clone (m : Attributes) (k : Str) : getValue (clone m) k = getValue m k := rfl

example : ([Op.set ['a'] ['1'], .merge [(['b'], ['2']), (['a'], ['3'])], .cut ['b']].foldl step [])
    = [(['a'], ['3'])] := by decide

/-! ### C11 -/

/-- The pairs in a flat list. -/
def flatten (pairs : List (Str × Str)) : List Str := pairs.flatMap fun e => [e.1, e.2]

theorem parseVector_pairs (pairs : List (Str × Str)) (m : Attributes) :
    parseVector m (flatten pairs) = .ok (pairs.foldl (fun (a : Attributes) e => a.set e.1 e.2) m) := by
  induction pairs generalizing m with
  | nil => rfl
  | cons e l ih =>
    simp only [flatten, List.flatMap_cons, List.cons_append, List.nil_append, parseVector, List.foldl_cons] at ih ⊢
    exact ih _

/-- Creating attributes from pairs succeeds and keeps the last value given for each name. -/
theorem C11_create (pairs : List (Str × Str)) :
    ∃ m, create (flatten pairs) = .ok m ∧
      ∀ k, getValue m k = ((pairs.reverse.find? fun e => e.1 = k).map (·.2)) := by
  refine ⟨_, parseVector_pairs pairs [], ?_⟩
  intro k
  rw [getValue, (foldl_set_spec pairs [] StdMap.sorted_nil).2 k]
  have : ∀ (f : Fun), (pairs.foldl (fun (f : Fun) e => f.set e.1 e.2) f) k
      = ((pairs.reverse.find? fun e => e.1 = k).map (·.2)).or (f k) := by
    induction pairs with
    | nil => intro f; simp
    | cons e l ih =>
      intro f
      rw [List.foldl_cons, ih, List.reverse_cons, List.find?_append]
      cases l.reverse.find? fun e => e.1 = k with
      | some x => simp
      | none =>
        simp only [Option.map_none, Option.none_or, Fun.set, List.find?_cons]
        by_cases h : e.1 = k
        · simp [h]
        · simp [h]
  rw [this]
  simp [StdMap.get]

/-- The variant for the array of an XML parser never fails, whatever the number of strings. -/
theorem C11_create_array (pairs : List (Str × Str)) (extra : List Str) (h : extra.length ≤ 1) :
    parsePairs [] (flatten pairs ++ extra) = pairs.foldl (fun (a : Attributes) e => a.set e.1 e.2) [] := by
  generalize ([] : Attributes) = m
  induction pairs generalizing m with
  | nil =>
    match extra, h with
    | [], _ => rfl
    | [_], _ => rfl
  | cons e l ih =>
    simp only [flatten, List.flatMap_cons, List.cons_append, List.nil_append, parsePairs, List.foldl_cons] at ih ⊢
    exact ih _

/-- The full property fails: an odd number of strings makes creation throw. -/
theorem C11_odd_violated (attrs : List Str) (m : Attributes) (h : attrs.length % 2 = 1) :
    parseVector m attrs = .throws := by
  match attrs with
  | [] => simp at h
  | [_] => rfl
  | k :: v :: r =>
    rw [parseVector]
    exact C11_odd_violated r _ (by simp at h; omega)

/-- A value that an XML parser reads back as itself: no quote, ampersand, less-than, tab or line end. -/
def PlainValue (v : Str) : Prop := ∀ c ∈ v, c ≠ '"' ∧ c ≠ '&' ∧ c ≠ '<' ∧ c ≠ '\t' ∧ c ≠ '\n' ∧ c ≠ '\r'

theorem decodeText_plain (v : Str) (h : ∀ c ∈ v, c ≠ '&' ∧ c ≠ '<') : Xml.decodeText v = some v := by
  induction v with
  | nil => rfl
  | cons c v ih =>
    simp only [List.mem_cons, forall_eq_or_imp] at h
    rw [Xml.decodeText, ih h.2]
    · rfl
    all_goals (intros; simp_all)

theorem decodeAttr_plain (v : Str) (h : PlainValue v) : Xml.decodeAttr v = some v := by
  have e : v.map Xml.normalizeSpace = v := by
    conv => rhs; rw [← List.map_id v]
    apply List.map_congr_left
    intro c hc
    obtain ⟨_, _, _, h1, h2, h3⟩ := h c hc
    simp [Xml.normalizeSpace, h1, h2, h3]
  rw [Xml.decodeAttr, e]
  exact decodeText_plain v fun c hc => ⟨(h c hc).2.1, (h c hc).2.2.1⟩

theorem takeWhile_stop {p : Char → Bool} {a r : Str} {c : Char} (ha : ∀ x ∈ a, p x = true) (hc : p c = false) :
    (a ++ c :: r).takeWhile p = a ∧ (a ++ c :: r).dropWhile p = c :: r := by
  induction a with
  | nil => simp [hc]
  | cons x a ih =>
    simp only [List.mem_cons, forall_eq_or_imp] at ha
    simp [ha.1, ih ha.2]

/-- The text written for attributes is read back as the same attributes, if no value contains a character
that XML gives a meaning to.  Missing from the full property: values with such characters, which are not
escaped. -/
theorem C11_serialize_partial (m : Attributes) (h : ∀ e ∈ m, '=' ∉ e.1 ∧ PlainValue e.2) :
    Xml.attrs (serialize m) = some m := by
  have key : ∀ (m : Attributes) (fuel : Nat), (∀ e ∈ m, '=' ∉ e.1 ∧ PlainValue e.2) → (serialize m).length ≤ fuel →
      Xml.readAttrs fuel (serialize m) = some m := by
    intro m
    induction m with
    | nil => intro fuel _ _; cases fuel <;> rfl
    | cons e m ih =>
      intro fuel h hl
      obtain ⟨k, v⟩ := e
      obtain ⟨hk, hv⟩ := h (k, v) (by simp)
      have e1 : serialize ((k, v) :: m) = ' ' :: (k ++ '=' :: ('"' :: (v ++ '"' :: serialize m))) := by
        simp [serialize]
      rw [e1] at hl ⊢
      obtain ⟨fuel, rfl⟩ : ∃ n, fuel = n + 1 := ⟨fuel - 1, by simp at hl; omega⟩
      have t1 := takeWhile_stop (p := (· ≠ '=')) (a := k) (c := '=') (r := '"' :: (v ++ '"' :: serialize m))
        (by intro x hx; simp; rintro rfl; exact hk hx) (by simp)
      have t2 := takeWhile_stop (p := (· ≠ '"')) (a := v) (c := '"') (r := serialize m)
        (by intro x hx; simpa using (hv x hx).1) (by simp)
      rw [Xml.readAttrs, if_neg (by simp)]
      simp only [t1.1, t1.2, t2.1, t2.2]
      rw [decodeAttr_plain v hv, ih fuel (fun e he => h e (by simp [he])) (by simp at hl; omega)]
  exact key m _ h (Nat.le_refl _)

example : Xml.attrs (serialize [("id".toList, "a b".toList), ("xmlns:gx".toList, "http://x".toList)])
    = some [("id".toList, "a b".toList), ("xmlns:gx".toList, "http://x".toList)] := by decide

/-- The full property fails: a double quote or an ampersand in a value is written as it is. -/
theorem C11_serialize_violated :
    Xml.attrs (serialize [("id".toList, "a\"b".toList)]) = none ∧
    Xml.attrs (serialize [("id".toList, "a&b".toList)]) = none ∧
    Xml.attrs (serialize [("id".toList, "&lt;".toList)]) = some [("id".toList, "<".toList)] := by decide

theorem decodeText_length (s t : Str) (h : Xml.decodeText s = some t) :
    t.length ≤ s.length ∧ (t.length = s.length → '&' ∉ s ∧ '<' ∉ s ∧ t = s) := by
  fun_induction Xml.decodeText s generalizing t
  case case1 => cases h; simp
  case case9 c s h1 h2 ih =>
    rw [Option.map_eq_some_iff] at h
    obtain ⟨u, hu, rfl⟩ := h
    obtain ⟨i1, i2⟩ := ih u hu
    refine ⟨by simpa using i1, fun hl => ?_⟩
    obtain ⟨j1, j2, j3⟩ := i2 (by simpa using hl)
    subst j3
    refine ⟨?_, ?_, rfl⟩
    · simp only [List.mem_cons, not_or]
      exact ⟨fun e => h1 e.symm, j1⟩
    · simp only [List.mem_cons, not_or]
      exact ⟨fun e => h2 e.symm, j2⟩
  all_goals first
    | (cases h; done)
    | (rename_i ih
       rw [Option.map_eq_some_iff] at h
       obtain ⟨u, hu, rfl⟩ := h
       obtain ⟨i1, -⟩ := ih u hu
       constructor
       · simp only [List.length_cons]; omega
       · intro hl; simp only [List.length_cons] at hl; omega)

theorem decodeAttr_length {s t : Str} (h : Xml.decodeAttr s = some t) : t.length ≤ s.length := by
  simpa using (decodeText_length _ _ h).1

theorem decodeAttr_self {v : Str} (h : Xml.decodeAttr v = some v) (hq : '"' ∉ v) : PlainValue v := by
  obtain ⟨h1, h2, h3⟩ := (decodeText_length _ _ h).2 (by simp)
  have hn : ∀ c ∈ v, Xml.normalizeSpace c = c := by
    have := h3.symm
    conv at this => rhs; rw [← List.map_id v]
    rw [List.map_inj_left] at this
    exact this
  rw [← h3] at h1 h2
  intro c hc
  have hh := hn c hc
  refine ⟨fun e => hq (e ▸ hc), fun e => h1 (e ▸ hc), fun e => h2 (e ▸ hc), ?_, ?_, ?_⟩ <;>
  · rintro rfl
    revert hh
    decide

/-- **C11, exactly.** Attributes whose names contain no equals sign are read back as they were if and only if
no value contains a double quote, an ampersand, a less-than sign, a tab or a line end. -/
theorem C11_exact (m : Attributes) (hk : ∀ e ∈ m, '=' ∉ e.1) :
    Xml.attrs (serialize m) = some m ↔ ∀ e ∈ m, PlainValue e.2 := by
  constructor
  · have key : ∀ (m : Attributes) (fuel : Nat), (∀ e ∈ m, '=' ∉ e.1) →
        Xml.readAttrs fuel (serialize m) = some m → ∀ e ∈ m, PlainValue e.2 := by
      intro m
      induction m with
      | nil => intro _ _ _ e he; cases he
      | cons e m ih =>
        intro fuel hk h
        obtain ⟨k, v⟩ := e
        have hk1 := hk (k, v) (by simp)
        have e1 : serialize ((k, v) :: m) = ' ' :: (k ++ '=' :: ('"' :: (v ++ '"' :: serialize m))) := by
          simp [serialize]
        rw [e1] at h
        have t1 := takeWhile_stop (p := (· ≠ '=')) (a := k) (c := '=') (r := '"' :: (v ++ '"' :: serialize m))
          (by intro x hx; simp; rintro rfl; exact hk1 hx) (by simp)
        cases fuel with
        | zero => cases h
        | succ fuel =>
          rw [Xml.readAttrs, if_neg (by simp)] at h
          simp only [t1.1, t1.2] at h
          by_cases hq : '"' ∈ v
          · exfalso
            obtain ⟨a, b, hv, ha⟩ := List.eq_append_cons_of_mem hq
            have t2 := takeWhile_stop (p := (· ≠ '"')) (a := a) (c := '"') (r := b ++ '"' :: serialize m)
              (by intro x hx; simp; rintro rfl; exact ha hx) (by simp)
            have e2 : v ++ '"' :: serialize m = a ++ '"' :: (b ++ '"' :: serialize m) := by rw [hv]; simp
            rw [e2] at h
            simp only [t2.1, t2.2] at h
            cases hd : Xml.decodeAttr a with
            | none => rw [hd] at h; cases h
            | some w =>
              rw [hd] at h
              cases hr : Xml.readAttrs fuel (b ++ '"' :: serialize m) with
              | none => rw [hr] at h; cases h
              | some rest =>
                rw [hr] at h
                simp only [Option.some.injEq, List.cons.injEq, Prod.mk.injEq, true_and] at h
                have := decodeAttr_length hd
                rw [h.1, hv] at this
                simp at this
                omega
          · have t2 := takeWhile_stop (p := (· ≠ '"')) (a := v) (c := '"') (r := serialize m)
              (by intro x hx; simp; rintro rfl; exact hq hx) (by simp)
            simp only [t2.1, t2.2] at h
            cases hd : Xml.decodeAttr v with
            | none => rw [hd] at h; cases h
            | some w =>
              rw [hd] at h
              cases hr : Xml.readAttrs fuel (serialize m) with
              | none => rw [hr] at h; cases h
              | some rest =>
                rw [hr] at h
                simp only [Option.some.injEq, List.cons.injEq, Prod.mk.injEq, true_and] at h
                obtain ⟨rfl, rfl⟩ := h
                intro e he
                rcases List.mem_cons.1 he with rfl | he
                · exact decodeAttr_self hd hq
                · exact ih fuel (fun e he => hk e (by simp [he])) hr e he
    exact key m _ hk
  · exact fun h => C11_serialize_partial m fun e he => ⟨hk e he, h e he⟩

example : ¬ Xml.attrs (serialize [("id".toList, "a\tb".toList)]) = some [("id".toList, "a\tb".toList)] := by
  rw [C11_exact _ (by decide)]
  exact fun h => (h ("id".toList, "a\tb".toList) (by simp) '\t' (by decide)).2.2.2.1 rfl

/-! ### C12 -/

/-- Splitting by a prefix: the new object holds exactly the attributes `prefix:rest`, named `rest`, and is
absent exactly when there are none; the old one keeps exactly the others. -/
theorem C12_split (ops : List Op) (pre : Str) :
    (∀ r, ((splitByPrefix (ops.foldl step []) pre).1.bind fun s => getValue s r)
        = getValue (ops.foldl step []) (pre ++ ':' :: r)) ∧
    (∀ r, getValue (splitByPrefix (ops.foldl step []) pre).2 (pre ++ ':' :: r) = none) ∧
    (∀ k, (∀ r, k ≠ pre ++ ':' :: r) →
        getValue (splitByPrefix (ops.foldl step []) pre).2 k = getValue (ops.foldl step []) k) ∧
    ((splitByPrefix (ops.foldl step []) pre).1 = none ↔
        ∀ r, getValue (ops.foldl step []) (pre ++ ':' :: r) = none) :=
  split_spec (reachable_sorted ops) pre

example : splitByPrefix [("a".toList, ['1']), ("xmlns".toList, ['2']), ("xmlns:gx".toList, ['3'])] "xmlns".toList
    = (some [("gx".toList, ['3'])], [("a".toList, ['1']), ("xmlns".toList, ['2'])]) := by decide

/-! ### C71: namespace prefixes -/

theorem findKey_some {m : Attributes} {v k : Str} (h : findKey m v = some k) : (k, v) ∈ m := by
  induction m with
  | nil => simp [findKey] at h
  | cons e m ih =>
    obtain ⟨k', v'⟩ := e
    rw [findKey] at h
    split at h
    · rename_i hv; cases h; simp [hv]
    · simp [ih h]

theorem findKey_none {m : Attributes} {v : Str} (h : findKey m v = none) (k : Str) : (k, v) ∉ m := by
  induction m with
  | nil => simp
  | cons e m ih =>
    obtain ⟨k', v'⟩ := e
    rw [findKey] at h
    split at h
    · cases h
    · rename_i hv
      simp only [List.mem_cons, Prod.mk.injEq, not_or, not_and]
      exact ⟨fun _ => hv, ih h⟩

/-- An element name reported by a namespace-aware XML parser as `uri|local` is handed on as `local` if the
uri is the default namespace, as `prefix:local` for a prefix declared for the uri if there is one, and
unchanged if the namespace is not declared. -/
theorem C71_translate (ops : List Op) (x : Xmlns) (hx : Xmlns.create (ops.foldl step []) = some x)
    (uri loc : Str) (huri : '|' ∉ uri) (hne : uri ≠ [])
    (hpre : getValue (ops.foldl step []) "xmlns:".toList = none) :
    (getValue (ops.foldl step []) "xmlns".toList = some uri →
      translatePrefixedName x '|' (uri ++ '|' :: loc) = loc) ∧
    (getValue (ops.foldl step []) "xmlns".toList ≠ some uri →
      (∃ p, getValue (ops.foldl step []) ("xmlns:".toList ++ p) = some uri ∧
        translatePrefixedName x '|' (uri ++ '|' :: loc) = p ++ ':' :: loc) ∨
      ((∀ p, getValue (ops.foldl step []) ("xmlns:".toList ++ p) ≠ some uri) ∧
        translatePrefixedName x '|' (uri ++ '|' :: loc) = uri ++ '|' :: loc)) := by
  obtain ⟨hsp, -, -, hnone⟩ := C12_split ops "xmlns".toList
  have hsorted : ∀ s, (splitByPrefix (ops.foldl step []) "xmlns".toList).1 = some s → StdMap.Sorted s := by
    intro s hs
    unfold splitByPrefix at hs
    simp only at hs
    split at hs
    · cases hs
    · cases hs
      have : ∀ (l : List (Str × Str)) (m : Attributes), StdMap.Sorted m →
          StdMap.Sorted (l.foldl (fun (a : Attributes) e => a.set (e.1.drop ("xmlns".toList.length + 1)) e.2) m) := by
        intro l
        induction l with
        | nil => intro m h; exact h
        | cons e l ih => intro m h; exact ih _ (StdMap.sorted_set h _ _)
      exact this _ [] StdMap.sorted_nil
  generalize ops.foldl step ([] : Attributes) = m at *
  have hxe : x = ⟨(getValue m "xmlns".toList).getD [], (splitByPrefix m "xmlns".toList).1⟩ := by
    unfold Xmlns.create clone at hx
    simp only at hx
    split at hx
    · cases hx; rfl
    · cases hx
  subst hxe
  have hfind : findFrom ['|'] (uri ++ '|' :: loc) = some uri.length := findFrom_single huri
  have hcol : ∀ p : Str, "xmlns:".toList ++ p = "xmlns".toList ++ ':' :: p := by intro p; rfl
  have hdrop : List.drop (uri.length + 1) (uri ++ '|' :: loc) = loc := by
    rw [← List.drop_drop, List.drop_left]; rfl
  refine ⟨?_, ?_⟩
  · intro hd
    rw [translatePrefixedName, hfind]
    simp only [List.take_left, hdrop, hd, Option.getD_some, if_true]
  · intro hd
    have hd' : (getValue m "xmlns".toList).getD [] ≠ uri := by
      cases hg : getValue m "xmlns".toList with
      | none => simpa using hne.symm
      | some d => intro h; simp at h; exact hd (by rw [hg, h])
    rw [translatePrefixedName, hfind]
    simp only [List.take_left, hdrop]
    rw [if_neg hd']
    cases hs : (splitByPrefix m "xmlns".toList).1 with
    | none =>
      right
      have hn := hnone.1 hs
      refine ⟨?_, by simp [Xmlns.getKey]⟩
      intro p; rw [hcol, hn p]; simp
    | some s =>
      rw [hs] at hsp
      simp only [Option.bind_some] at hsp
      simp only [Xmlns.getKey]
      rcases Option.eq_none_or_eq_some (findKey s uri) with hk | ⟨p, hk⟩
      · right
        refine ⟨?_, by simp [hk]⟩
        intro p hp
        rw [hcol, ← hsp p] at hp
        exact findKey_none hk p (StdMap.mem_of_get hp)
      · have hp : getValue m ("xmlns".toList ++ ':' :: p) = some uri := by
          rw [← hsp p]; exact StdMap.get_of_mem (hsorted s hs) (findKey_some hk)
        left
        refine ⟨p, by rw [hcol]; exact hp, ?_⟩
        have hpne : p ≠ [] := by
          rintro rfl
          rw [show "xmlns".toList ++ [':'] = "xmlns:".toList from rfl, hpre] at hp
          cases hp
        simp [hk, hpne]

example : translatePrefixedName ⟨"http://k".toList, some [("gx".toList, "http://g".toList)]⟩ '|' "http://g|Tour".toList
    = "gx:Tour".toList := by decide

/-- **C71, the declared namespaces.** There is an object for the namespaces exactly if a default namespace that is not
empty or some prefix is declared; its default is the value of `xmlns`, and the namespace of a prefix is the value of
`xmlns:prefix`, or empty if there is none. -/
theorem C71_namespaces (ops : List Op) :
    (Xmlns.create (ops.foldl step []) = none ↔
      (getValue (ops.foldl step []) "xmlns".toList).getD [] = [] ∧
      ∀ p, getValue (ops.foldl step []) ("xmlns:".toList ++ p) = none) ∧
    ∀ x, Xmlns.create (ops.foldl step []) = some x →
      x.default_ = (getValue (ops.foldl step []) "xmlns".toList).getD [] ∧
      ∀ p, x.getNamespace p = (getValue (ops.foldl step []) ("xmlns:".toList ++ p)).getD [] := by
  obtain ⟨hsp, -, -, hnone⟩ := C12_split ops "xmlns".toList
  have hcol : ∀ p : Str, "xmlns:".toList ++ p = "xmlns".toList ++ ':' :: p := by intro p; rfl
  generalize ops.foldl step ([] : Attributes) = m at *
  constructor
  · simp only [hcol, ← hnone]
    unfold Xmlns.create clone
    simp only
    split
    · rename_i h
      constructor
      · intro h'; cases h'
      · rintro ⟨h1, h2⟩
        rw [h1, h2] at h
        simp at h
    · rename_i h
      refine ⟨fun _ => ?_, fun _ => rfl⟩
      rw [not_or, Classical.not_not] at h
      exact ⟨h.1, by simpa using h.2⟩
  · intro x hx
    unfold Xmlns.create clone at hx
    simp only at hx
    split at hx
    · cases hx
      refine ⟨rfl, fun p => ?_⟩
      rw [hcol, ← hsp p]
      unfold Xmlns.getNamespace
      cases (splitByPrefix m "xmlns".toList).1 <;> rfl
    · cases hx

example : (Xmlns.create ([Op.set "xmlns:gx".toList ['g']].foldl step [])).map (fun x => (x.default_, x.getNamespace "gx".toList))
    = some ([], ['g']) := by decide

end Kml.Attributes
