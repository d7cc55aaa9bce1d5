import Verif.Model.ZipFile
import Verif.Props.StringUtil
/-! Properties C20 and C72: archive entries. -/
namespace Kml.ZipFile
open Kml.StringUtil

/-! #### Specification -/

def isSep (c : Char) : Bool := c = '/' || c = '\\'

/-- The components of a path, cut at each separator. -/
def components : Str → List Str
  | [] => [[]]
  | c :: s =>
    if isSep c then [] :: components s
    else match components s with
      | [] => [[c]]
      | h :: t => (c :: h) :: t

/-- Walking the components from a directory `depth` levels below the root leaves the root. -/
def leaves : Nat → List Str → Prop
  | _, [] => False
  | depth, c :: cs =>
    if c = ['.', '.'] then (match depth with | 0 => True | d + 1 => leaves d cs)
    else if c = [] ∨ c = ['.'] then leaves depth cs
    else leaves (depth + 1) cs

/-- A path that, unpacked below some directory, names something outside it: an absolute path or one that climbs
above the start. -/
def Escapes (path : Str) : Prop := (∃ c s, path = c :: s ∧ isSep c = true) ∨ leaves 0 (components path)

/-! #### C20 -/

theorem components_ne_nil (s : Str) : components s ≠ [] := by
  cases s with
  | nil => simp [components]
  | cons c s =>
    simp only [components]
    split
    · simp
    · split <;> simp

theorem not_leaves (d : Nat) (cs : List Str) (h : ['.', '.'] ∉ cs) : ¬ leaves d cs := by
  induction cs generalizing d with
  | nil => simp [leaves]
  | cons c cs ih =>
    simp only [List.mem_cons, not_or] at h
    simp only [leaves, if_neg (fun e => h.1 (Eq.symm e))]
    split
    · exact ih _ h.2
    · exact ih _ h.2

/-- The first component of a path that begins with `..` is the only one that can begin so. -/
theorem head_components (s : Str) (h : (components s).head? = some ['.', '.']) : s.take 2 = ['.', '.'] := by
  match s with
  | [] => simp [components] at h
  | [c] =>
    simp only [components] at h
    split at h <;> simp at h
  | c :: d :: s =>
    simp only [components] at h
    by_cases hc : isSep c
    · simp [hc] at h
    · by_cases hd : isSep d
      · simp [hc, hd] at h
      · simp only [hc, hd] at h
        cases hs : components s with
        | nil => exact absurd hs (components_ne_nil s)
        | cons a t => simp [hs] at h; simp [h]

/-- Absolute paths and paths that begin with `..` are refused, whatever the archive. -/
theorem C20_refused (w : Option (List Entry)) (data path : Str)
    (h : (∃ c s, path = c :: s ∧ isSep c = true) ∨ (∃ s, path = '.' :: '.' :: s)) :
    addEntry w data path = (false, w) := by
  have : pathRefused path = true := by
    rcases h with ⟨c, s, rfl, hc⟩ | ⟨s, rfl⟩
    · simp only [pathRefused, isSep] at *
      simp at hc ⊢
      exact Or.inl hc
    · simp [pathRefused]
  simp [addEntry, this]

/-- An accepted path whose later components are not `..` stays inside the archive directory.  Missing from the full
property: paths with `..` after the first component, which are accepted and may escape. -/
theorem C20_inside_partial (w : Option (List Entry)) (data path : Str) (hacc : (addEntry w data path).1 = true)
    (hlater : ['.', '.'] ∉ (components path).tail) : ¬ Escapes path := by
  have hr : pathRefused path = false := by
    cases h : pathRefused path
    · rfl
    · simp [addEntry, h] at hacc
  simp only [pathRefused, Bool.or_eq_false_iff, decide_eq_false_iff_not] at hr
  rintro (⟨c, s, rfl, hc⟩ | h)
  · simp [isSep] at hr hc
    rcases hc with h | h
    · exact hr.1.1 h
    · exact hr.1.2 h
  · refine not_leaves 0 _ ?_ h
    intro hm
    cases hcs : components path with
    | nil => exact components_ne_nil _ hcs
    | cons a t =>
      rw [hcs] at hm hlater
      simp only [List.tail_cons] at hlater
      rcases List.mem_cons.1 hm with hm | hm
      · exact hr.2 (head_components path (by rw [hcs, ← hm]; rfl))
      · exact hlater hm

example : (addEntry (some []) "x".toList "images/icon.png".toList).1 = true ∧
    ['.', '.'] ∉ (components "images/icon.png".toList).tail := by decide

/-- The full property fails: this path is accepted and climbs out of the archive directory. -/
theorem C20_violated : (addEntry (some []) "x".toList "a/../../x".toList).1 = true ∧ Escapes "a/../../x".toList := by
  refine ⟨by decide, Or.inr ?_⟩
  have : components "a/../../x".toList = [['a'], ['.', '.'], ['.', '.'], ['x']] := by decide
  rw [this]
  simp [leaves]

theorem write_eq (calls : List Entry) : write calls = some (calls.filter fun c => !pathRefused c.1) := by
  have : ∀ es : List Entry, calls.foldl (fun w c => (addEntry w c.2 c.1).2) (some es)
      = some (es ++ calls.filter fun c => !pathRefused c.1) := by
    induction calls with
    | nil => simp
    | cons c calls ih =>
      intro es
      simp only [List.foldl_cons]
      cases h : pathRefused c.1
      · have : (addEntry (some es) c.2 c.1).2 = some (es ++ [c]) := by simp [addEntry, h]
        rw [this, ih]
        simp [h]
      · have : (addEntry (some es) c.2 c.1).2 = some es := by simp [addEntry, h]
        rw [this, ih]
        simp [h]
  exact this []

/-- The table of contents lists exactly the names that were accepted, in the order of the calls. -/
theorem C20_toc (calls : List Entry) (es : List Entry) (h : write calls = some es) :
    getToc es = (calls.filter fun c => (addEntry (some []) c.2 c.1).1).map Prod.fst := by
  rw [write_eq] at h
  cases h
  unfold getToc
  congr 1
  apply List.filter_congr
  intro c _
  cases hr : pathRefused c.1 <;> simp [addEntry, hr]

/-- A file opened for reading accepts nothing and is unchanged. -/
theorem C20_read_only (data path : Str) : addEntry none data path = (false, none) := by
  unfold addEntry
  split <;> rfl

/-! #### C72 -/

/-- Reading an accepted, non-empty entry with a name below 256 characters gives the content that was added first
under that name, where letter case counts. -/
theorem C72_read_back_partial (max : Nat) (before after : List Entry) (path data : Str)
    (hfirst : ∀ e ∈ before, e.1 ≠ path) (hacc : (addEntry (some []) data path).1 = true)
    (hname : path.length < 256) (hsize : 1 ≤ data.length ∧ data.length ≤ max) :
    ∃ es z, write (before ++ (path, data) :: after) = some es ∧ openArchive es = some z ∧
      getEntry true max z path = some data := by
  have hr : pathRefused path = false := by
    cases h : pathRefused path
    · rfl
    · simp [addEntry, h] at hacc
  have hb : ∀ e ∈ before.filter (fun c => !pathRefused c.1), e.1 ≠ path :=
    fun e he => hfirst e (List.mem_filter.1 he).1
  refine ⟨_, (before ++ (path, data) :: after).filter fun c => !pathRefused c.1, write_eq _, ?_, ?_⟩
  · simp [openArchive, hr]
  · simp only [List.filter_append, List.filter_cons, hr, Bool.not_false, if_true]
    have hin : isInToc (before.filter (fun c => !pathRefused c.1) ++
        (path, data) :: after.filter (fun c => !pathRefused c.1)) path = true := by
      simp [isInToc, getToc]
    have hloc : locate true (before.filter (fun c => !pathRefused c.1) ++
        (path, data) :: after.filter (fun c => !pathRefused c.1)) path = some (path, data) := by
      simp only [locate, if_neg (Nat.not_le.2 hname), if_true]
      rw [List.find?_append, List.find?_eq_none.2 (by simpa using fun a b ha h => hb (a, b) (List.mem_filter.2 ⟨ha, by simpa using h⟩))]
      simp
    simp only [getEntry, hin, if_true, hloc]
    have h1 : data.length ≠ 0 := by omega
    have h2 : ¬ data.length > max := by omega
    simp [h1, h2]

/-- A name that was not accepted cannot be read. -/
theorem C72_absent (cs : Bool) (max : Nat) (calls : List Entry) (path : Str)
    (h : ∀ c ∈ calls, c.1 = path → (addEntry (some []) c.2 c.1).1 = false) :
    ∃ es, write calls = some es ∧ getEntry cs max es path = none ∧ isInToc es path = false := by
  refine ⟨_, write_eq _, ?_⟩
  have : isInToc (calls.filter fun c => !pathRefused c.1) path = false := by
    simp only [isInToc, getToc, List.any_eq_false, List.mem_map, List.mem_filter]
    rintro n ⟨c, ⟨hc, hr⟩, rfl⟩
    simp only [decide_eq_true_eq]
    intro he
    have := h c hc he
    simp only [Bool.not_eq_true'] at hr
    simp [addEntry, hr] at this
  exact ⟨by simp [getEntry, this], this⟩

/-- Looking for the first name with an extension gives the first name of the table of contents that ends so. -/
theorem C72_find_first (z : List Entry) (ext name : Str) (hne : ext ≠ []) :
    findFirstOf z ext = some name ↔
      ∃ front back, getToc z = front ++ name :: back ∧ ext <:+ name ∧ ∀ n ∈ front, ¬ ext <:+ n := by
  have hE : ∀ n, stringEndsWith n ext = true ↔ ext <:+ n := by
    intro n
    rw [C08_ends_with]
    constructor
    · exact fun h => h.2.2
    · intro h
      refine ⟨?_, hne, h⟩
      rintro rfl
      exact hne (List.eq_nil_of_suffix_nil h)
  unfold findFirstOf
  rw [List.find?_eq_some_iff_append]
  simp only [hE]
  constructor
  · rintro ⟨h1, f, b, h2, h3⟩
    exact ⟨f, b, h2, h1, fun n hn he => by have := h3 n hn; rw [(hE _).2 he] at this; cases this⟩
  · rintro ⟨f, b, h2, h1, h3⟩
    refine ⟨h1, f, b, h2, fun n hn => ?_⟩
    cases hh : stringEndsWith n ext
    · rfl
    · exact absurd ((hE _).1 hh) (h3 n hn)

example : write [("doc.kml".toList, "<kml/>".toList), ("../x".toList, "no".toList)]
    = some [("doc.kml".toList, "<kml/>".toList)] := by decide
example : findFirstOf [("a.png".toList, []), ("b.kml".toList, []), ("c.kml".toList, [])] ".kml".toList
    = some "b.kml".toList := by decide
example : (∀ e ∈ [("a.png".toList, "p".toList)], e.1 ≠ "doc.kml".toList) ∧
    (addEntry (some []) "<kml/>".toList "doc.kml".toList).1 = true ∧ 1 ≤ "<kml/>".toList.length ∧
    getEntry true 100 [("a.png".toList, "p".toList), ("doc.kml".toList, "<kml/>".toList)] "doc.kml".toList
      = some "<kml/>".toList := by decide

/-- The full property fails: an accepted empty entry cannot be read back. -/
theorem C72_empty_violated :
    (addEntry (some []) [] "empty.txt".toList).1 = true ∧
    (write [("empty.txt".toList, [])]).bind (fun es => (openArchive es).bind fun z => getEntry true 100 z "empty.txt".toList)
      = none := by decide

/-- The full property fails: an accepted entry with a name of 256 characters or more cannot be read back. -/
theorem C72_long_name_violated (max : Nat) (name data : Str) (h : 256 ≤ name.length) (z : List Entry) :
    getEntry true max ((name, data) :: z) name = none := by
  simp [getEntry, isInToc, getToc, locate, h]

/-- The full property fails on systems where the unzip library ignores letter case. -/
theorem C72_case_violated :
    getEntry false 100 [("A.kml".toList, "1".toList), ("a.kml".toList, "2".toList)] "a.kml".toList = some "1".toList := by
  decide

end Kml.ZipFile
