import Verif.Lemmas.Observers
import Verif.Spec.Numbers

/-!
# Properties of parser observers
-/

namespace Kml.Dom

open Kml

variable {σ : Type}

attribute [local irreducible] kml22Elements Xsd.tagToId classes inc dec uintSize

/-! ## C29 Parser observers see every element once -/

/-- **C29, starts and attachments.** Let observers of any behaviour write down the starts and attachments they
are told of.  If the parse gives a root, they were told exactly those of the document, in document
order, and each observer was told each of them once.

The full property is about every document; this leaves out old-style schemas and `description` inside unknown
elements, where it is false (`C29_description_violated`). -/
theorem C29_told_partial (n : NumLib) (os : List (Observer σ)) (s s' : σ) (log : List (Nat × Note))
    (name : Str) (attrs : List (Str × Str)) (ks : List Xml)
    (hold : (Xml.elem name attrs ks).All NotOldSchema) (htame : (Xml.elem name attrs ks).Tame) (e : Elem)
    (h : parseEvents n (recordingAll 0 os) (s, []) (Xml.elem name attrs ks).events = .ok (some e, s', log)) :
    log = (docNotes name ks).flatMap fun x => (List.range os.length).map fun i => (i, x) := by
  have := buildRoot_notes (buildRoot_of_parse hold htame h)
  simp only [List.nil_append, toldAll] at this
  rw [this, List.range_eq_range']
  rfl

/-- **C29, each observer.** So observer `i`'s own notes are the notes of the document. -/
theorem C29_each_partial (n : NumLib) (os : List (Observer σ)) (s s' : σ) (log : List (Nat × Note))
    (name : Str) (attrs : List (Str × Str)) (ks : List Xml)
    (hold : (Xml.elem name attrs ks).All NotOldSchema) (htame : (Xml.elem name attrs ks).Tame) (e : Elem)
    (h : parseEvents n (recordingAll 0 os) (s, []) (Xml.elem name attrs ks).events = .ok (some e, s', log))
    (i : Nat) (hi : i < os.length) :
    (log.filter fun p => p.1 = i).map (·.2) = docNotes name ks := by
  rw [C29_told_partial n os s s' log name attrs ks hold htame e h]
  have hone : ∀ x : Note, ((List.range os.length).map fun j => (j, x)).filter (fun p => p.1 = i) = [(i, x)] := by
    intro x
    rw [List.filter_map]
    have : (List.range os.length).filter ((fun p : Nat × Note => decide (p.1 = i)) ∘ fun j => (j, x)) = [i] := by
      have hc : ((fun p : Nat × Note => decide (p.1 = i)) ∘ fun j => (j, x)) = fun j => decide (j = i) := rfl
      rw [hc]
      generalize os.length = k at hi
      induction k with
      | zero => cases hi
      | succ k ih =>
        rw [List.range_succ, List.filter_append]
        by_cases hk : i = k
        · subst hk
          have : (List.range i).filter (fun j => decide (j = i)) = [] := by
            rw [List.filter_eq_nil_iff]
            intro a ha
            have := List.mem_range.1 ha
            simp only [decide_eq_true_eq]
            omega
          rw [this]
          simp
        · rw [ih (by omega)]
          have : ¬ k = i := fun h => hk h.symm
          simp [this]
    rw [this]
    rfl
  generalize docNotes name ks = xs
  induction xs with
  | nil => rfl
  | cons x xs ih =>
    rw [List.flatMap_cons, List.filter_append, List.map_append, ih, hone]
    rfl

/-- **C29, vetoes.** Let `ds` be the decisions of the observers, one for each known element that ended. If
the parse gives a root, it is the root of the document without the elements that were vetoed, and with
everything else. -/
theorem C29_veto_partial (n : NumLib) (os : List (Observer σ)) (s s' : σ) (ds : List Bool)
    (name : Str) (attrs : List (Str × Str)) (ks : List Xml)
    (hold : (Xml.elem name attrs ks).All NotOldSchema) (htame : (Xml.elem name attrs ks).Tame) (e : Elem)
    (h : parseEvents n [together os] (s, []) (Xml.elem name attrs ks).events = .ok (some e, s', ds)) :
    parseEvents n [] () (Xml.elem name attrs (pruneRoot name ks ds)).events = .ok (some e, ()) := by
  obtain ⟨ds', h1, h2⟩ := buildRoot_prune () (buildRoot_of_parse hold htame h)
  simp only [List.nil_append] at h1
  subst h1
  refine parse_of_buildRoot ?_ ?_ h2
  · refine ⟨hold.1, (allOf_iff _ _).2 ?_⟩
    unfold pruneRoot
    split
    · exact (allOf_iff _ _).1 hold.2
    · exact pruneOf_all _ ks _ hold.2
  · have := htame
    simp only [Xml.Tame, pruneRoot] at this ⊢
    by_cases hx : name = chars! "description"
    · simp only [if_pos hx]
    · simp only [if_neg hx] at this ⊢
      split
      · rename_i hk
        rw [if_pos hk] at this
        exact (tameAll_iff _).2 (pruneOf_tame ks _ this)
      · rename_i hk
        rw [if_neg hk] at this
        exact (allOf_iff _ _).2 (pruneOf_all _ ks _ this)

/-- **C29, vetoes, any number of observers.** Writing down the common decisions changes nothing: whatever a
parse with these observers gives, it also gives with them taken together. -/
theorem C29_together_partial (n : NumLib) (os : List (Observer σ)) (s s' : σ)
    (name : Str) (attrs : List (Str × Str)) (ks : List Xml)
    (hold : (Xml.elem name attrs ks).All NotOldSchema) (htame : (Xml.elem name attrs ks).Tame) (e : Elem)
    (h : parseEvents n os s (Xml.elem name attrs ks).events = .ok (some e, s')) :
    ∃ ds, parseEvents n [together os] (s, []) (Xml.elem name attrs ks).events = .ok (some e, s', ds) ∧
      parseEvents n [] () (Xml.elem name attrs (pruneRoot name ks ds)).events = .ok (some e, ()) := by
  obtain ⟨ds, hds⟩ := buildRoot_together (l := []) (buildRoot_of_parse hold htame h)
  have := parse_of_buildRoot hold htame hds
  exact ⟨ds, this, C29_veto_partial n os s s' ds name attrs ks hold htame e this⟩

/-- An observer that keeps `Point`s out and answers yes to everything else. -/
def noPoints : Observer Unit where
  new s _ := (true, s)
  endElement s _ c := (c.ty != Ty.«Point», s)
  addChild s _ _ := (true, s)

/-- `<Folder><Placemark><name>x</name><Point/></Placemark><Placemark/></Folder>` -/
def twoPlacemarks : List Xml :=
  [.elem (chars! "Placemark") [] [.elem (chars! "name") [] [.text (chars! "x")], .empty (chars! "Point") []],
    .empty (chars! "Placemark") []]

/-- What the parse wrote down, if it gave a root. -/
def written {α : Type} (r : Outcome (Option Elem × Unit × α)) : Option α :=
  match r with
  | .ok (some _, _, l) => some l
  | _ => none

example : written (parseEvents NumLib.integers [together [noPoints, noPoints]] ((), [])
    (Xml.elem (chars! "Folder") [] twoPlacemarks).events) = some [true, false, true, true] := by decide +kernel

example : (written (parseEvents NumLib.integers (recordingAll 0 [noPoints, noPoints]) ((), [])
    (Xml.elem (chars! "Folder") [] twoPlacemarks).events)).map (·.length) = some 18 := by decide +kernel

example : (Xml.elem (chars! "Folder") [] twoPlacemarks).All NotOldSchema ∧
    (Xml.elem (chars! "Folder") [] twoPlacemarks).Tame := by
  have h : isKnown (chars! "Folder") = true ∧ isKnown (chars! "Placemark") = true ∧
    isKnown (chars! "name") = true := by decide +kernel
  obtain ⟨h1, h2, h3⟩ := h
  exact ⟨by simp [twoPlacemarks, Xml.All, AllOf, NotOldSchema],
    by simp [twoPlacemarks, Xml.Tame, TameAll, h1, h2, h3]⟩

/-- The content pruned of the `Point`. -/
example : (match pruneRoot (chars! "Folder") twoPlacemarks [true, false, true, true] with
    | [.elem _ _ [.elem m _ _], .empty p _] => m = chars! "name" ∧ p = chars! "Placemark"
    | _ => False) := by
  have h : isKnown (chars! "Folder") = true ∧ isKnown (chars! "Placemark") = true ∧
    isKnown (chars! "name") = true ∧ isKnown (chars! "Point") = true := by decide +kernel
  obtain ⟨h1, h2, h3, h4⟩ := h
  simp [pruneRoot, twoPlacemarks, pruneOf, Xml.prune, keepIf, h2, h3, h4]

/-- **C29 fails** after a `description` in a `description` in an unknown element: the second `Placemark` of
this `Folder` is attached to the first. -/
theorem C29_description_violated :
    let doc := [Xml.elem (chars! "foo") [] [.elem (chars! "description") [] [.empty (chars! "description") []]],
      Xml.elem (chars! "Placemark") [] [.elem (chars! "description") [] [.text (chars! "d")]],
      Xml.empty (chars! "Placemark") []]
    (written (parseEvents NumLib.integers (recordingAll 0 [noPoints]) ((), [])
      (Xml.elem (chars! "Folder") [] doc).events)).map (fun l => (l.map (·.2)).filter fun x => x matches .attach ..) =
        some [.attach Ty.«Placemark» Ty.«description», .attach Ty.«Placemark» Ty.«Placemark»,
          .attach Ty.«Folder» Ty.«Placemark»] := by
  decide +kernel

end Kml.Dom
