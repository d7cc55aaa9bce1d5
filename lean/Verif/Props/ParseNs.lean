import Verif.Spec.ParseNs
import Verif.Spec.Numbers
import Verif.Lemmas.Find
import Verif.Model.Style

/-!
# C86: `ParseAtom` and `ParseNS` know elements by their namespaces
-/

namespace Kml.Dom

open Kml

variable {σ : Type}

theorem rename_chars (f : Str → Str) (s : Str) : (charEvents s).map (Ev.rename f) = charEvents s := by
  unfold charEvents
  rw [List.map_map]
  rfl

mutual

theorem restyle_events (φ : Str → Str) (f f' : Scope → Str → Str) (g : Scope → List (Str × Str) → List (Str × Str)) :
    ∀ (x : Xml) (b : Scope), x.Names (fun b name => φ (f b name) = f' b name) b →
      (x.restyle f g b).events.map (Ev.rename φ) = (x.restyle f' g b).events
  | .text s, b, _ => rename_chars φ s
  | .empty n a, b, h => by
    show [Ev.empty (φ (f (b.inside a) n)) _] = [Ev.empty _ _]
    rw [show φ (f (b.inside a) n) = _ from h]
  | .elem n a ks, b, h => by
    obtain ⟨h1, h2⟩ := h
    unfold Xml.restyle Xml.events
    rw [List.cons_append, List.map_cons, List.map_append, restyle_eventsOf φ f f' g ks _ h2]
    show Ev.start (φ (f (b.inside a) n)) _ :: (_ ++ [Ev.stop (φ (f (b.inside a) n))]) = _
    rw [h1]
    rfl

theorem restyle_eventsOf (φ : Str → Str) (f f' : Scope → Str → Str) (g : Scope → List (Str × Str) → List (Str × Str)) :
    ∀ (xs : List Xml) (b : Scope), NamesAll (fun b name => φ (f b name) = f' b name) b xs →
      (eventsOf (restyleAll f g b xs)).map (Ev.rename φ) = eventsOf (restyleAll f' g b xs)
  | [], _, _ => rfl
  | x :: xs, b, h => by
    obtain ⟨h1, h2⟩ := h
    show ((x.restyle f g b).events ++ eventsOf (restyleAll f g b xs)).map _ =
      (x.restyle f' g b).events ++ eventsOf (restyleAll f' g b xs)
    rw [List.map_append, restyle_events φ f f' g x b h1, restyle_eventsOf φ f f' g xs b h2]

end

mutual

theorem names_mono {P Q : Scope → Str → Prop} (h : ∀ b name, P b name → Q b name) :
    ∀ (x : Xml) (b : Scope), x.Names P b → x.Names Q b
  | .text _, _, _ => trivial
  | .empty _ _, _, hx => h _ _ hx
  | .elem _ _ ks, _, hx => ⟨h _ _ hx.1, namesAll_mono h ks _ hx.2⟩

theorem namesAll_mono {P Q : Scope → Str → Prop} (h : ∀ b name, P b name → Q b name) :
    ∀ (xs : List Xml) (b : Scope), NamesAll P b xs → NamesAll Q b xs
  | [], _, _ => trivial
  | x :: xs, b, hx => ⟨names_mono h x b hx.1, namesAll_mono h xs b hx.2⟩

end

theorem localOf_sub {c : Char} {name : Str} (h : c ∈ localOf name) : c ∈ name := by
  unfold localOf at h
  split at h
  · exact List.dropWhile_suffix _ |>.subset (List.mem_of_mem_drop h)
  · exact h

theorem afterLastBar_bar (u l : Str) (h : '|' ∉ l) : afterLastBar (u ++ '|' :: l) = l := by
  unfold afterLastBar
  rw [List.reverse_append, List.reverse_cons, List.append_assoc, List.takeWhile_append_of_pos]
  · simp
  · intro c hc
    have : c ≠ '|' := fun e => h (e ▸ List.mem_reverse.1 hc)
    simpa using this

theorem afterLastBar_none (l : Str) (h : '|' ∉ l) : afterLastBar l = l := by
  unfold afterLastBar
  rw [show l.reverse.takeWhile (· ≠ '|') = l.reverse from ?_, List.reverse_reverse]
  have := List.takeWhile_append_of_pos (p := fun c => decide (c ≠ '|')) (l₁ := l.reverse) (l₂ := []) (by
    intro c hc
    have : c ≠ '|' := fun e => h (e ▸ List.mem_reverse.1 hc)
    simpa using this)
  simpa using this

theorem atomXmlns_eq : atomXmlns = some ⟨kmlUri, some [(chars! "atom", atomUri)]⟩ := by
  have : atomXmlns.map (fun x => (x.default_, x.prefixMap)) = some (kmlUri, some [(chars! "atom", atomUri)]) := by
    decide +kernel
  cases h : atomXmlns with
  | none => rw [h] at this; cases this
  | some x =>
    rw [h] at this
    obtain ⟨d, m⟩ := x
    cases this
    rfl

/-- **C86, ParseAtom.** `ParseAtom` knows elements by their namespaces: it gives an element just if parsing gives that
element for the document in which every element has the name by which the library knows it, so that which prefixes a
document declares and uses makes no difference.  Missing from the full property: documents for which parsing gives no
element, as it stops at their root or below; for these `ParseAtom` is undefined (`C86_atom_violated`). -/
theorem C86_atom_partial (n : NumLib) (os : List (Observer σ)) (s s' : σ) (e : Elem) (x : Xml) (b : Scope)
    (hx : x.Names (fun b name => '|' ∉ name ∧ ∀ uri, b.uriOf name = some uri → '|' ∉ uri) b) :
    parseAtom n os s (x.expanded b).events = .ok (some e, s') ↔
      parseEvents n os s (x.restyle Scope.known Scope.attrs b).events = .ok (some e, s') := by
  suffices h : ((x.restyle Scope.expand Scope.attrs b).events.map
      (Ev.rename (Attributes.translatePrefixedName ⟨kmlUri, some [(chars! "atom", atomUri)]⟩ '|'))) =
        (x.restyle Scope.known Scope.attrs b).events by
    unfold parseAtom Xml.expanded parseEvents
    rw [atomXmlns_eq]
    dsimp only
    rw [h]
    cases (Handler.init s).run n os (x.restyle Scope.known Scope.attrs b).events with
    | throws => exact ⟨(fun h => nomatch h), (fun h => nomatch h)⟩
    | ub => exact ⟨(fun h => nomatch h), (fun h => nomatch h)⟩
    | ok h =>
      show (if h.stopped = true then Outcome.ub else .ok (h.popRoot, h.obs)) = _ ↔
        Outcome.ok (if h.stopped = true then none else h.popRoot, h.obs) = _
      split
      · exact ⟨(fun h => nomatch h), (fun h => by simp at h)⟩
      · exact Iff.rfl
  rw [restyle_events _ Scope.expand Scope.known Scope.attrs x b]
  refine names_mono ?_ x b hx
  intro b name h
  have hl : '|' ∉ localOf name := fun hm => h.1 (localOf_sub hm)
  unfold Scope.expand Scope.known
  cases hu : b.uriOf name with
  | none =>
    dsimp only
    unfold Attributes.translatePrefixedName
    rw [findFrom_single_none.2 hl]
  | some uri =>
    dsimp only
    unfold Attributes.translatePrefixedName
    rw [findFrom_single (h.2 uri hu)]
    dsimp only
    rw [List.take_left, show (uri ++ '|' :: localOf name).drop (uri.length + 1) = localOf name by
      rw [List.drop_append]; simp]
    by_cases hk : uri = kmlUri
    · rw [if_pos hk.symm, if_pos hk]
    · rw [if_neg (fun e => hk e.symm), if_neg hk]
      unfold Attributes.Xmlns.getKey
      dsimp only
      unfold Attributes.findKey
      by_cases ha : uri = atomUri
      · rw [if_pos ha, if_pos ha]
        rfl
      · rw [if_neg ha, if_neg ha]
        rfl

/-- **C86, ParseNS.** `ParseNS` goes by local names alone: it gives what parsing gives for the document without
prefixes. -/
theorem C86_local_partial (n : NumLib) (os : List (Observer σ)) (s : σ) (x : Xml) (b : Scope)
    (hx : x.Names (fun _ name => '|' ∉ name) b) :
    parseNs n os s (x.expanded b).events = parseEvents n os s (x.restyle (fun _ => localOf) Scope.attrs b).events := by
  unfold parseNs Xml.expanded
  rw [restyle_events afterLastBar Scope.expand (fun _ => localOf) Scope.attrs x b]
  refine names_mono ?_ x b hx
  intro b name h
  have hl : '|' ∉ localOf name := fun hm => h (localOf_sub hm)
  unfold Scope.expand
  split
  · exact afterLastBar_bar _ _ hl
  · exact afterLastBar_none _ hl

/-- **C86, ParseNS on KML.** So for a document in which every element is of KML, or in no namespace, `ParseNS` knows
elements by their namespaces, whatever prefix stands for KML. -/
theorem C86_kml_partial (n : NumLib) (os : List (Observer σ)) (s : σ) (x : Xml) (b : Scope)
    (hx : x.Names (fun b name => '|' ∉ name ∧ (b.uriOf name = some kmlUri ∨ b.uriOf name = none)) b) :
    parseNs n os s (x.expanded b).events = parseEvents n os s (x.restyle Scope.known Scope.attrs b).events := by
  unfold parseNs Xml.expanded
  rw [restyle_events afterLastBar Scope.expand Scope.known Scope.attrs x b]
  refine names_mono ?_ x b hx
  intro b name h
  have hl : '|' ∉ localOf name := fun hm => h.1 (localOf_sub hm)
  unfold Scope.expand Scope.known
  rcases h.2 with h | h
  · rw [h]
    dsimp only
    rw [if_pos rfl]
    exact afterLastBar_bar _ _ hl
  · rw [h]
    exact afterLastBar_none _ hl

/-- No declarations at all. -/
def noScope : Scope := fun _ => none

/-- An entry of a feed that holds a placemark, with prefixes of its own choosing. -/
def prefixed : Xml :=
  .elem (chars! "a:entry") [(chars! "xmlns:a", atomUri), (chars! "xmlns", kmlUri)]
    [.elem (chars! "a:title") [] [.text (chars! "t")],
     .elem (chars! "a:content") [(chars! "type", chars! "kml")] [.elem (chars! "Placemark") [] []]]

example : prefixed.Names (fun b name => '|' ∉ name ∧ ∀ uri, b.uriOf name = some uri → '|' ∉ uri) noScope := by
  refine ⟨⟨by decide, ?_⟩, ⟨⟨by decide, ?_⟩, trivial, trivial⟩, ⟨⟨by decide, ?_⟩, ⟨⟨by decide, ?_⟩, trivial⟩, trivial⟩, trivial⟩ <;>
    (intro uri h; cases h; decide)

/-- What `ParseAtom` makes of it: an entry with its title. -/
example : (match parseAtom NumLib.integers [] () (prefixed.expanded noScope).events with
    | .ok (some e, _) => some (e.ty, e.text M.«title»)
    | _ => none) = some (Ty.«AtomEntry», chars! "t") := by decide +kernel

theorem eq_ub {α : Type} {r : Outcome α} (h : (match r with | .ub => true | _ => false) = true) : r = .ub := by
  cases r with
  | ub => rfl
  | ok a => cases h
  | throws => cases h

/-- **C86 fails for `ParseAtom`: other documents.** For a text whose root is not known, as the page with which a server
tells of an error, parsing gives no element, but `ParseAtom` uses a pointer that was never written. -/
theorem C86_atom_violated :
    parseAtom NumLib.integers [] () ((Xml.empty (chars! "html") []).expanded noScope).events = .ub ∧
    (match parseEvents NumLib.integers [] () ((Xml.empty (chars! "html") []).restyle Scope.known Scope.attrs noScope).events with
      | .ok (none, _) => true
      | _ => false) = true := by
  exact ⟨eq_ub (by decide +kernel), by decide +kernel⟩

/-- **C86 fails for `ParseNS`: other namespaces.** `ParseNS` takes an element of any namespace for one of KML: here a
`Placemark` of a namespace that is not KML's.  By its namespace it is not known. -/
theorem C86_foreign_violated :
    (match parseNs NumLib.integers [] () ((Xml.empty (chars! "Placemark") [(chars! "xmlns", chars! "urn:other")]).expanded
        noScope).events with
      | .ok (some e, _) => some e.ty
      | _ => none) = some Ty.«Placemark» ∧
    (match parseEvents NumLib.integers [] () ((Xml.empty (chars! "Placemark") [(chars! "xmlns", chars! "urn:other")]).restyle
        Scope.known Scope.attrs noScope).events with
      | .ok (none, _) => true
      | _ => false) = true := by
  constructor <;> decide +kernel

/-- A placemark with an author. -/
def authored : Xml :=
  .elem (chars! "Placemark") [(chars! "xmlns", kmlUri), (chars! "xmlns:atom", atomUri)]
    [.elem (chars! "atom:author") [] []]

/-- **C86 fails for `ParseNS`: Atom.** The Atom elements of a KML document, which are known without namespaces by the
usual prefix, are not known to `ParseNS`. -/
theorem C86_author_violated :
    (match parseNs NumLib.integers [] () (authored.expanded noScope).events with
      | .ok (some e, _) => some (e.ty, (e.items M.«atomauthor»).length)
      | _ => none) = some (Ty.«Placemark», 0) ∧
    (match parseEvents NumLib.integers [] () (authored.restyle Scope.known Scope.attrs noScope).events with
      | .ok (some e, _) => some (e.ty, (e.items M.«atomauthor»).length)
      | _ => none) = some (Ty.«Placemark», 1) ∧
    (match parseEvents NumLib.integers [] () authored.events with
      | .ok (some e, _) => some (e.ty, (e.items M.«atomauthor»).length)
      | _ => none) = some (Ty.«Placemark», 1) := by
  refine ⟨?_, ?_, ?_⟩ <;> decide +kernel

end Kml.Dom
