import Verif.Model.Kmz
import Verif.Props.Uri
import Verif.Props.NetCache
import Verif.Props.ZipFile
/-! Properties C46 and C47: fetching from archives and filling them. -/
namespace Kml.Kmz
open Kml.Uri Kml.ZipFile Kml.NetCache

/-! #### C46 -/

/-- How the target of a URI is looked for next, when the archive does not have it. -/
def next (lib : UriLib) (u : KmlUri) : Option KmlUri := createRelative lib u.kmzUrl u.target

/-- Retrying ends after at most `n` steps: at a URI that cannot be made or that is not in an archive. -/
def Settles (lib : UriLib) : Nat → KmlUri → Prop
  | 0, u => u.isKmz = false
  | n + 1, u => u.isKmz = false ∨ ∀ v, next lib u = some v → Settles lib n v

theorem settles_fetch (lib : UriLib) (w : World) : ∀ (n : Nat) (s : KState) (u : KmlUri), Settles lib n u →
    (doFetch lib w (n + 1) s u).isSome = true
  | 0, s, u, h => by
    simp only [Settles] at h
    simp [doFetch, h]
  | n + 1, s, u, h => by
    simp only [Settles] at h
    unfold doFetch
    split
    · rfl
    · rename_i hk
      rcases h with h | h
      · exact absurd h hk
      · simp only
        split
        · rfl
        · split
          · rfl
          · split
            · rfl
            · rename_i v hv
              simp only [Option.isSome_map]
              exact settles_fetch lib w n _ v (h v hv)

/-- The targets that name something relative: without `.kmz`, and resolved by replacing a tail of the base from a `/`
on by a tail of the target (RFC 3986, 5.2.3 and 5.2.4, with any number of `..`). -/
def RelativeTarget (lib : UriLib) (target : Str) : Prop :=
  ¬ ".kmz".toList <:+: target ∧
  ∀ base url f, lib.resolve base target = some url → fetchableUri lib url = some f →
    ∃ p q, f = p ++ q ∧ p <+: base ∧ (p = [] ∨ p.getLast? = some '/') ∧ q <:+ target

theorem createRelative_some {lib : UriLib} {base target : Str} {u : KmlUri} (h : createRelative lib base target = some u) :
    u.target = target ∧ ∃ url f, lib.resolve base target = some url ∧ fetchableUri lib url = some f ∧
      (u.isKmz = true → kmzSplit f = .ok (some (u.kmzUrl, u.pathInKmz))) := by
  unfold createRelative at h
  split at h
  · rename_i url _ hr
    split at h
    · cases h
    · rename_i f hf
      split at h
      · rename_i r hk
        cases h
        exact ⟨rfl, url, f, hr, hf, fun _ => hk⟩
      · cases h
        exact ⟨rfl, url, f, hr, hf, fun hk => by cases hk⟩
  · cases h

/-- A text with `.kmz` in `p ++ q`, where `p` ends with `/`, has it in `p` or in `q`. -/
theorem kmz_infix_split {p q : Str} (hp : p = [] ∨ p.getLast? = some '/') (h : dotKmz <:+: p ++ q) :
    dotKmz <:+: p ∨ dotKmz <:+: q := by
  rcases hp with rfl | hp
  · right; simpa using h
  · obtain ⟨a, b, e⟩ := h
    rw [List.append_assoc, List.append_eq_append_iff] at e
    rcases e with ⟨c, e1, e2⟩ | ⟨c, e1, e2⟩
    · -- the pattern begins inside p
      rw [List.append_eq_append_iff] at e2
      rcases e2 with ⟨d, e3, e4⟩ | ⟨d, e3, e4⟩
      · left
        exact ⟨a, d, by rw [e1, e3]; simp⟩
      · -- it straddles: p ends inside the pattern
        cases d with
        | nil =>
          left
          simp only [List.append_nil] at e3
          exact ⟨a, [], by rw [e1, ← e3]; simp⟩
        | cons x d =>
          cases c with
          | nil => right; exact ⟨[], b, by simpa [e3] using e4.symm⟩
          | cons y c =>
            exfalso
            have hl : (y :: c).getLast? = some '/' := by
              rw [e1] at hp
              simpa [List.getLast?_append] using hp
            have hm : '/' ∈ dotKmz := by
              rw [e3]
              exact List.mem_append_left _ (List.mem_of_getLast? hl)
            simp [dotKmz] at hm
    · right
      exact ⟨c, b, by rw [e2]; simp⟩

/-- For a relative target the retry leaves the archive. -/
theorem relative_settles (lib : UriLib) (base target : Str) (h : RelativeTarget lib target) (u : KmlUri)
    (hu : createRelative lib base target = some u) : Settles lib 1 u := by
  obtain ⟨ht, url, f, hr, hf, hk⟩ := createRelative_some hu
  cases hkm : u.isKmz with
  | false => exact .inl hkm
  | true =>
    right
    intro v hv
    simp only [Settles]
    unfold next at hv
    rw [ht] at hv
    obtain ⟨_, url2, f2, hr2, hf2, hk2⟩ := createRelative_some hv
    cases hvk : v.isKmz with
    | false => rfl
    | true =>
      exfalso
      obtain ⟨_, a, ha, hfirst⟩ := C45_split _ _ _ (hk hkm)
      have hin : ".kmz".toList <:+: f2 := by
        obtain ⟨_, b, hb, _⟩ := C45_split _ _ _ (hk2 hvk)
        rcases (C45_split _ _ _ (hk2 hvk)).1 with ⟨e, _⟩ | ⟨c, e⟩
        · exact ⟨b, [], by rw [e, hb]; simp⟩
        · exact ⟨b, c :: v.pathInKmz, by rw [e, hb]⟩
      obtain ⟨p, q, e, hpre, hend, hq⟩ := h.2 _ _ _ hr2 hf2
      rw [e] at hin
      rcases kmz_infix_split hend hin with hin | hin
      · -- `p` is a proper prefix of the archive URL, whose only `.kmz` is its end
        obtain ⟨x, y, exy⟩ := hin
        obtain ⟨z, ez⟩ := hpre
        have hzne : z ≠ [] := by
          rintro rfl
          rw [List.append_nil] at ez
          rcases hend with hend | hend
          · rw [hend] at exy
            simp [dotKmz] at exy
          · have hz : (a ++ ".kmz".toList).getLast? = some 'z' := by
              rw [List.getLast?_append]; rfl
            rw [ez, ha, hz] at hend
            exact absurd hend (by decide)
        have hxl : x.length < a.length := by
          have h1 : (x ++ dotKmz ++ y ++ z).length = (a ++ ".kmz".toList).length := by rw [exy, ez, ← ha]
          simp only [List.length_append] at h1
          have h2 : ".kmz".toList.length = dotKmz.length := rfl
          have h3 := List.length_pos_iff.2 hzne
          omega
        apply hfirst x.length hxl
        have hpf : ∃ t, f = u.kmzUrl ++ t := by
          rcases (C45_split _ _ _ (hk hkm)).1 with ⟨e, _⟩ | ⟨c, e⟩
          · exact ⟨[], by simp [e]⟩
          · exact ⟨_, e⟩
        obtain ⟨t, et⟩ := hpf
        rw [et, ← ez, ← exy]
        simp only [List.append_assoc, List.drop_left']
        exact ⟨_, rfl⟩
      · exact h.1 (hin.trans hq.isInfix)

/-- Fetching data relative to a base ends for every relative target, base, network, archive content and state of the
caches, after looking at two places at most.  Missing: targets that name an archive, for which this is false. -/
theorem C46_terminates_partial (lib : UriLib) (w : World) (s : KState) (base target : Str) (h : RelativeTarget lib target) :
    (fetchDataRelative lib w 2 s base target).isSome = true := by
  unfold fetchDataRelative
  split
  · rfl
  · rename_i u hu
    have := settles_fetch lib w 1 s u (relative_settles lib base target h u hu)
    simpa using this

/-- A library that resolves by replacing what follows the last `/` of the base. -/
def mergeLib : UriLib where
  parse u := some ⟨[], [], [], u⟩
  resolve base t := some ((base.reverse.dropWhile (· ≠ '/')).reverse ++ t)

/-- With it, a file name is a relative target. -/
example : RelativeTarget mergeLib "pretty.jpg".toList := by
  refine ⟨findFrom_not_infix (by decide), ?_⟩
  intro base url f hr hf
  simp only [mergeLib, Option.some.injEq] at hr
  subst hr
  simp only [fetchableUri, mergeLib, ne_eq, not_true, false_and, if_false, List.nil_append, Option.some.injEq] at hf
  refine ⟨(base.reverse.dropWhile (· ≠ '/')).reverse, "pretty.jpg".toList, hf.symm, ?_, ?_, List.suffix_refl _⟩
  · have := List.reverse_prefix.2 (List.dropWhile_suffix (· ≠ '/') (l := base.reverse))
    simpa using this
  · cases h : base.reverse.dropWhile (· ≠ '/') with
    | nil => left; rfl
    | cons c t =>
      right
      have := List.head_dropWhile_not (· ≠ '/') (l := base.reverse) (by rw [h]; simp)
      simp only [h, List.head_cons] at this
      simp only [ne_eq, decide_not, Bool.not_eq_false', decide_eq_true_eq] at this
      simp [this]

/-- The same for KML files. -/
theorem C46_kml_terminates_partial {F : Type} (lib : UriLib) (w : World) (mk : Str → Str → Option F) (s : KState) (files : Cache F)
    (base target : Str) (h : RelativeTarget lib target) :
    (fetchKmlRelative lib w mk 2 s files base target).isSome = true := by
  unfold fetchKmlRelative
  split
  · rfl
  · rename_i u hu
    have := settles_fetch lib w 1 s u (relative_settles lib base target h u hu)
    split
    · rfl
    · split
      · rename_i e; simp [e] at this
      · rfl
      · split <;> rfl

/-- A target whose resolution leaves the archives after `n` retries terminates as well. -/
theorem C46_settles_partial (lib : UriLib) (w : World) (n : Nat) (s : KState) (u : KmlUri) (h : Settles lib n u) :
    (doFetch lib w (n + 1) s u).isSome = true := settles_fetch lib w n s u h

/-- After a successful fetch of an archive it can be looked up. -/
theorem fetch_lookUp {α : Type} (net : Str → Option Str) (mk : Str → Option α) (c : Cache α) (url : Str) (i : α)
    (h : (fetch net mk c url).1 = some i) : lookUp (fetch net mk c url).2.1 url = some i := by
  unfold fetch at h ⊢
  cases hl : lookUp c url with
  | some j => simpa [hl] using h
  | none =>
    simp only [hl] at h ⊢
    cases hn : net url with
    | none => simp [hn] at h
    | some data =>
      simp only [hn] at h ⊢
      obtain ⟨s1, s2⟩ := C14_save_lookup c url (mk data) hl
      simp only [s1, if_true] at h ⊢
      rw [s2, h]

/-- Fetching never ends when the target names a file in an archive by an absolute URL (or otherwise resolves against
the archive to the same place), the archive can be fetched, and it has no such file. -/
theorem C46_diverges (lib : UriLib) (w : World) (u : KmlUri) (hk : u.isKmz = true) (hsame : next lib u = some u)
    (hpath : u.pathInKmz ≠ []) (z : List Entry) (hmiss : getEntry w.caseCounts w.max z u.pathInKmz = none) :
    ∀ (fuel : Nat) (s : KState), (fetch w.net w.openKmz s.kmz u.kmzUrl).1 = some z → doFetch lib w fuel s u = none := by
  intro fuel
  induction fuel with
  | zero => intro s _; rfl
  | succ fuel ih =>
    intro s hs
    have hl := fetch_lookUp _ _ _ _ _ hs
    have hsame' : createRelative lib u.kmzUrl u.target = some u := hsame
    simp only [doFetch, hk, hs, Bool.true_eq_false, if_false, hsame', fetchFromCache, hl, hpath, ne_eq, not_false_eq_true,
      if_true, hmiss, Option.map_none]
    rw [ih _ (by simp only; rw [C14_fetch_cached _ _ _ _ _ hl])]
    rfl

/-- A library that resolves absolute URLs as RFC 3986 does: to themselves. -/
def absLib : UriLib where
  parse u := some ⟨[], [], [], u⟩
  resolve _ t := some t

/-- An archive with one file. -/
def oneWorld : World where
  net := fun u => if u = "http://h/a.kmz".toList then some ['P'] else none
  openKmz := fun _ => some [(['x'], ['y'])]
  max := 100

/-- Concretely: asking for another file of that archive by its absolute URL never ends. -/
theorem C46_violated (fuel : Nat) :
    fetchDataRelative absLib oneWorld fuel ⟨init 5, init 5⟩ "http://h/base.kml".toList "http://h/a.kmz/missing.kml".toList = none := by
  have hu : ∀ base, createRelative absLib base "http://h/a.kmz/missing.kml".toList
      = some ⟨true, "http://h/a.kmz/missing.kml".toList, "http://h/a.kmz/missing.kml".toList, "http://h/a.kmz".toList, "missing.kml".toList⟩ := by
    intro base
    have h : kmzSplit "http://h/a.kmz/missing.kml".toList = .ok (some ("http://h/a.kmz".toList, "missing.kml".toList)) := by decide
    simp only [createRelative, absLib, fetchableUri, ne_eq, not_true, false_and, if_false, List.nil_append, h]
  have hf : (fetch oneWorld.net oneWorld.openKmz (init 5) "http://h/a.kmz".toList).1 = some [(['x'], ['y'])] := by decide
  have hm : getEntry oneWorld.caseCounts oneWorld.max [(['x'], ['y'])] "missing.kml".toList = none := by decide
  have hd := C46_diverges absLib oneWorld ⟨true, "http://h/a.kmz/missing.kml".toList, "http://h/a.kmz/missing.kml".toList,
    "http://h/a.kmz".toList, "missing.kml".toList⟩ rfl (hu _) (by decide) _ hm fuel ⟨init 5, init 5⟩ hf
  simp only [fetchDataRelative, hu, hd, Option.map_none]

/-- What is fetched: a file that the archive has is read from it, at the URL asked for. -/
theorem C46_inside (lib : UriLib) (w : World) (n : Nat) (s : KState) (u : KmlUri) (hk : u.isKmz = true) (z : List Entry)
    (hz : (fetch w.net w.openKmz s.kmz u.kmzUrl).1 = some z) (hp : u.pathInKmz ≠ []) (c : Str)
    (hc : getEntry w.caseCounts w.max z u.pathInKmz = some c) :
    ∃ s', doFetch lib w (n + 1) s u = some (some (c, u.url), s') := by
  have hl := fetch_lookUp _ _ _ _ _ hz
  simp [doFetch, hk, hz, fetchFromCache, hl, hp, hc]

/-- An archive alone stands for its first KML file, and the URL is completed by its name. -/
theorem C46_default (lib : UriLib) (w : World) (n : Nat) (s : KState) (u : KmlUri) (hk : u.isKmz = true) (z : List Entry)
    (hz : (fetch w.net w.openKmz s.kmz u.kmzUrl).1 = some z) (hp : u.pathInKmz = []) (name c : Str)
    (hn : findFirstOf z ".kml".toList = some name) (hc : getEntry w.caseCounts w.max z name = some c) :
    ∃ s', doFetch lib w (n + 1) s u = some (some (c, u.kmzUrl ++ "/".toList ++ name), s') := by
  have hl := fetch_lookUp _ _ _ _ _ hz
  have hs : "/".toList = ['/'] := rfl
  rw [hs]
  have hr : readKmlAndGetPath w z = some (c, name) := by
    unfold readKmlAndGetPath
    rw [hn]
    simp [hc]
  simp [doFetch, hk, hz, fetchFromCache, hl, hp, hr, KmlUri.setPathInKmz]

/-- A file that the archive does not have is fetched beside the archive. -/
theorem C46_beside (lib : UriLib) (w : World) (n : Nat) (s : KState) (u v : KmlUri) (hk : u.isKmz = true) (z : List Entry)
    (hz : (fetch w.net w.openKmz s.kmz u.kmzUrl).1 = some z) (hp : u.pathInKmz ≠ [])
    (hc : getEntry w.caseCounts w.max z u.pathInKmz = none) (hv : createRelative lib u.kmzUrl u.target = some v)
    (hvk : v.isKmz = false) :
    ∃ s', doFetch lib w (n + 2) s u = some (((fetch w.net some s.mem v.url).1).map fun c => (c, v.url), s') := by
  have hl := fetch_lookUp _ _ _ _ _ hz
  simp [doFetch, hk, hz, fetchFromCache, hl, hp, hc, hv, hvk]
  cases (fetch w.net some s.mem v.url).1 <;> simp

/-- Without archive the file itself is fetched. -/
theorem C46_plain (lib : UriLib) (w : World) (n : Nat) (s : KState) (u : KmlUri) (hk : u.isKmz = false) :
    ∃ s', doFetch lib w (n + 1) s u = some (((fetch w.net some s.mem u.url).1).map fun c => (c, u.url), s') := by
  simp [doFetch, hk]

/-- The address of a file: scheme, host, port if there is one, and path. -/
def address (scheme host : Str) (port : Option Str) (path : Str) : Str :=
  scheme ++ "://".toList ++ host ++ ((port.map fun p => ':' :: p).getD []) ++ "/".toList ++ path

/-- Where an archive is fetched from: if the target resolves to a URL with a scheme and a host, the URL of the archive
and the path in it make up the address of the target, port included; the archive's part ends with the first `.kmz` of
the address; without `.kmz` the target is not in an archive. -/
theorem C46_address (lib : UriLib) (base target : Str) (u : KmlUri) (hu : createRelative lib base target = some u)
    (parts : Parts) (hp : lib.parse u.url = some parts) (hs : parts.scheme ≠ []) (hh : parts.host ≠ [])
    (port : Option Str) (hport : (port = none ∧ parts.port = []) ∨ (port = some parts.port ∧ parts.port ≠ [])) :
    lib.resolve base target = some u.url ∧
    (u.isKmz = true ↔ ".kmz".toList <:+: address parts.scheme parts.host port parts.path) ∧
    (u.isKmz = true → ((address parts.scheme parts.host port parts.path = u.kmzUrl ∧ u.pathInKmz = []) ∨
        ∃ c, address parts.scheme parts.host port parts.path = u.kmzUrl ++ c :: u.pathInKmz) ∧
      ∃ a, u.kmzUrl = a ++ ".kmz".toList ∧
        ∀ j < a.length, ¬ ".kmz".toList <+: (address parts.scheme parts.host port parts.path).drop j) := by
  have hf : fetchableUri lib u.url = some (address parts.scheme parts.host port parts.path) := by
    unfold fetchableUri address
    rw [hp]
    dsimp only
    rw [if_pos ⟨hs, hh⟩]
    rcases hport with ⟨rfl, he⟩ | ⟨rfl, he⟩
    · rw [if_neg (by simpa using he)]; rfl
    · rw [if_pos he]; rfl
  unfold createRelative at hu
  split at hu
  · rename_i url _ hr
    split at hu
    · cases hu
    · rename_i f hf'
      split at hu
      · rename_i r hk
        cases hu
        rw [hf] at hf'
        cases hf'
        have h45 := C45_split _ _ _ hk
        refine ⟨hr, ⟨fun _ => ?_, fun _ => rfl⟩, fun _ => h45⟩
        obtain ⟨a, ha, _⟩ := h45.2
        rcases h45.1 with ⟨e, _⟩ | ⟨c, e⟩
        · exact ⟨a, [], by rw [e, ha]; simp⟩
        · exact ⟨a, c :: r.2, by rw [e, ha]⟩
      · rename_i hk
        cases hu
        rw [hf] at hf'
        cases hf'
        refine ⟨hr, ⟨(fun h => nomatch h), fun h => ?_⟩, (fun h => nomatch h)⟩
        exfalso
        rcases kmzSplit_spec (address parts.scheme parts.host port parts.path) with ⟨hn, _⟩ | ⟨a, b, e, m, h'⟩
        · exact hn h
        · exact hk _ h'
  · cases hu

/-- A library that takes apart one address. -/
def portLib : UriLib where
  parse u := if u = "a.kml".toList then some ⟨[], [], [], u⟩
    else some ⟨"http".toList, "h".toList, "80".toList, "d/b.kmz/a.kml".toList⟩
  resolve _ _ := some "http://h:80/d/b.kmz/a.kml".toList

/-- A target that meets the hypotheses. -/
example : (createRelative portLib "http://h:80/d/b.kmz/c.kml".toList "a.kml".toList).map (fun u => (u.kmzUrl, u.pathInKmz)) =
    some ("http://h:80/d/b.kmz".toList, "a.kml".toList) := by decide +kernel

/-! #### C47 -/

/-- The name under which a reference is archived: its path, normalised, unless that leads out of the directory. -/
def archiveName (norm : Str → Option Str) (href : Str) : Option Str :=
  match Uri.parse href with
  | .ok h => match norm h.path with
    | some n => if n.take 2 = ['.', '.'] then none else some n
    | none => none
  | _ => none

/-- The file of that name can be read and the name may stand in an archive. -/
def Archivable (disk : Str → Option Str) (base n d : Str) : Prop :=
  disk (StringUtil.joinPaths base n) = some d ∧ pathRefused n = false

theorem addFileList_spec (norm disk : Str → Option Str) (base : Str) (hrefs : List Str) :
    ∀ (stored : List Str) (es : List Entry), ∃ (new : List Entry) (names : List Str),
      addFileList norm disk base hrefs stored (some es) =
        ((hrefs.filter fun h => (archiveName norm h).isNone).length + (names.filter fun n => decide (n ∉ new.map Prod.fst)).length,
          some (es ++ new)) ∧
      names.Nodup ∧ (∀ n, n ∈ names ↔ n ∉ stored ∧ ∃ h ∈ hrefs, archiveName norm h = some n) ∧
      (new.map Prod.fst).Nodup ∧ (∀ e, e ∈ new ↔ e.1 ∈ names ∧ Archivable disk base e.1 e.2) := by
  induction hrefs with
  | nil => intro stored es; exact ⟨[], [], by simp [addFileList]⟩
  | cons h rest ih =>
    intro stored es
    obtain ⟨u, hu⟩ := C44_never_throws h
    -- a reference without a name
    have bad : archiveName norm h = none →
        addFileList norm disk base (h :: rest) stored (some es)
          = ((addFileList norm disk base rest stored (some es)).1 + 1, (addFileList norm disk base rest stored (some es)).2) →
        ∃ (new : List Entry) (names : List Str),
      addFileList norm disk base (h :: rest) stored (some es) =
        (((h :: rest).filter fun h => (archiveName norm h).isNone).length + (names.filter fun n => decide (n ∉ new.map Prod.fst)).length,
          some (es ++ new)) ∧
      names.Nodup ∧ (∀ n, n ∈ names ↔ n ∉ stored ∧ ∃ h' ∈ h :: rest, archiveName norm h' = some n) ∧
      (new.map Prod.fst).Nodup ∧ (∀ e, e ∈ new ↔ e.1 ∈ names ∧ Archivable disk base e.1 e.2) := by
      intro hn he
      obtain ⟨new, names, e1, e2, e3, e4, e5⟩ := ih stored es
      refine ⟨new, names, ?_, e2, ?_, e4, e5⟩
      · rw [he, e1]
        simp [hn]
        omega
      · intro n
        rw [e3]
        simp [hn]
    cases hnorm : norm u.path with
    | none =>
      apply bad
      · simp [archiveName, hu, hnorm]
      · simp [addFileList, hu, hnorm]
    | some n =>
      by_cases hdots : n.take 2 = ['.', '.']
      · apply bad
        · simp [archiveName, hu, hnorm, hdots]
        · simp [addFileList, hu, hnorm, hdots]
      · have hname : archiveName norm h = some n := by simp [archiveName, hu, hnorm, hdots]
        by_cases hst : n ∈ stored
        · obtain ⟨new, names, e1, e2, e3, e4, e5⟩ := ih stored es
          refine ⟨new, names, ?_, e2, ?_, e4, e5⟩
          · have : addFileList norm disk base (h :: rest) stored (some es) = addFileList norm disk base rest stored (some es) := by
              simp [addFileList, hu, hnorm, hdots, hst]
            rw [this, e1]
            simp [hname]
          · intro m
            rw [e3]
            simp only [List.mem_cons, exists_eq_or_imp, hname, Option.some.injEq]
            constructor
            · rintro ⟨h1, h2⟩; exact ⟨h1, .inr h2⟩
            · rintro ⟨h1, rfl | h2⟩
              · exact absurd hst h1
              · exact ⟨h1, h2⟩
        · -- a new name: what happens to the file
          have fin : ∀ (z : List Entry) (new : List Entry) (names : List Str) (err : Nat),
              (z = [] ∧ err = 1 ∧ (∀ d, ¬ Archivable disk base n d) ∨ (∃ d, z = [(n, d)] ∧ err = 0 ∧ Archivable disk base n d)) →
              addFileList norm disk base (h :: rest) stored (some es) =
                ((addFileList norm disk base rest (n :: stored) (some (es ++ z))).1 + err,
                 (addFileList norm disk base rest (n :: stored) (some (es ++ z))).2) →
              (addFileList norm disk base rest (n :: stored) (some (es ++ z)) =
                ((rest.filter fun h => (archiveName norm h).isNone).length + (names.filter fun n => decide (n ∉ new.map Prod.fst)).length,
                  some (es ++ z ++ new)) ∧
              names.Nodup ∧ (∀ m, m ∈ names ↔ m ∉ n :: stored ∧ ∃ h ∈ rest, archiveName norm h = some m) ∧
              (new.map Prod.fst).Nodup ∧ (∀ e, e ∈ new ↔ e.1 ∈ names ∧ Archivable disk base e.1 e.2)) →
              ∃ (new : List Entry) (names : List Str),
              addFileList norm disk base (h :: rest) stored (some es) =
                (((h :: rest).filter fun h => (archiveName norm h).isNone).length + (names.filter fun n => decide (n ∉ new.map Prod.fst)).length,
                  some (es ++ new)) ∧
              names.Nodup ∧ (∀ m, m ∈ names ↔ m ∉ stored ∧ ∃ h' ∈ h :: rest, archiveName norm h' = some m) ∧
              (new.map Prod.fst).Nodup ∧ (∀ e, e ∈ new ↔ e.1 ∈ names ∧ Archivable disk base e.1 e.2) := by
            intro z new names err hz heq ⟨e1, e2, e3, e4, e5⟩
            have hnn : n ∉ names := by rw [e3]; simp
            have hnew : n ∉ new.map Prod.fst := by
              intro hm
              obtain ⟨e, he, hh⟩ := List.mem_map.1 hm
              exact hnn (hh ▸ ((e5 e).1 he).1)
            refine ⟨z ++ new, n :: names, ?_, List.nodup_cons.2 ⟨hnn, e2⟩, ?_, ?_, ?_⟩
            · rw [heq, e1]
              have hc : ∀ z' : List Entry, (∀ e ∈ z', e.1 = n) →
                  (names.filter fun m => decide (m ∉ (z' ++ new).map Prod.fst)) = names.filter fun m => decide (m ∉ new.map Prod.fst) := by
                intro z' hz'
                apply List.filter_congr
                intro m hm
                have : m ∉ z'.map Prod.fst := by
                  intro h1
                  obtain ⟨e, he, hh⟩ := List.mem_map.1 h1
                  exact hnn (by rw [← hz' e he, hh]; exact hm)
                simp only [List.map_append, List.mem_append, this, false_or]
              rcases hz with ⟨rfl, rfl, _⟩ | ⟨d, rfl, rfl, _⟩
              · rw [List.filter_cons_of_neg (by simp [hname]), List.filter_cons_of_pos (by simpa using hnew), hc [] (by simp)]
                simp only [List.length_cons, List.append_nil, List.nil_append]
                rw [Nat.add_assoc]
              · rw [List.filter_cons_of_neg (by simp [hname]), List.filter_cons_of_neg (by simp), hc [(n, d)] (by simp)]
                simp
            · intro m
              simp only [List.mem_cons, e3, not_or, exists_eq_or_imp, hname, Option.some.injEq]
              constructor
              · rintro (rfl | ⟨⟨h1, h2⟩, h3⟩)
                · exact ⟨hst, .inl rfl⟩
                · exact ⟨h2, .inr h3⟩
              · rintro ⟨h1, rfl | h2⟩
                · exact .inl rfl
                · by_cases hmn : m = n
                  · exact .inl hmn
                  · exact .inr ⟨⟨hmn, h1⟩, h2⟩
            · rcases hz with ⟨rfl, _, _⟩ | ⟨d, rfl, _, _⟩
              · exact e4
              · simp only [List.map_append, List.map_cons, List.map_nil, List.singleton_append]
                exact List.nodup_cons.2 ⟨hnew, e4⟩
            · intro e
              simp only [List.mem_append, List.mem_cons, e5]
              rcases hz with ⟨rfl, _, hno⟩ | ⟨d, rfl, _, hyes⟩
              · constructor
                · rintro (h1 | ⟨h1, h2⟩)
                  · cases h1
                  · exact ⟨.inr h1, h2⟩
                · rintro ⟨h1 | h1, h2⟩
                  · exact absurd (h1 ▸ h2) (hno e.2)
                  · exact .inr ⟨h1, h2⟩
              · constructor
                · rintro (h1 | ⟨h1, h2⟩)
                  · simp only [List.mem_singleton] at h1
                    subst h1
                    exact ⟨.inl rfl, hyes⟩
                  · exact ⟨.inr h1, h2⟩
                · rintro ⟨h1 | h1, h2⟩
                  · left
                    rw [h1] at h2
                    have := h2.1.symm.trans hyes.1
                    simp only [Option.some.injEq] at this
                    simp only [List.mem_singleton]
                    exact Prod.ext h1 this
                  · exact .inr ⟨h1, h2⟩
          cases hd : disk (StringUtil.joinPaths base n) with
          | none =>
            obtain ⟨new, names, hh⟩ := ih (n :: stored) (es ++ [])
            apply fin [] new names 1 (.inl ⟨rfl, rfl, fun d hx => by simp [Archivable, hd] at hx⟩) ?_ hh
            simp [addFileList, hu, hnorm, hdots, hst, hd]
          | some d =>
            cases hr : pathRefused n with
            | true =>
              obtain ⟨new, names, hh⟩ := ih (n :: stored) (es ++ [])
              apply fin [] new names 1 (.inl ⟨rfl, rfl, fun d hx => by simp [Archivable, hr] at hx⟩) ?_ hh
              simp [addFileList, hu, hnorm, hdots, hst, hd, addEntry, hr]
            | false =>
              obtain ⟨new, names, hh⟩ := ih (n :: stored) (es ++ [(n, d)])
              apply fin [(n, d)] new names 0 (.inr ⟨d, rfl, rfl, hd, hr⟩) ?_ hh
              simp [addFileList, hu, hnorm, hdots, hst, hd, addEntry, hr]

/-- Adding a list of references appends entries to the archive: one for each distinct name whose file can be read and
whose name is not refused, with the content of the file, and no others.  The number returned counts the references
without name and the distinct names that were not added. -/
theorem C47_adds_each_once (norm disk : Str → Option Str) (base : Str) (hrefs : List Str) (es : List Entry) :
    ∃ (new : List Entry) (names : List Str),
      (addFileList norm disk base hrefs [] (some es)).2 = some (es ++ new) ∧
      (new.map Prod.fst).Nodup ∧
      (∀ e, e ∈ new ↔ (∃ h ∈ hrefs, archiveName norm h = some e.1) ∧ Archivable disk base e.1 e.2) ∧
      names.Nodup ∧ (∀ n, n ∈ names ↔ ∃ h ∈ hrefs, archiveName norm h = some n) ∧
      (addFileList norm disk base hrefs [] (some es)).1 =
        (hrefs.filter fun h => (archiveName norm h).isNone).length + (names.filter fun n => decide (n ∉ new.map Prod.fst)).length := by
  obtain ⟨new, names, e1, e2, e3, e4, e5⟩ := addFileList_spec norm disk base hrefs [] es
  have e3' : ∀ n, n ∈ names ↔ ∃ h ∈ hrefs, archiveName norm h = some n := by intro n; rw [e3]; simp
  refine ⟨new, names, by rw [e1], e4, ?_, e2, e3', by rw [e1]⟩
  intro e
  rw [e5, e3']

/-- No entry that was added leaves the directory, if normalised names have no `..` behind their first component. -/
theorem C47_inside (norm disk : Str → Option Str) (base : Str) (hrefs : List Str) (es new : List Entry)
    (hnorm : ∀ p n, norm p = some n → ['.', '.'] ∉ (components n).tail)
    (h : (addFileList norm disk base hrefs [] (some es)).2 = some (es ++ new)) : ∀ e ∈ new, ¬ Escapes e.1 := by
  obtain ⟨new', names, e1, _, e3, _⟩ := C47_adds_each_once norm disk base hrefs es
  rw [h, Option.some.injEq, List.append_cancel_left_eq] at e1
  subst e1
  intro e he
  obtain ⟨⟨hr, _, hn⟩, _, hp⟩ := (e3 e).1 he
  refine C20_inside_partial (some []) e.2 e.1 (by simp [addEntry, hp]) ?_
  unfold archiveName at hn
  split at hn
  · split at hn
    · rename_i n hnn
      split at hn
      · cases hn
      · cases hn; exact hnorm _ _ hnn
    · cases hn
  · cases hn

/-- Six references: two to one file, a fragment, one out of the directory, an absolute path and a missing file. -/
example : addFileList some (fun p => if p = "dir/missing".toList then none else some p) "dir".toList
    ["a.png".toList, "a.png".toList, "b.kml#x".toList, "../c".toList, "/etc/passwd".toList, "missing".toList] [] (some [])
    = (3, some [("a.png".toList, "dir/a.png".toList), ("b.kml".toList, "dir/b.kml".toList)]) := by decide

end Kml.Kmz
