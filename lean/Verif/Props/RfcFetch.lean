import Verif.Props.Rfc
import Verif.Props.Kmz
/-! Property C46 with references resolved as RFC 3986 has it. -/
namespace Kml.Rfc
open Kml Kml.Kmz Kml.Uri Kml.ZipFile Kml.NetCache

theorem infix_sep {pat x y : Str} {c : Char} (hp : pat ≠ []) (hc : c ∉ pat) (h : pat <:+: x ++ c :: y) : pat <:+: x ∨ pat <:+: y := by
  obtain ⟨a, b, e⟩ := h
  rw [List.append_assoc, List.append_eq_append_iff] at e
  rcases e with ⟨d, e1, e2⟩ | ⟨d, e1, e2⟩
  · rw [List.append_eq_append_iff] at e2
    rcases e2 with ⟨g, e3, e4⟩ | ⟨g, e3, e4⟩
    · left
      exact ⟨a, g, by rw [e1, e3]; simp⟩
    · cases g with
      | nil =>
        left
        exact ⟨a, [], by rw [e1, e3]; simp⟩
      | cons z g =>
        exfalso
        rw [List.cons_append] at e4
        have : c = z := (List.cons.inj e4).1
        exact hc (by rw [e3, this]; simp)
  · cases d with
    | nil =>
      exfalso
      cases pat with
      | nil => exact hp rfl
      | cons z pat =>
        rw [List.nil_append, List.cons_append] at e2
        exact hc (by rw [(List.cons.inj e2).1]; simp)
    | cons z d =>
      right
      rw [List.cons_append] at e2
      exact ⟨d, b, by rw [(List.cons.inj e2).2]; simp⟩

theorem infix_join {pat : Str} (hp : pat ≠ []) (hc : '/' ∉ pat) : ∀ {l : List Str}, pat <:+: join l → ∃ x ∈ l, pat <:+: x
  | [], h => absurd (List.infix_nil.1 h) hp
  | [x], h => ⟨x, by simp, h⟩
  | x :: y :: l, h => by
    rw [join_cons (by simp)] at h
    rcases infix_sep hp hc h with h | h
    · exact ⟨x, by simp, h⟩
    · obtain ⟨z, hz, h⟩ := infix_join hp hc h
      exact ⟨z, by simp [hz], h⟩

theorem join_infix {pat x : Str} (h : pat <:+: x) : ∀ {l : List Str}, x ∈ l → pat <:+: join l
  | [], hx => by cases hx
  | [y], hx => by
    rw [List.mem_singleton.1 hx] at h
    exact h
  | y :: z :: l, hx => by
    rw [join_cons (by simp)]
    rcases List.mem_cons.1 hx with hx | hx
    · rw [← hx]
      exact h.trans (List.prefix_append _ _).isInfix
    · exact (join_infix h hx).trans ⟨y ++ ['/'], [], by simp⟩

theorem fetchable_text {ip : Str → Bool} {u : Uri} (h : u.Ok ip) : fetchableUri (lib ip) u.text =
    some ((if u.scheme.getD [] ≠ [] ∧ u.getHost.getD [] ≠ [] then u.scheme.getD [] ++ "://".toList ++ u.getHost.getD [] ++
      (if u.getPort.getD [] ≠ [] then ':' :: u.getPort.getD [] else []) ++ ['/'] else []) ++ u.getPath.getD []) := by
  unfold fetchableUri lib
  dsimp only
  rw [create_text h]
  rfl

theorem port_kmz {ip : Str → Bool} {u : Uri} (h : u.Ok ip) : ¬ ".kmz".toList <:+: u.getPort.getD [] := by
  intro hk
  have hm : '.' ∈ u.getPort.getD [] := hk.subset (by decide)
  unfold Uri.getPort at hm
  cases ha : u.auth with
  | none => rw [ha] at hm; cases hm
  | some a =>
    rw [ha] at hm
    cases hp : a.port with
    | none => simp [hp] at hm
    | some p =>
      simp only [Option.bind_some, hp, Option.getD_some] at hm
      exact all_not ((h.auth a ha).port p hp) (by decide) hm

theorem kmz_ne : ".kmz".toList ≠ [] := by decide

/-- Where `.kmz` is in the address of something. -/
theorem fetch_infix {ip : Str → Bool} {u : Uri} (h : u.Ok ip) {f : Str} (hf : fetchableUri (lib ip) u.text = some f)
    (hk : ".kmz".toList <:+: f) : (∃ s, u.scheme = some s ∧ ".kmz".toList <:+: s) ∨
      (∃ a, u.auth = some a ∧ ".kmz".toList <:+: a.host) ∨ ∃ x ∈ u.segs, ".kmz".toList <:+: x := by
  rw [fetchable_text h] at hf
  have hf := Option.some.inj hf
  subst hf
  have hpath : ".kmz".toList <:+: u.getPath.getD [] → ∃ x ∈ u.segs, ".kmz".toList <:+: x := by
    intro hk
    unfold Uri.getPath at hk
    split at hk
    · exact absurd (List.infix_nil.1 hk) kmz_ne
    · exact infix_join kmz_ne (by decide) hk
  split at hk
  · rename_i hsh
    have hhost : ".kmz".toList <:+: u.getHost.getD [] → ∃ a, u.auth = some a ∧ ".kmz".toList <:+: a.host := by
      intro hk
      unfold Uri.getHost at hk
      cases ha : u.auth with
      | none => rw [ha] at hk; exact absurd (List.infix_nil.1 hk) kmz_ne
      | some a => rw [ha] at hk; exact ⟨a, rfl, hk⟩
    rw [List.append_assoc, List.singleton_append] at hk
    rcases infix_sep kmz_ne (by decide) hk with hk | hk
    · have hsch : ".kmz".toList <:+: u.scheme.getD [] ++ "://".toList ++ u.getHost.getD [] →
          (∃ s, u.scheme = some s ∧ ".kmz".toList <:+: s) ∨ ∃ a, u.auth = some a ∧ ".kmz".toList <:+: a.host := by
        intro hk
        rw [List.append_assoc] at hk
        have hk : ".kmz".toList <:+: u.scheme.getD [] ++ ':' :: ([] ++ '/' :: ([] ++ '/' :: u.getHost.getD [])) := hk
        rcases infix_sep kmz_ne (by decide) hk with hk | hk
        · left
          cases hs : u.scheme with
          | none => rw [hs] at hk; exact absurd (List.infix_nil.1 hk) kmz_ne
          | some s => rw [hs] at hk; exact ⟨s, rfl, hk⟩
        · right
          rcases infix_sep kmz_ne (by decide) hk with hk | hk
          · exact absurd (List.infix_nil.1 hk) kmz_ne
          · rcases infix_sep kmz_ne (by decide) hk with hk | hk
            · exact absurd (List.infix_nil.1 hk) kmz_ne
            · exact hhost hk
      split at hk
      · rcases infix_sep kmz_ne (by decide) hk with hk | hk
        · rcases hsch hk with h | h
          · exact .inl h
          · exact .inr (.inl h)
        · exact absurd hk (port_kmz h)
      · rw [List.append_nil] at hk
        rcases hsch hk with h | h
        · exact .inl h
        · exact .inr (.inl h)
    · exact .inr (.inr (hpath hk))
  · rw [List.nil_append] at hk
    exact .inr (.inr (hpath hk))

/-- A text that ends with its first `.kmz` has none before its end. -/
theorem kmz_early {f kmz t p z : Str} (hf : f = kmz ++ t) (hpz : kmz = p ++ z) (hz : z ≠ []) {a : Str} (ha : kmz = a ++ ".kmz".toList)
    (hfirst : ∀ j < a.length, ¬ ".kmz".toList <+: f.drop j) (hk : ".kmz".toList <:+: p) : False := by
  obtain ⟨x, y, e⟩ := hk
  have hl : (x ++ ".kmz".toList ++ y ++ z).length = (a ++ ".kmz".toList).length := by rw [e, ← hpz, ha]
  simp only [List.length_append] at hl
  have hz' := List.length_pos_iff.2 hz
  apply hfirst x.length (by omega)
  rw [hf, hpz, ← e]
  simp only [List.append_assoc, List.drop_left']
  exact ⟨_, rfl⟩

theorem createRelative_rfc {ip : Str → Bool} {base target : Str} {u : KmlUri} (h : createRelative (lib ip) base target = some u) :
    ∃ b r f, createFromParse ip base = some b ∧ createFromParse ip target = some r ∧ b.scheme ≠ none ∧ u.url = (resolve b r).text ∧
      fetchableUri (lib ip) u.url = some f ∧ (u.isKmz = true → kmzSplit f = .ok (some (u.kmzUrl, u.pathInKmz))) ∧ u.target = target := by
  unfold createRelative at h
  split at h
  · rename_i url _ hr
    have hr : resolveUri ip base target = some url := hr
    unfold resolveUri at hr
    obtain ⟨b, hb, hr⟩ := Option.bind_eq_some_iff.1 hr
    obtain ⟨r, hr', hr⟩ := Option.bind_eq_some_iff.1 hr
    split at hr
    · rename_i hs
      cases hr
      split at h
      · cases h
      · rename_i f hf
        split at h
        · rename_i x hk
          cases h
          exact ⟨b, r, f, hb, hr', Option.isSome_iff_ne_none.1 hs, rfl, hf, fun _ => hk, rfl⟩
        · cases h
          exact ⟨b, r, f, hb, hr', Option.isSome_iff_ne_none.1 hs, rfl, hf, (fun hk => nomatch hk), rfl⟩
    · cases hr
  · cases h

/-- What the resolved reference has in its path. -/
theorem resolve_segs {b r : Uri} (hs : r.scheme = none) (ha : r.auth = none) (hp : r.segs ≠ [] ∨ r.absolute = true) {x : Str}
    (hx : x ∈ (resolve b r).segs) : x = [] ∨ x ∈ b.segs.dropLast ∨ x ∈ r.segs := by
  unfold resolve at hx
  rw [hs, ha] at hx
  simp only [Option.isSome_none, Bool.false_eq_true, if_false] at hx
  split at hx
  · rename_i h
    simp only [Bool.and_eq_true, decide_eq_true_eq, Bool.not_eq_true'] at h
    rcases hp with hp | hp
    · exact absurd h.1 hp
    · rw [h.2] at hp; cases hp
  · split at hx
    · unfold withHost at hx
      have hd : x ∈ removeDots [] r.segs → x = [] ∨ x ∈ b.segs.dropLast ∨ x ∈ r.segs := by
        intro hx
        rcases removeDots_mem hx with h | h | h
        · exact .inl h
        · cases h
        · exact .inr (.inr h.1)
      split at hx
      · dsimp only at hx
        split at hx
        · exact .inl (List.mem_singleton.1 hx)
        · exact hd hx
      · exact hd hx
    · rcases removeDots_mem hx with h | h | h
      · exact .inl h
      · cases h
      · rcases List.mem_append.1 h.1 with h | h
        · exact .inr (.inl h)
        · exact .inr (.inr h)

/-- A URI whose text begins with two slashes behind the scheme has an authority. -/
theorem auth_of_slashes {ip : Str → Bool} {u : Uri} (h : u.Ok ip) {rest : Str}
    (e : hierText u ++ before ['?'] u.query ++ before ['#'] u.fragment = '/' :: '/' :: rest) : u.auth ≠ none := by
  intro ha
  have hq : ∀ t, before ['?'] u.query ++ before ['#'] u.fragment ≠ '/' :: t := by
    intro t
    cases u.query with
    | some q => simp [before]
    | none => cases u.fragment <;> simp [before]
  have hseg : ∀ t, join u.segs ++ (before ['?'] u.query ++ before ['#'] u.fragment) ≠ '/' :: t := by
    intro t e
    cases hs : u.segs with
    | nil =>
      rw [hs] at e
      exact hq t e
    | cons x l =>
      rw [hs] at e
      have hx : x ≠ [] := fun e => h.first ha (by rw [hs, e]; rfl)
      cases x with
      | nil => exact hx rfl
      | cons c x =>
        have : c = '/' := by
          cases l with
          | nil => exact (List.cons.inj e).1
          | cons y l => exact (List.cons.inj e).1
        exact (seg_char (h.segs (c :: x) (by rw [hs]; simp))).1 (by simp [this])
  unfold hierText Uri.path at e
  rw [ha] at e
  simp only [Option.map_none, Option.isSome_none, Bool.false_and, Bool.or_false, before, List.nil_append] at e
  cases hb : u.absolute with
  | true =>
    rw [hb] at e
    simp only [if_true, List.cons_append, List.nil_append, List.append_assoc] at e
    exact hseg rest (List.cons.inj e).2
  | false =>
    rw [hb] at e
    simp only [Bool.false_eq_true, if_false, List.nil_append, List.append_assoc] at e
    exact hseg _ e

/-- For a reference with a path that names no archive, in a base whose host does not look like one, the retry leaves the archive. -/
theorem relative_settles (ip : Str → Bool) (base target : Str) (b r : Uri) (a : Authority) (hb : createFromParse ip base = some b)
    (hr : createFromParse ip target = some r) (ha : b.auth = some a) (hhost : a.host ≠ []) (hk : ¬ ".kmz".toList <:+: a.host)
    (hrs : r.scheme = none) (hra : r.auth = none) (hrp : r.segs ≠ [] ∨ r.absolute = true) (hrk : ∀ x ∈ r.segs, ¬ ".kmz".toList <:+: x)
    (u : KmlUri) (hu : createRelative (lib ip) base target = some u) : Settles (lib ip) 1 u := by
  cases hkm : u.isKmz with
  | false => exact .inl hkm
  | true =>
    right
    intro v hv
    simp only [Settles]
    unfold next at hv
    obtain ⟨b', r', f, hb', hr', hs, hurl, hf, hsplit, ht⟩ := createRelative_rfc hu
    rw [hb] at hb'; cases hb'
    rw [hr] at hr'; cases hr'
    rw [ht] at hv
    obtain ⟨b2, r', f2, hb2, hr', hs2, hurl2, hf2, hsplit2, _⟩ := createRelative_rfc hv
    rw [hr] at hr'; cases hr'
    cases hvk : v.isKmz with
    | false => rfl
    | true =>
      exfalso
      have hbok := (create_ok hb).1
      have hrok := (create_ok hr).1
      obtain ⟨sc, hsc⟩ := Option.ne_none_iff_exists'.1 hs
      -- the first address
      obtain ⟨ok1, n1, n2, same, _⟩ := resolve_ok hbok hrok hs (by rw [ha]; simp) (.inl hrs)
      obtain ⟨s1, s2⟩ := same hrs hra
      rw [hurl, fetchable_text ok1] at hf
      have hschok := hbok.scheme sc hsc
      have hscne : sc ≠ [] := by
        rintro rfl
        exact absurd hschok (by decide)
      have eh : (resolve b r).getHost = some a.host := by unfold Uri.getHost; rw [s2, ha]; rfl
      rw [s1, hsc, eh, if_pos ⟨hscne, hhost⟩] at hf
      simp only [Option.getD_some] at hf
      have hport := port_kmz ok1
      generalize hport' : (resolve b r).getPort.getD [] = port at hf hport
      generalize hpath' : (resolve b r).getPath.getD [] = path at hf
      have hf := Option.some.inj hf
      -- where the archive ends
      obtain ⟨hcut, k, hkk, hfirst⟩ := C45_split _ _ _ (hsplit hkm)
      obtain ⟨t, et⟩ : ∃ t, f = u.kmzUrl ++ t := by
        rcases hcut with ⟨e, _⟩ | ⟨c, e⟩
        · exact ⟨[], by rw [e]; simp⟩
        · exact ⟨_, e⟩
      -- its URL taken apart
      obtain ⟨sc2, hsc2⟩ := Option.ne_none_iff_exists'.1 hs2
      obtain ⟨hb2ok, hb2text⟩ := create_ok hb2
      have hsc2ok := hb2ok.scheme sc2 hsc2
      have nsc : ':' ∉ sc := all_not (scheme_chars hschok) (by decide)
      have nsc2 : ':' ∉ sc2 := all_not (scheme_chars hsc2ok) (by decide)
      have hzero : '\x00' ∉ u.kmzUrl := by
        intro hz
        have hz : '\x00' ∈ f := by rw [et]; exact List.mem_append_left _ hz
        have hnz := text_zero ok1
        have hsz : '\x00' ∉ sc := all_not (scheme_chars hschok) (by decide)
        have haok := ok1.auth a (by rw [s2, ha])
        have hhz : '\x00' ∉ a.host := by
          cases hbr : a.bracket with
          | false => exact textOk_not (haok.host hbr) (by decide) (by decide) (by decide)
          | true => exact all_not (haok.address hbr).1 (by decide)
        have hpz : '\x00' ∉ port := by
          rw [← hport']
          unfold Uri.getPort
          rw [s2, ha]
          cases hp : a.port with
          | none => simp [hp]
          | some p =>
            simp only [Option.bind_some, hp, Option.getD_some]
            exact all_not (haok.port p hp) (by decide)
        have hqz : '\x00' ∉ path := by
          rw [← hpath']
          unfold Uri.getPath
          split
          · simp
          · intro hz
            rcases mem_join hz with h | ⟨x, hx, h⟩
            · exact absurd h (by decide)
            · exact textOk_not (ok1.segs x hx) (by decide) (by decide) (by decide) h
        rw [← hf] at hz
        have hcol : '\x00' ∉ "://".toList := by decide
        have hport2 : '\x00' ∉ (if port ≠ [] then ':' :: port else []) := by
          split
          · simp [hpz]
          · simp
        simp only [List.mem_append] at hz
        rcases hz with ((((h | h) | h) | h) | h) | h
        · exact hsz h
        · exact hcol h
        · exact hhz h
        · exact hport2 h
        · exact absurd (List.mem_singleton.1 h) (by decide)
        · exact hqz h
      rw [cstr_id hzero] at hb2text
      have etext : u.kmzUrl = sc2 ++ ':' :: (hierText b2 ++ before ['?'] b2.query ++ before ['#'] b2.fragment) := by
        rw [← hb2text, uri_text, hsc2]
        simp [schemeText]
      have ef : sc2 ++ ':' :: (hierText b2 ++ before ['?'] b2.query ++ before ['#'] b2.fragment ++ t) =
          sc ++ ':' :: ("//".toList ++ a.host ++ (if port ≠ [] then ':' :: port else []) ++ ['/'] ++ path) := by
        have : u.kmzUrl ++ t = f := et.symm
        rw [etext, ← hf] at this
        simpa using this
      have c1 := cut_of (some (hierText b2 ++ before ['?'] b2.query ++ before ['#'] b2.fragment ++ t)) nsc2
      have c2 := cut_of (some ("//".toList ++ a.host ++ (if port ≠ [] then ':' :: port else []) ++ ['/'] ++ path)) nsc
      have c3 := c1.symm.trans ((congrArg (cut ':') ef).trans c2)
      have e4 := Option.some.inj (Prod.mk.inj c3).2
      -- it has an authority
      have hslash : ∃ rest, hierText b2 ++ before ['?'] b2.query ++ before ['#'] b2.fragment = '/' :: '/' :: rest := by
        have hz : (sc2 ++ ':' :: (hierText b2 ++ before ['?'] b2.query ++ before ['#'] b2.fragment)).getLast? = some 'z' := by
          rw [← etext, hkk, List.getLast?_append]
          rfl
        generalize hg : hierText b2 ++ before ['?'] b2.query ++ before ['#'] b2.fragment = g at e4 hz
        have e4 : g ++ t = '/' :: '/' :: (a.host ++ (if port ≠ [] then ':' :: port else []) ++ ['/'] ++ path) := by simpa using e4
        match g, e4, hz with
        | [], _, hz => simp at hz
        | [c], e4, hz =>
          have : c = '/' := (List.cons.inj e4).1
          simp [this] at hz
        | c :: d :: g, e4, _ =>
          obtain ⟨h1, h2⟩ := List.cons.inj e4
          obtain ⟨h2, _⟩ := List.cons.inj h2
          exact ⟨g, by rw [h1, h2]⟩
      obtain ⟨rest, hrest⟩ := hslash
      obtain ⟨a2, ha2⟩ := Option.ne_none_iff_exists'.1 (auth_of_slashes hb2ok hrest)
      have ehier : hierText b2 = "//".toList ++ a2.text ++ b2.path := by
        unfold hierText
        rw [ha2]
        simp [before]
      -- `.kmz` in the second address
      obtain ⟨ok2, _, _, same2, _⟩ := resolve_ok hb2ok hrok hs2 (by rw [ha2]; simp) (.inl hrs)
      obtain ⟨q1, q2⟩ := same2 hrs hra
      have hin : ".kmz".toList <:+: f2 := by
        obtain ⟨hc2, k2, hk2, _⟩ := C45_split _ _ _ (hsplit2 hvk)
        rcases hc2 with ⟨e, _⟩ | ⟨c, e⟩
        · exact ⟨k2, [], by rw [e, hk2]; simp⟩
        · exact ⟨k2, c :: v.pathInKmz, by rw [e, hk2]⟩
      rw [hurl2] at hf2
      rcases fetch_infix ok2 hf2 hin with ⟨s, h1, h2⟩ | ⟨a3, h1, h2⟩ | ⟨x, h1, h2⟩
      · -- in the scheme
        rw [q1, hsc2] at h1
        cases h1
        exact kmz_early et etext (by simp) hkk hfirst h2
      · -- in the host
        rw [q2, ha2] at h1
        cases h1
        have hat : ".kmz".toList <:+: a2.text := by
          rw [authority_text]
          refine (h2.trans ?_).trans (List.suffix_append _ _).isInfix
          unfold hostText
          refine List.IsInfix.trans ?_ (List.prefix_append _ _).isInfix
          split
          · exact ⟨['['], [']'], by simp⟩
          · exact List.infix_refl _
        have na2 : '/' ∉ a2.text := authority_not (hb2ok.auth a2 ha2) (by decide) (by decide) (by decide) (by decide) (by decide) (by decide)
          (by decide) (by decide) (by decide)
        rw [ehier] at e4
        have e5 : a2.text ++ (b2.path ++ before ['?'] b2.query ++ before ['#'] b2.fragment ++ t) =
            (a.host ++ (if port ≠ [] then ':' :: port else [])) ++ '/' :: path := by
          simpa using e4
        have hpre : ".kmz".toList <:+: a.host ++ (if port ≠ [] then ':' :: port else []) := by
          rw [List.append_eq_append_iff] at e5
          rcases e5 with ⟨d, e6, _⟩ | ⟨d, e6, e7⟩
          · rw [e6]
            exact hat.trans (List.prefix_append _ _).isInfix
          · cases d with
            | nil => rw [List.append_nil] at e6; rw [← e6]; exact hat
            | cons c d =>
              exfalso
              have : '/' = c := (List.cons.inj e7).1
              exact na2 (by rw [e6, this]; simp)
        split at hpre
        · rcases infix_sep kmz_ne (by decide) hpre with h | h
          · exact hk h
          · exact hport h
        · rw [List.append_nil] at hpre
          exact hk hpre
      · -- in the path
        rcases resolve_segs hrs hra hrp h1 with h | h | h
        · rw [h] at h2
          exact absurd (List.infix_nil.1 h2) kmz_ne
        · have hne : b2.segs ≠ [] := by
            intro e
            rw [e] at h
            cases h
          have hdl : b2.segs.dropLast ≠ [] := by
            intro e
            rw [e] at h
            cases h
          have ej : join b2.segs = join b2.segs.dropLast ++ '/' :: b2.segs.getLast hne := by
            have := join_append hdl (l' := [b2.segs.getLast hne]) (by simp)
            rw [List.dropLast_concat_getLast] at this
            exact this
          have ep : u.kmzUrl = (sc2 ++ "://".toList ++ a2.text ++
              (if b2.absolute || (b2.auth.isSome && !b2.segs.isEmpty) then ['/'] else []) ++ join b2.segs.dropLast) ++
              ('/' :: b2.segs.getLast hne ++ before ['?'] b2.query ++ before ['#'] b2.fragment) := by
            rw [etext, ehier]
            unfold Uri.path
            rw [ej]
            simp
          exact kmz_early et ep (by simp) hkk hfirst ((join_infix h2 h).trans (List.suffix_append _ _).isInfix)
        · exact hrk x h h2

/-- References resolved as the RFC has it: fetching ends for every reference with a path that names no archive, neither scheme nor host before
it, in every base whose host does not look like an archive; for every network, content of archives and state of the caches.  Missing: other
references and bases, for which it is false. -/
theorem C46_rfc_terminates_partial (ip : Str → Bool) (w : World) (s : KState) (base target : Str) (b r : Uri) (a : Authority)
    (hb : createFromParse ip base = some b) (hr : createFromParse ip target = some r) (ha : b.auth = some a) (hhost : a.host ≠ [])
    (hk : ¬ ".kmz".toList <:+: a.host) (hrs : r.scheme = none) (hra : r.auth = none) (hrp : r.path ≠ [])
    (hrk : ¬ ".kmz".toList <:+: r.path) : (fetchDataRelative (lib ip) w 2 s base target).isSome = true := by
  have hp : r.segs ≠ [] ∨ r.absolute = true := by
    by_cases hsegs : r.segs = []
    · right
      unfold Uri.path at hrp
      rw [hsegs, hra] at hrp
      cases h : r.absolute with
      | true => rfl
      | false => rw [h] at hrp; exact absurd rfl hrp
    · exact .inl hsegs
  have hx : ∀ x ∈ r.segs, ¬ ".kmz".toList <:+: x := by
    intro x hx h
    exact hrk ((join_infix h hx).trans (List.suffix_append _ _).isInfix)
  unfold fetchDataRelative
  split
  · rfl
  · rename_i u hu
    have := settles_fetch (lib ip) w 1 s u (relative_settles ip base target b r a hb hr ha hhost hk hrs hra hp hx u hu)
    simpa using this

/-- The same for KML files. -/
theorem C46_rfc_kml_terminates_partial {F : Type} (ip : Str → Bool) (w : World) (mk : Str → Str → Option F) (s : KState) (files : Cache F)
    (base target : Str) (b r : Uri) (a : Authority)
    (hb : createFromParse ip base = some b) (hr : createFromParse ip target = some r) (ha : b.auth = some a) (hhost : a.host ≠ [])
    (hk : ¬ ".kmz".toList <:+: a.host) (hrs : r.scheme = none) (hra : r.auth = none) (hrp : r.path ≠ [])
    (hrk : ¬ ".kmz".toList <:+: r.path) : (fetchKmlRelative (lib ip) w mk 2 s files base target).isSome = true := by
  have hd := C46_rfc_terminates_partial ip w s base target b r a hb hr ha hhost hk hrs hra hrp hrk
  unfold fetchDataRelative at hd
  unfold fetchKmlRelative
  split
  · rfl
  · rename_i u hu
    rw [hu] at hd
    dsimp only at hd
    split
    · rfl
    · split
      · rename_i e
        rw [e] at hd
        cases hd
      · rfl
      · split <;> rfl

example : ∃ b r a, createFromParse (fun _ => false) "http://h/a.kmz/doc.kml".toList = some b ∧
    createFromParse (fun _ => false) "../x.png".toList = some r ∧ b.auth = some a ∧ a.host ≠ [] ∧ ¬ ".kmz".toList <:+: a.host ∧
    r.scheme = none ∧ r.auth = none ∧ r.path ≠ [] ∧ ¬ ".kmz".toList <:+: r.path := by
  refine ⟨⟨some "http".toList, some ⟨none, "h".toList, false, none⟩, false, ["a.kmz".toList, "doc.kml".toList], none, none⟩,
    ⟨none, none, false, ["..".toList, "x.png".toList], none, none⟩, ⟨none, "h".toList, false, none⟩, by decide +kernel, by decide +kernel, rfl,
    by simp, findFrom_not_infix (by decide), rfl, rfl, by simp [Uri.path, join], findFrom_not_infix (by decide)⟩

/-- Resolved as the RFC has it, it does not end for the absolute URL of a file that the archive does not have, -/
theorem C46_rfc_violated (ip : Str → Bool) (fuel : Nat) :
    fetchDataRelative (lib ip) oneWorld fuel ⟨init 5, init 5⟩ "http://h/base.kml".toList "http://h/a.kmz/missing.kml".toList = none := by
  have hu : createRelative (lib ip) "http://h/base.kml".toList "http://h/a.kmz/missing.kml".toList
      = some ⟨true, "http://h/a.kmz/missing.kml".toList, "http://h/a.kmz/missing.kml".toList, "http://h/a.kmz".toList, "missing.kml".toList⟩ := rfl
  have hu' : createRelative (lib ip) "http://h/a.kmz".toList "http://h/a.kmz/missing.kml".toList
      = some ⟨true, "http://h/a.kmz/missing.kml".toList, "http://h/a.kmz/missing.kml".toList, "http://h/a.kmz".toList, "missing.kml".toList⟩ := rfl
  have hf : (fetch oneWorld.net oneWorld.openKmz (init 5) "http://h/a.kmz".toList).1 = some [(['x'], ['y'])] := by decide
  have hm : getEntry oneWorld.caseCounts oneWorld.max [(['x'], ['y'])] "missing.kml".toList = none := by decide
  have hd := C46_diverges (lib ip) oneWorld ⟨true, "http://h/a.kmz/missing.kml".toList, "http://h/a.kmz/missing.kml".toList,
    "http://h/a.kmz".toList, "missing.kml".toList⟩ rfl hu' (by decide) _ hm fuel ⟨init 5, init 5⟩ hf
  unfold fetchDataRelative
  rw [hu]
  dsimp only
  rw [hd]
  rfl

/-- A host that looks like an archive. -/
def hostWorld : World where
  net := fun u => if u = "http://x.kmz".toList then some ['P'] else none
  openKmz := fun _ => some [(['x'], ['y'])]
  max := 100

/-- for a file beside another on such a host, -/
theorem C46_host_violated (ip : Str → Bool) (fuel : Nat) :
    fetchDataRelative (lib ip) hostWorld fuel ⟨init 5, init 5⟩ "http://x.kmz/base.kml".toList "a.kml".toList = none := by
  have hu : createRelative (lib ip) "http://x.kmz/base.kml".toList "a.kml".toList
      = some ⟨true, "a.kml".toList, "http://x.kmz/a.kml".toList, "http://x.kmz".toList, "a.kml".toList⟩ := rfl
  have hu' : createRelative (lib ip) "http://x.kmz".toList "a.kml".toList
      = some ⟨true, "a.kml".toList, "http://x.kmz/a.kml".toList, "http://x.kmz".toList, "a.kml".toList⟩ := rfl
  have hf : (fetch hostWorld.net hostWorld.openKmz (init 5) "http://x.kmz".toList).1 = some [(['x'], ['y'])] := by decide
  have hm : getEntry hostWorld.caseCounts hostWorld.max [(['x'], ['y'])] "a.kml".toList = none := by decide
  have hd := C46_diverges (lib ip) hostWorld ⟨true, "a.kml".toList, "http://x.kmz/a.kml".toList, "http://x.kmz".toList, "a.kml".toList⟩
    rfl hu' (by decide) _ hm fuel ⟨init 5, init 5⟩ hf
  unfold fetchDataRelative
  rw [hu]
  dsimp only
  rw [hd]
  rfl

/-- Fetching does not end either for an archive without KML, if the reference names it. -/
theorem C46_empty_diverges (lib : UriLib) (w : World) (u : KmlUri) (hk : u.isKmz = true) (hsame : next lib u = some u)
    (hpath : u.pathInKmz = []) (z : List Entry) (hmiss : findFirstOf z ".kml".toList = none) :
    ∀ (fuel : Nat) (s : KState), (fetch w.net w.openKmz s.kmz u.kmzUrl).1 = some z → doFetch lib w fuel s u = none := by
  intro fuel
  induction fuel with
  | zero => intro s _; rfl
  | succ fuel ih =>
    intro s hs
    have hl := fetch_lookUp _ _ _ _ _ hs
    have hsame' : createRelative lib u.kmzUrl u.target = some u := hsame
    have hr : readKmlAndGetPath w z = none := by
      unfold readKmlAndGetPath
      rw [hmiss]
    simp only [doFetch, hk, hs, Bool.true_eq_false, if_false, hsame', fetchFromCache, hl, hpath, ne_eq, not_true_eq_false, hr, Option.map_none]
    rw [ih _ (by simp only; rw [C14_fetch_cached _ _ _ _ _ hl])]
    rfl

/-- and for a fragment in an archive without KML. -/
theorem C46_fragment_violated (ip : Str → Bool) (fuel : Nat) :
    fetchDataRelative (lib ip) oneWorld fuel ⟨init 5, init 5⟩ "http://h/a.kmz".toList "#style".toList = none := by
  have hu : createRelative (lib ip) "http://h/a.kmz".toList "#style".toList
      = some ⟨true, "#style".toList, "http://h/a.kmz#style".toList, "http://h/a.kmz".toList, []⟩ := rfl
  have hf : (fetch oneWorld.net oneWorld.openKmz (init 5) "http://h/a.kmz".toList).1 = some [(['x'], ['y'])] := by decide
  have hm : findFirstOf [((['x'], ['y']) : Entry)] ".kml".toList = none := by decide
  have hd := C46_empty_diverges (lib ip) oneWorld ⟨true, "#style".toList, "http://h/a.kmz#style".toList, "http://h/a.kmz".toList, []⟩
    rfl hu rfl _ hm fuel ⟨init 5, init 5⟩ hf
  unfold fetchDataRelative
  rw [hu]
  dsimp only
  rw [hd]
  rfl

end Kml.Rfc
