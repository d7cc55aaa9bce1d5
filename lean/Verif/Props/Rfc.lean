import Verif.Lemmas.RfcResolve
/-! Property C101: URIs are taken apart and resolved as RFC 3986 has it. -/
namespace Kml.Rfc
open Kml Kml.Kmz

/-- A text without a zero character is a URI exactly when it is the text of well formed parts, and these are the parts it is taken into. -/
theorem C101_taken_apart (ip : Str → Bool) (s : Str) (hs : '\x00' ∉ s) (u : Uri) :
    createFromParse ip s = some u ↔ u.text = s ∧ u.Ok ip := create_iff hs

theorem in_range {a b c : Char} (hb : b.toNat < 128) (h : (decide (a ≤ c) && decide (c ≤ b)) = true) : c.toNat < 128 := by
  have : c ≤ b := by simpa using (Bool.and_eq_true_iff.1 h).2
  have : c.toNat ≤ b.toNat := this
  omega

theorem alpha_low {c : Char} (h : isAlpha c = true) : c.toNat < 128 := by
  rcases Bool.or_eq_true_iff.1 h with h | h
  · exact in_range (by decide) h
  · exact in_range (by decide) h

theorem digit_low {c : Char} (h : isDigit c = true) : c.toNat < 128 := in_range (by decide) h

theorem hex_low {c : Char} (h : isHex c = true) : c.toNat < 128 := by
  rcases Bool.or_eq_true_iff.1 h with h | h
  · rcases Bool.or_eq_true_iff.1 h with h | h
    · exact digit_low h
    · exact in_range (by decide) h
  · exact in_range (by decide) h

theorem plain_low {c : Char} (h : plain c = true) : c.toNat < 128 := by
  unfold plain at h
  simp only [Bool.or_eq_true, decide_eq_true_eq] at h
  rcases h with ((((((((((((((((h | h) | h) | h) | h) | h) | h) | h) | h) | h) | h) | h) | h) | h) | h) | h) | h)
  · exact alpha_low h
  · exact digit_low h
  all_goals (rw [h]; decide)

theorem query_low {c : Char} (h : queryChar c = true) : c.toNat < 128 := by
  unfold queryChar pathChar at h
  simp only [Bool.or_eq_true, decide_eq_true_eq] at h
  rcases h with (((h | h) | h) | h) | h
  · exact plain_low h
  all_goals (rw [h]; decide)

/-- A set of characters below 128 is a list if it is so for those. -/
theorem same_chars {p : Char → Bool} {l : Str} (hp : ∀ c, p c = true → c.toNat < 128) (hl : ∀ c ∈ l, c.toNat < 128)
    (h : ∀ n < 128, p (Char.ofNat n) = decide (Char.ofNat n ∈ l)) (c : Char) : p c = true ↔ c ∈ l := by
  by_cases hc : c.toNat < 128
  · have := h c.toNat hc
    rw [Char.ofNat_toNat] at this
    rw [this]
    exact decide_eq_true_iff
  · exact ⟨fun h => absurd (hp c h) hc, fun h => absurd (hl c h) hc⟩

theorem hex_chars (c : Char) : isHex c = true ↔ c ∈ "0123456789abcdefABCDEF".toList :=
  same_chars (fun _ => hex_low) (by decide +kernel) (by decide +kernel) c

theorem textOk_escaped {p : Char → Bool} {l : Str} (h : ∀ c, p c = true ↔ c ∈ l) (hl : '%' ∉ l) :
    ∀ s, textOk p s = true ↔ Escaped l s
  | [] => ⟨fun _ => .nil, fun _ => rfl⟩
  | [c] => by
    constructor
    · intro hc
      exact .char ((h c).1 hc) .nil
    · rintro (_ | ⟨hc, _⟩)
      exact (h c).2 hc
  | [c, d] => by
    constructor
    · intro hc
      obtain ⟨h1, h2⟩ := Bool.and_eq_true_iff.1 hc
      exact .char ((h c).1 h1) (.char ((h d).1 h2) .nil)
    · rintro (_ | ⟨hc, _ | ⟨hd, _⟩⟩)
      exact Bool.and_eq_true_iff.2 ⟨(h c).2 hc, (h d).2 hd⟩
  | c :: d :: e :: s => by
    unfold textOk
    by_cases hc : c = '%'
    · rw [if_pos hc, Bool.and_eq_true, Bool.and_eq_true, hex_chars, hex_chars, textOk_escaped h hl s, hc]
      constructor
      · rintro ⟨⟨h1, h2⟩, h3⟩
        exact .escape h1 h2 h3
      · rintro (_ | ⟨hk, _⟩ | ⟨h1, h2, h3⟩)
        · exact absurd hk hl
        · exact ⟨⟨h1, h2⟩, h3⟩
    · rw [if_neg hc, Bool.and_eq_true, h, textOk_escaped h hl (d :: e :: s)]
      constructor
      · rintro ⟨h1, h2⟩
        exact .char h1 h2
      · intro hk
        cases hk with
        | char h1 h2 => exact ⟨h1, h2⟩
        | escape => exact absurd rfl hc

/-- **C101, the grammar.** What the parts of a well formed URI may consist of, in the words of RFC 3986. -/
theorem C101_grammar (s : Str) :
    (textOk plain s = true ↔ Escaped plainChars s) ∧
    (textOk userChar s = true ↔ Escaped (':' :: plainChars) s) ∧
    (textOk pathChar s = true ↔ Escaped (":@".toList ++ plainChars) s) ∧
    (textOk queryChar s = true ↔ Escaped (":@/?".toList ++ plainChars) s) ∧
    (s.all userChar = true ↔ ∀ c ∈ s, c ∈ ':' :: plainChars) ∧
    (s.all isDigit = true ↔ ∀ c ∈ s, c ∈ digits) ∧
    (schemeOk s = true ↔ ∃ c r, s = c :: r ∧ c ∈ letters ∧ ∀ d ∈ r, d ∈ letters ++ digits ++ "+-.".toList) := by
  have hq : ∀ c, queryChar c = true ↔ c ∈ ":@/?".toList ++ plainChars :=
    same_chars (fun _ => query_low) (by decide +kernel) (by decide +kernel)
  have hu : ∀ c, userChar c = true ↔ c ∈ ':' :: plainChars :=
    same_chars (fun c h => query_low (by
      unfold userChar at h; unfold queryChar pathChar; rw [h]; rfl)) (by decide +kernel) (by decide +kernel)
  have ha : ∀ c, isAlpha c = true ↔ c ∈ letters := same_chars (fun _ => alpha_low) (by decide +kernel) (by decide +kernel)
  have hs : ∀ c, (isAlpha c || isDigit c || c = '+' || c = '-' || c = '.') = true ↔ c ∈ letters ++ digits ++ "+-.".toList :=
    same_chars (fun c h => by
      simp only [Bool.or_eq_true, decide_eq_true_eq] at h
      rcases h with (((h | h) | h) | h) | h
      · exact alpha_low h
      · exact digit_low h
      all_goals (rw [h]; decide)) (by decide +kernel) (by decide +kernel)
  refine ⟨textOk_escaped (same_chars (fun _ => plain_low) (by decide +kernel) (by decide +kernel)) (by decide) s,
    textOk_escaped hu (by decide) s,
    textOk_escaped (same_chars (fun c h => query_low (by unfold queryChar; rw [h]; rfl)) (by decide +kernel) (by decide +kernel))
      (by decide) s,
    textOk_escaped hq (by decide) s, ?_, ?_, ?_⟩
  · rw [List.all_eq_true]
    exact forall_congr' fun c => imp_congr Iff.rfl (hu c)
  · rw [List.all_eq_true]
    exact forall_congr' fun c => imp_congr Iff.rfl
      (same_chars (fun _ => digit_low) (by decide +kernel) (by decide +kernel) c)
  · cases s with
    | nil => exact ⟨(fun h => nomatch h), by rintro ⟨c, r, h, _⟩; cases h⟩
    | cons c r =>
      unfold schemeOk
      rw [Bool.and_eq_true, ha, List.all_eq_true]
      constructor
      · rintro ⟨h1, h2⟩
        exact ⟨c, r, rfl, h1, fun d hd => (hs d).1 (h2 d hd)⟩
      · rintro ⟨c', r', he, h1, h2⟩
        cases he
        exact ⟨h1, fun d hd => (hs d).2 (h2 d hd)⟩

example : Escaped (":@".toList ++ plainChars) "a;%20b=c@".toList := ((C101_grammar _).2.2.1).1 (by decide +kernel)

/-- Different well formed parts have different texts. -/
theorem C101_one_reading (ip : Str → Bool) (u v : Uri) (hu : u.Ok ip) (hv : v.Ok ip) (h : u.text = v.text) : u = v := by
  have h1 := create_text hu
  rw [h, create_text hv] at h1
  exact (Option.some.inj h1).symm

example : createFromParse (fun _ => false) "http://u@h:80/a/b.kml?x=1#p".toList =
    some ⟨some "http".toList, some ⟨some "u".toList, "h".toList, false, some "80".toList⟩, false, ["a".toList, "b.kml".toList],
      some "x=1".toList, some "p".toList⟩ := by decide +kernel

example : createFromParse (fun _ => false) "http://h/a b".toList = none := by decide +kernel

/-- The parts of an address. -/
def address (scheme host : Str) (port : Option Str) (path : Str) (query fragment : Option Str) : Str :=
  scheme ++ "://".toList ++ host ++ before ":".toList port ++ "/".toList ++ path ++ before "?".toList query ++ before "#".toList fragment

/-- They are what the grammar allows in their place. -/
structure AddressOk (scheme host : Str) (port : Option Str) (path : Str) (query fragment : Option Str) : Prop where
  scheme : schemeOk scheme = true
  host : textOk plain host = true
  port : ∀ p, port = some p → p.all isDigit = true
  path : textOk (fun c => pathChar c || c = '/') path = true
  query : ∀ s, query = some s → textOk queryChar s = true
  fragment : ∀ s, fragment = some s → textOk queryChar s = true

/-- The same as parts of a URI. -/
def addressUri (scheme host : Str) (port : Option Str) (path : Str) (query fragment : Option Str) : Uri :=
  ⟨some scheme, some ⟨none, host, false, port⟩, false, pieces path, query, fragment⟩

theorem address_text (scheme host : Str) (port : Option Str) (path : Str) (query fragment : Option Str) :
    (addressUri scheme host port path query fragment).text = address scheme host port path query fragment := by
  have : (pieces path).isEmpty = false := by
    cases h : pieces path with
    | nil => exact absurd h (pieces_ne path)
    | cons => rfl
  unfold Uri.text Uri.prefix Uri.path addressUri Authority.text
  dsimp only
  rw [join_pieces, this]
  simp [address, before]

theorem address_ok (ip : Str → Bool) {scheme host : Str} {port : Option Str} {path : Str} {query fragment : Option Str}
    (h : AddressOk scheme host port path query fragment) : (addressUri scheme host port path query fragment).Ok ip := by
  refine ⟨?_, ?_, pieces_ok h.path, h.query, h.fragment, fun _ => rfl, ?_, ?_⟩
  · rintro _ ⟨⟩
    exact h.scheme
  · rintro _ ⟨⟩
    refine ⟨by rintro u ⟨⟩, fun _ => h.host, by rintro ⟨⟩, h.port⟩
  · rintro ⟨⟩
  · rintro ⟨⟩

theorem create_address (ip : Str → Bool) {scheme host : Str} {port : Option Str} {path : Str} {query fragment : Option Str}
    (h : AddressOk scheme host port path query fragment) :
    createFromParse ip (address scheme host port path query fragment) = some (addressUri scheme host port path query fragment) := by
  rw [← address_text]
  exact create_text (address_ok ip h)

theorem getPath_address (scheme host : Str) (port : Option Str) (path : Str) (query fragment : Option Str) :
    (addressUri scheme host port path query fragment).getPath = some path := by
  unfold Uri.getPath addressUri
  rw [if_neg (pieces_ne path), join_pieces]

/-- Splitting an address gives its parts.  Missing: URIs of other forms, for which see `C101_parts` and `C101_split_violated`. -/
theorem C101_split_partial (ip : Str → Bool) (scheme host : Str) (port : Option Str) (path : Str) (query fragment : Option Str)
    (h : AddressOk scheme host port path query fragment) :
    splitUri ip (address scheme host port path query fragment) = some ⟨some scheme, some host, port, some path, query, fragment⟩ ∧
    splitUriPath ip (address scheme host port path query fragment) = some path ∧
    splitUriFragment ip (address scheme host port path query fragment) = fragment := by
  unfold splitUri splitUriPath splitUriFragment
  rw [create_address ip h]
  refine ⟨?_, getPath_address .., rfl⟩
  rw [Option.map_some, getPath_address]
  rfl

example : AddressOk "http".toList "h.org".toList (some "80".toList) "a/%20b.kml".toList (some "x=1".toList) (some "p".toList) :=
  ⟨by decide +kernel, by decide +kernel, by rintro p ⟨⟩; decide +kernel, by decide +kernel, by rintro s ⟨⟩; decide +kernel,
    by rintro s ⟨⟩; decide +kernel⟩

/-- In general the parts do not tell the URI: a path from the root and a relative one are split alike, and who asks is not among the parts. -/
theorem C101_split_violated (ip : Str → Bool) :
    (splitUri ip "/a".toList = splitUri ip "a".toList ∧ (splitUri ip "a".toList).isSome = true) ∧
    (splitUri ip "http://u@h/a".toList = splitUri ip "http://h/a".toList ∧ (splitUri ip "http://h/a".toList).isSome = true) :=
  ⟨⟨rfl, rfl⟩, ⟨rfl, rfl⟩⟩

/-- The fetchable URI of an address is the address without the fragment.  Missing: addresses with a query, and URIs
of other forms, for which see `C101_fetched` and `C101_fetchable_violated`. -/
theorem C101_fetchable_partial (ip : Str → Bool) (scheme host : Str) (port : Option Str) (path : Str) (fragment : Option Str)
    (h : AddressOk scheme host port path none fragment) (hh : host ≠ []) (hp : port ≠ some []) :
    fetchableUri (lib ip) (address scheme host port path none fragment) = some (address scheme host port path none none) := by
  have hs : scheme ≠ [] := by
    rintro rfl
    exact absurd h.scheme (by decide)
  unfold fetchableUri lib
  dsimp only
  rw [create_address ip h, Option.map_some, getPath_address]
  dsimp only [addressUri, Uri.getHost, Uri.getPort, Option.map_some, Option.bind_some, Option.getD_some]
  rw [if_pos ⟨hs, hh⟩]
  cases port with
  | none => simp [address, before]
  | some p =>
    have : p ≠ [] := fun e => hp (by rw [e])
    simp [address, before, this]

example : fetchableUri (lib fun _ => false) "http://h:80/a.kml#p".toList = some "http://h:80/a.kml".toList := by decide +kernel

/-- The query of an address is lost as well, and so are the root of a path and the scheme of a file. -/
theorem C101_fetchable_violated (ip : Str → Bool) :
    fetchableUri (lib ip) "http://h/x?id=1".toList = some "http://h/x".toList ∧
    fetchableUri (lib ip) "/a/b.kml".toList = some "a/b.kml".toList ∧
    fetchableUri (lib ip) "file:///a/b.kml".toList = some "a/b.kml".toList ∧
    fetchableUri (lib ip) "http://u@h/x".toList = some "http://h/x".toList := ⟨rfl, rfl, rfl, rfl⟩

/-- **C101, any URI.** Of every well formed URI the parts are given out as they stand, except for who asks and for the slash a path may begin
with. -/
theorem C101_parts (ip : Str → Bool) (u : Uri) (h : u.Ok ip) :
    ∃ p, splitUri ip u.text = some ⟨u.scheme, u.auth.map (·.host), u.auth.bind (·.port), p, u.query, u.fragment⟩ ∧
      (u.path = p.getD [] ∨ u.path = '/' :: p.getD []) ∧ splitUriPath ip u.text = p ∧ splitUriFragment ip u.text = u.fragment := by
  refine ⟨u.getPath, ?_, ?_, ?_, ?_⟩
  · unfold splitUri
    rw [create_text h]
    rfl
  · have : u.getPath.getD [] = join u.segs := by
      unfold Uri.getPath
      split
      · next h => rw [h]; rfl
      · rfl
    rw [this]
    unfold Uri.path
    split
    · exact Or.inr rfl
    · exact Or.inl rfl
  · unfold splitUriPath
    rw [create_text h]
    rfl
  · unfold splitUriFragment
    rw [create_text h]
    rfl

/-- A mail address, and a path from the root. -/
example : splitUri (fun _ => false) "mailto:a@b".toList = some ⟨some "mailto".toList, none, none, some "a@b".toList, none, none⟩ ∧
    splitUri (fun _ => false) "/a/b?c".toList = some ⟨none, none, none, some "a/b".toList, some "c".toList, none⟩ := by decide +kernel

/-- **C101, what is fetched.** For every well formed URI: with a scheme and a host, these with the port and the path, and else the path alone,
without the slash it may begin with. -/
theorem C101_fetched (ip : Str → Bool) (u : Uri) (h : u.Ok ip) :
    ∃ p, (u.path = p ∨ u.path = '/' :: p) ∧
      (∀ s a, u.scheme = some s → u.auth = some a → a.host ≠ [] →
        fetchableUri (lib ip) u.text = some (address s a.host (a.port.filter (· ≠ [])) p none none)) ∧
      ((u.scheme = none ∨ ∀ a, u.auth = some a → a.host = []) → fetchableUri (lib ip) u.text = some p) := by
  obtain ⟨p, -, hp, hq, -⟩ := C101_parts ip u h
  have hg : u.getPath = p := by
    unfold splitUriPath at hq
    rw [create_text h] at hq
    exact hq
  refine ⟨p.getD [], hp, ?_, ?_⟩
  · intro s a hs ha hh
    have hsn : s ≠ [] := by
      rintro rfl
      exact absurd (h.scheme [] hs) (by decide)
    unfold fetchableUri lib
    dsimp only
    rw [create_text h, Option.map_some, hg]
    dsimp only [Uri.getHost, Uri.getPort]
    rw [hs, ha]
    dsimp only [Option.map_some, Option.bind_some, Option.getD_some]
    rw [if_pos ⟨hsn, hh⟩]
    obtain ⟨user, host, bracket, port⟩ := a
    cases port with
    | none => simp [address, before]
    | some q => by_cases e : q = [] <;> simp [address, before, e, Option.filter]
  · intro hn
    unfold fetchableUri lib
    dsimp only
    rw [create_text h, Option.map_some, hg]
    dsimp only [Uri.getHost, Uri.getPort]
    rw [if_neg, List.nil_append]
    rintro ⟨h1, h2⟩
    rcases hn with hn | hn
    · rw [hn] at h1
      exact h1 rfl
    · cases ha : u.auth with
      | none => rw [ha] at h2; exact h2 rfl
      | some a => rw [ha] at h2; exact h2 (hn a ha)

/-- The brackets of a host that is an address of version 6 are lost: what is fetched is not a URI. -/
theorem C101_brackets_violated (ip : Str → Bool) (h : ip "::1".toList = true) :
    (createFromParse ip "http://[::1]/a".toList).isSome = true ∧
    fetchableUri (lib ip) "http://[::1]/a".toList = some "http://::1/a".toList ∧ createFromParse ip "http://::1/a".toList = none := by
  have hu : createFromParse ip "http://[::1]/a".toList =
      some ⟨some "http".toList, some ⟨none, "::1".toList, true, none⟩, false, ["a".toList], none, none⟩ := by
    refine create_text (u := ⟨some "http".toList, some ⟨none, "::1".toList, true, none⟩, false, ["a".toList], none, none⟩)
      ⟨?_, ?_, ?_, ?_, ?_, fun _ => rfl, (fun h => nomatch h), (fun h => nomatch h)⟩
    · rintro s ⟨⟩; decide +kernel
    · rintro a ⟨⟩; exact ⟨(fun _ h => nomatch h), (fun h => nomatch h), fun _ => ⟨by decide +kernel, h⟩, (fun _ h => nomatch h)⟩
    · decide +kernel
    · exact (fun _ h => nomatch h)
    · exact (fun _ h => nomatch h)
  refine ⟨by rw [hu]; rfl, ?_, rfl⟩
  unfold fetchableUri lib
  dsimp only
  rw [hu]
  rfl

theorem resolveUri_of {ip : Str → Bool} {base target : Str} {b r : Uri} (hb : createFromParse ip base = some b)
    (hr : createFromParse ip target = some r) (hs : b.scheme ≠ none) : resolveUri ip base target = some (resolve b r).text := by
  unfold resolveUri
  rw [hb, hr]
  exact if_pos (Option.isSome_iff_ne_none.2 hs)

/-- A base with scheme and authority: every relative reference and every URI with an authority is resolved, to a URI with scheme and
authority that is well formed.  If the reference has a path there are no dots in the result; if it has neither scheme nor authority, these are
the base's. -/
theorem C101_resolved (ip : Str → Bool) (base target : Str) (b r : Uri) (hb : createFromParse ip base = some b)
    (hr : createFromParse ip target = some r) (hs : b.scheme ≠ none) (ha : b.auth ≠ none) (h : r.scheme = none ∨ r.auth ≠ none) :
    ∃ s u, resolveUri ip base target = some s ∧ createFromParse ip s = some u ∧ u.scheme ≠ none ∧ u.auth ≠ none ∧
      (r.scheme = none → r.auth = none → u.scheme = b.scheme ∧ u.auth = b.auth) ∧
      (r.segs ≠ [] ∨ r.absolute = true → Dotless u.segs) := by
  obtain ⟨h1, h2, h3, h4, h5⟩ := resolve_ok (create_ok hb).1 (create_ok hr).1 hs ha h
  exact ⟨_, _, resolveUri_of hb hr hs, create_text h1, h2, h3, h4, h5⟩

example : resolveUri (fun _ => false) "http://h/a/./b/c".toList "../../x/./y?q".toList = some "http://h/x/y?q".toList := by decide +kernel

/-- A URI with a scheme that has no dots in its path stays as it is. -/
theorem C101_whole (ip : Str → Bool) (base target : Str) (b r : Uri) (hb : createFromParse ip base = some b) (hz : '\x00' ∉ target)
    (hr : createFromParse ip target = some r) (hs : b.scheme ≠ none) (hrs : r.scheme ≠ none) (hd : Dotless r.segs) :
    resolveUri ip base target = some target := by
  rw [resolveUri_of hb hr hs]
  have : resolve b r = r := by
    unfold resolve
    rw [if_pos (Option.isSome_iff_ne_none.2 hrs), removeDots_self hd]
    rfl
  rw [this, ((create_iff hz).1 hr).1]

example : resolveUri (fun _ => false) "http://h/a".toList "file:///b/c".toList = some "file:///b/c".toList := by decide +kernel

/-- A fragment alone is put in the place of the base's. -/
theorem C101_fragment (ip : Str → Bool) (base fragment : Str) (old : Option Str) (hz : '\x00' ∉ base ++ before "#".toList old) (hb : '#' ∉ base)
    (b : Uri) (hp : createFromParse ip (base ++ before "#".toList old) = some b) (hs : b.scheme ≠ none) (hf : textOk queryChar fragment = true) :
    resolveUri ip (base ++ before "#".toList old) ('#' :: fragment) = some (base ++ '#' :: fragment) := by
  obtain ⟨h1, h2⟩ := (create_iff hz).1 hp
  have hr : createFromParse ip ('#' :: fragment) = some ⟨none, none, false, [], none, some fragment⟩ :=
    create_text (u := ⟨none, none, false, [], none, some fragment⟩)
      ⟨by rintro s ⟨⟩, by rintro a ⟨⟩, by rintro s ⟨⟩, by rintro s ⟨⟩, by rintro s ⟨⟩; exact hf, fun _ => rfl, by rintro _ ⟨⟩, by rintro _ _ _ s ⟨⟩⟩
  rw [resolveUri_of hp hr hs]
  have e : resolve b ⟨none, none, false, [], none, some fragment⟩ = { b with fragment := some fragment } := by
    unfold resolve
    simp
  rw [e]
  congr 1
  have hfr : '#' ∉ schemeText b.scheme ++ hierText b ++ before ['?'] b.query := by
    have nq : '#' ∉ before ['?'] b.query := by
      cases hq : b.query with
      | none => simp [before]
      | some q =>
        have : '#' ∉ q := textOk_not (h2.query q hq) (by decide) (by decide) (by decide)
        simp [before, this]
    simp only [List.mem_append, not_or]
    exact ⟨⟨(scheme_char h2.scheme).2, (hier_char ⟨h2.auth, h2.segs, h2.absolute, h2.first⟩).2⟩, nq⟩
  have c1 := cut_of b.fragment hfr
  rw [← uri_text, h1] at c1
  have c2 := cut_of old hb
  have c3 : (schemeText b.scheme ++ hierText b ++ before ['?'] b.query, b.fragment) = (base, old) := by
    rw [← c1, ← c2]; rfl
  have c4 : schemeText b.scheme ++ hierText b ++ before ['?'] b.query = base := (Prod.mk.inj c3).1
  rw [uri_text]
  have e1 : hierText { b with fragment := some fragment } = hierText b := rfl
  rw [e1]
  dsimp only
  rw [c4]
  rfl

example : resolveUri (fun _ => false) "http://h/a?q#old".toList "#new".toList = some "http://h/a?q#new".toList := by decide +kernel

/-- Without a scheme the base is refused. -/
theorem C101_no_base (ip : Str → Bool) (base target : Str) (b : Uri) (hb : createFromParse ip base = some b) (hs : b.scheme = none) :
    resolveUri ip base target = none := by
  unfold resolveUri
  rw [hb, Option.bind_some]
  cases createFromParse ip target with
  | none => rfl
  | some r => simp [hs]

example : resolveUri (fun _ => false) "/a/b".toList "c".toList = none := by decide +kernel

/-- A reference in a file that lies some directories below a directory, and that goes up as many of them, names what the rest of the
reference names in that directory. -/
theorem C101_relative (ip : Str → Bool) (d r : Uri) (hd : d.Ok ip) (hdir : d.Directory) (hdot : Dotless d.segs) (hr : r.Ok ip) (hrel : r.Relative)
    (hrdot : Dotless r.segs) (subs : List Str) (hsubs : ∀ s ∈ subs, textOk pathChar s = true) (hsub : Dotless subs) (name : Str)
    (hname : textOk pathChar name = true) :
    resolveUri ip (d.text ++ '/' :: join (subs ++ [name])) ((List.replicate subs.length "../".toList).flatten ++ r.text) =
      some (d.text ++ '/' :: r.text) := by
  have hok : ∀ s ∈ subs ++ [name], textOk pathChar s = true := by
    intro s hs
    rcases List.mem_append.1 hs with hs | hs
    · exact hsubs s hs
    · rw [List.mem_singleton.1 hs]; exact hname
  have hb := create_text (file_ok hd hdir hok (q := none) (f := none) (by rintro s ⟨⟩) (by rintro s ⟨⟩))
  have ht := create_text (up_ok hr hrel subs.length)
  rw [file_text hd hdir (by simp)] at hb
  rw [up_text hrel] at ht
  simp only [before, List.append_nil] at hb
  have := resolveUri_of hb ht hdir.1
  rw [file_resolve hdot hrel hrdot subs hsub, file_relative_text hd hdir hrel] at this
  exact this

/-- In particular a relative reference names what lies beside the file. -/
theorem C101_beside (ip : Str → Bool) (d r : Uri) (hd : d.Ok ip) (hdir : d.Directory) (hdot : Dotless d.segs) (hr : r.Ok ip) (hrel : r.Relative)
    (hrdot : Dotless r.segs) (name : Str) (hname : textOk pathChar name = true) :
    resolveUri ip (d.text ++ '/' :: name) r.text = some (d.text ++ '/' :: r.text) :=
  C101_relative ip d r hd hdir hdot hr hrel hrdot [] (by rintro s ⟨⟩) ⟨by simp, by simp⟩ name hname

example : resolveUri (fun _ => false) "http://h/a/b/c/d.kml".toList "../../x.png#p".toList = some "http://h/a/x.png#p".toList := by decide +kernel

example : ∃ d r : Uri, d.text = "http://h/a".toList ∧ r.text = "x.png#p".toList ∧ d.Ok (fun _ => false) ∧ d.Directory ∧ Dotless d.segs ∧
    r.Ok (fun _ => false) ∧ r.Relative ∧ Dotless r.segs := by
  have hd : createFromParse (fun _ => false) "http://h/a".toList =
      some ⟨some "http".toList, some ⟨none, "h".toList, false, none⟩, false, ["a".toList], none, none⟩ := by decide +kernel
  have hr : createFromParse (fun _ => false) "x.png#p".toList = some ⟨none, none, false, ["x.png".toList], none, some "p".toList⟩ := by
    decide +kernel
  exact ⟨_, _, ((create_iff (by decide)).1 hd).1, ((create_iff (by decide)).1 hr).1, (create_ok hd).1,
    ⟨by simp, by simp, rfl, rfl⟩, ⟨by decide, by decide⟩, (create_ok hr).1, ⟨rfl, rfl, rfl, by simp⟩, ⟨by decide, by decide⟩⟩

/-- The target of a model's texture is found beside the geometry, which is found beside the KML file. -/
theorem C101_model (ip : Str → Bool) (d g t : Uri) (hd : d.Ok ip) (hdir : d.Directory) (hdot : Dotless d.segs)
    (dir : List Str) (gname : Str) (hg : g.Ok ip) (hgs : g.segs = dir ++ [gname]) (hgrel : g.Relative) (hgdot : Dotless g.segs)
    (hgq : g.query = none) (hgf : g.fragment = none) (ht : t.Ok ip) (htrel : t.Relative) (htdot : Dotless t.segs) (name : Str)
    (hname : textOk pathChar name = true) :
    resolveModelTargetHref ip (d.text ++ '/' :: name) g.text t.text =
      some (if dir = [] then d.text ++ '/' :: t.text else d.text ++ '/' :: join dir ++ '/' :: t.text) := by
  unfold resolveModelTargetHref
  rw [C101_beside ip d g hd hdir hdot hg hgrel hgdot name hname, Option.bind_some]
  have hsub : ∀ x ∈ dir, x ∈ g.segs := fun x hx => by rw [hgs]; exact List.mem_append_left _ hx
  have hd' : (d.file dir none none).Ok ip := file_ok hd hdir (fun s hs => hg.segs s (hsub s hs)) (by rintro s ⟨⟩) (by rintro s ⟨⟩)
  have hdir' : (d.file dir none none).Directory := ⟨hdir.1, hdir.2.1, rfl, rfl⟩
  have hdot' : Dotless (d.file dir none none).segs := hdot.append ⟨fun h => hgdot.1 (hsub _ h), fun h => hgdot.2 (hsub _ h)⟩
  have hgn : textOk pathChar gname = true := hg.segs gname (by rw [hgs]; simp)
  have := C101_beside ip _ t hd' hdir' hdot' ht htrel htdot gname hgn
  have hgt : g.text = join (dir ++ [gname]) := by
    rw [relative_text hgrel, hgq, hgf, hgs]
    simp [before]
  have hself : d.file [] none none = d := by
    obtain ⟨sc, auth, ab, segs, q, f⟩ := d
    have h1 : ab = false := hd.absolute hdir.2.1
    have h2 : q = none := hdir.2.2.1
    have h3 : f = none := hdir.2.2.2
    simp [Uri.file, h1, h2, h3]
  by_cases he : dir = []
  · subst he
    rw [if_pos rfl, hgt]
    rw [hself] at this
    exact this
  · rw [if_neg he, hgt, join_append he (by simp)]
    rw [file_text hd hdir he] at this
    simpa [before, join] using this

example : resolveModelTargetHref (fun _ => false) "http://h/a/doc.kml".toList "files/m.dae".toList "tex.jpg".toList =
    some "http://h/a/files/tex.jpg".toList := by decide +kernel

end Kml.Rfc
