import Verif.Model.Uri
import Verif.Lemmas.FindText
/-! Properties C44 and C45: taking URLs apart. -/
namespace Kml.Uri
open Kml

theorem substr_ok {s : Str} {pos len : Nat} (h : pos ≤ s.length) : substr s pos len = .ok ((s.drop pos).take len) := by
  simp [substr, h]

theorem find_le {s pat : Str} {i : Nat} (h : find s pat 0 = some i) : i + pat.length ≤ s.length := by
  rw [find_at_zero] at h
  obtain ⟨a, b, e, l, _⟩ := findFrom_cut h
  rw [e]
  simp only [List.length_append]
  omega

theorem parseScheme_spec (s : Str) : ∃ sch n, parseScheme s = .ok (sch, n) ∧ n ≤ s.length ∧ (n = 0 → sch = []) := by
  unfold parseScheme
  rcases h : find s [':', '/', '/'] 0 with _ | n
  · exact ⟨[], 0, rfl, by omega, fun _ => rfl⟩
  · cases n with
    | zero => exact ⟨[], 0, rfl, by omega, fun _ => rfl⟩
    | succ n =>
      have := find_le h
      simp only [List.length_cons, List.length_nil] at this
      exact ⟨_, n + 1 + 3, by simp only [substr_ok (Nat.zero_le _)]; rfl, by omega, by omega⟩

theorem parseNetLoc_spec (s : Str) : ∃ loc n, parseNetLoc s = .ok (loc, n) ∧ n ≤ s.length := by
  unfold parseNetLoc
  rcases h : find s ['/'] 0 with _ | n
  · exact ⟨[], 0, rfl, by omega⟩
  · have := find_le h
    exact ⟨_, n + 1, by simp only [substr_ok (Nat.zero_le _)]; rfl, by simpa using this⟩

/-- Taking a URL apart never throws, whatever the text. -/
theorem C44_never_throws (s : Str) : (parse s).Safe := by
  obtain ⟨sch, n, e1, l1, _⟩ := parseScheme_spec s
  have key : ∃ loc m, parseLoc s n = .ok (loc, m) ∧ m ≤ s.length := by
    unfold parseLoc
    by_cases hn : n > 0
    · obtain ⟨loc, k, e2, l2⟩ := parseNetLoc_spec ((s.drop n).take s.length)
      refine ⟨loc, k + n, by simp [hn, substr_ok l1, e2], ?_⟩
      simp only [List.length_take, List.length_drop] at l2
      omega
    · exact ⟨[], 0, by simp [hn], by omega⟩
  obtain ⟨loc, m, e2, l2⟩ := key
  unfold parse
  simp only [e1, Outcome.ok_bind, e2]
  rcases h : find s ['#'] 0 with _ | p
  · simp [substr_ok l2]
  · have := find_le h
    have hp : p + 1 ≤ s.length := by simpa using this
    simp [substr_ok l2, substr_ok hp]

/-- A URL without scheme: the path is everything up to the first `#` and the fragment is everything behind it. -/
theorem C44_relative (s : Str) (h : ∀ a b, s = a ++ [':', '/', '/'] ++ b → a = []) :
    ∃ path frag, parse s = .ok ⟨[], [], path, frag⟩ ∧ '#' ∉ path ∧
      (s = path ∧ frag = [] ∨ s = path ++ '#' :: frag) := by
  have e1 : parseScheme s = .ok ([], 0) := by
    unfold parseScheme
    rcases hf : find s [':', '/', '/'] 0 with _ | n
    · rfl
    · rw [find_at_zero] at hf
      obtain ⟨a, b, e, l, _⟩ := findFrom_cut hf
      have := h a b e
      subst this
      simp only [List.length_nil] at l
      subst l
      rfl
  unfold parse
  simp only [e1, Outcome.ok_bind, parseLoc, Nat.lt_irrefl, if_false]
  rcases hf : find s ['#'] 0 with _ | p
  · refine ⟨s, [], by simp [substr], ?_, .inl ⟨rfl, rfl⟩⟩
    rw [find_at_zero] at hf
    have := findFrom_not_infix hf
    intro hm
    exact this ((List.infix_iff_prefix_suffix).2 (by
      obtain ⟨u, v, e⟩ := List.append_of_mem hm
      exact ⟨'#' :: v, by simp, by rw [e]; simp⟩))
  · have hle := find_le hf
    simp only [List.length_cons, List.length_nil] at hle
    rw [find_at_zero] at hf
    obtain ⟨a, b, e, l, m⟩ := findFrom_cut hf
    refine ⟨a, b, ?_, ?_, .inr (by simp [e])⟩
    · subst l
      subst e
      simp only [substr, hle, Nat.zero_le, if_true, Outcome.ok_bind, List.drop_zero]
      congr 2
      · simp
      · rw [show a.length + 1 = (a ++ ['#']).length by simp, List.drop_left, List.take_of_length_le]
        simp
        omega
    · intro hm
      obtain ⟨u, v, e2⟩ := List.append_of_mem hm
      refine m u.length (by rw [← l, e2]; simp) ?_
      rw [e, e2]
      simp

/-- It is relative, and relative with a path unless the path is empty. -/
theorem C44_relative_kind (s : Str) (h : ∀ a b, s = a ++ [':', '/', '/'] ++ b → a = []) (r : Href) (hr : parse s = .ok r) :
    r.isRelative = true ∧ (r.isRelativePath = true ↔ r.path ≠ []) ∧ (r.isFragmentOnly = true ↔ ∃ f, f ≠ [] ∧ s = '#' :: f) := by
  obtain ⟨path, frag, e, hp, hs⟩ := C44_relative s h
  rw [e] at hr
  cases hr
  refine ⟨rfl, ?_, ?_⟩
  · simp [Href.isRelativePath]
  · simp only [Href.isFragmentOnly, List.isEmpty_nil, Bool.and_true, Bool.and_eq_true, Bool.not_eq_true',
      List.isEmpty_eq_false_iff, List.isEmpty_iff]
    constructor
    · rintro ⟨h1, rfl⟩
      rcases hs with ⟨_, h2⟩ | h2
      · exact absurd h2 h1
      · exact ⟨frag, h1, by simpa using h2⟩
    · rintro ⟨f, hf, rfl⟩
      rcases hs with ⟨h1, _⟩ | h1
      · exact absurd (by simp [← h1]) hp
      · cases path with
        | nil => simp only [List.nil_append, List.cons.injEq, true_and] at h1; exact ⟨h1 ▸ hf, rfl⟩
        | cons c cs =>
          simp only [List.cons_append, List.cons.injEq] at h1
          exact absurd (by rw [h1.1]; simp) hp

example : parse "a/b.png#top".toList = .ok ⟨[], [], "a/b.png".toList, "top".toList⟩ ∧
    parse "#style".toList = .ok ⟨[], [], [], "style".toList⟩ := by decide

/-- `scheme://host/path` without a fragment is taken apart as a reader would, and so nothing is lost.  Missing: URLs
with a fragment and URLs without a `/` after the host, for which this is false. -/
theorem C44_absolute_partial (scheme host path : Str) (h1 : scheme ≠ []) (h2 : ':' ∉ scheme) (h3 : '/' ∉ host)
    (h4 : '#' ∉ scheme ++ host ++ path) :
    parse (scheme ++ "://".toList ++ host ++ "/".toList ++ path) = .ok ⟨scheme, host, path, []⟩ := by
  have e0 : scheme ++ "://".toList ++ host ++ "/".toList ++ path = scheme ++ [':', '/', '/'] ++ (host ++ '/' :: path) := by
    simp
  rw [e0]
  have f1 : find (scheme ++ [':', '/', '/'] ++ (host ++ '/' :: path)) [':', '/', '/'] 0 = some scheme.length := by
    rw [find_at_zero]; exact findFrom_fresh h2
  have f2 : find (host ++ '/' :: path) ['/'] 0 = some host.length := by
    rw [find_at_zero]
    have := findFrom_fresh (pat := []) (b := path) h3
    simpa using this
  have f3 : find (scheme ++ [':', '/', '/'] ++ (host ++ '/' :: path)) ['#'] 0 = none := by
    rw [find_at_zero]
    apply findFrom_absent
    simp only [List.mem_append, not_or] at h4
    simp [h4]
  obtain ⟨n, hn⟩ : ∃ n, scheme.length = n + 1 := by
    cases scheme with
    | nil => exact absurd rfl h1
    | cons c s => exact ⟨s.length, rfl⟩
  have e1 : parseScheme (scheme ++ [':', '/', '/'] ++ (host ++ '/' :: path)) = .ok (scheme, scheme.length + 3) := by
    unfold parseScheme
    rw [f1, hn]
    simp only [substr_ok (Nat.zero_le _)]
    rw [← hn]
    simp [List.append_assoc]
  have e2 : ((scheme ++ [':', '/', '/'] ++ (host ++ '/' :: path)).drop (scheme.length + 3)).take
      (scheme ++ [':', '/', '/'] ++ (host ++ '/' :: path)).length = host ++ '/' :: path := by
    rw [List.drop_append_of_le_length (by simp)]
    have : (scheme ++ [':', '/', '/']).drop (scheme.length + 3) = [] := by simp
    rw [this, List.nil_append, List.take_of_length_le]
    simp
    omega
  have e3 : parseNetLoc (host ++ '/' :: path) = .ok (host, host.length + 1) := by
    unfold parseNetLoc
    rw [f2]
    simp [substr]
  have e6 : parseLoc (scheme ++ [':', '/', '/'] ++ (host ++ '/' :: path)) (scheme.length + 3)
      = .ok (host, host.length + 1 + (scheme.length + 3)) := by
    unfold parseLoc
    rw [if_pos (by omega), substr_ok (by simp)]
    simp only [Outcome.ok_bind, e2, e3]
  unfold parse
  simp only [e1, Outcome.ok_bind, f3, e6]
  rw [substr_ok (by simp; omega)]
  simp only [Outcome.ok_bind]
  congr 2
  have : host.length + 1 + (scheme.length + 3) = scheme.length + 3 + (host.length + 1) := by omega
  rw [this, ← List.drop_drop, ]
  have e4 : (scheme ++ [':', '/', '/'] ++ (host ++ '/' :: path)).drop (scheme.length + 3) = host ++ '/' :: path := by
    have hl : (scheme ++ [':', '/', '/']).length = scheme.length + 3 := by simp
    rw [← hl, List.drop_left]
  rw [e4]
  have e5 : (host ++ '/' :: path).drop (host.length + 1) = path := by
    rw [show host ++ '/' :: path = (host ++ ['/']) ++ path by simp, show host.length + 1 = (host ++ ['/']).length by simp, List.drop_left]
  rw [e5, List.take_of_length_le]
  simp
  omega

example : parse "http://host/a/b.kml".toList = .ok ⟨"http".toList, "host".toList, "a/b.kml".toList, []⟩ := by decide

/-- With a fragment, the path of an absolute URL still holds the fragment: the end of the path is used as its length. -/
theorem C44_fragment_violated :
    parse "http://host/a.kml#top".toList = .ok ⟨"http".toList, "host".toList, "a.kml#top".toList, "top".toList⟩ := by decide

/-- Without a `/` after it, the host is taken for the path. -/
theorem C44_host_violated : parse "http://host".toList = .ok ⟨"http".toList, [], "host".toList, []⟩ := by decide

/-- **C44, with a fragment.** Of `scheme://host/path#fragment` the scheme, the host and the fragment are right, but
never the path: it goes on with `#` and as much of the fragment as there are characters before the path. -/
theorem C44_fragment (scheme host path frag : Str) (h1 : scheme ≠ []) (h2 : ':' ∉ scheme) (h3 : '/' ∉ host)
    (h4 : '#' ∉ scheme ++ host ++ path) :
    parse (scheme ++ "://".toList ++ host ++ "/".toList ++ path ++ "#".toList ++ frag)
      = .ok ⟨scheme, host, path ++ "#".toList ++ frag.take (scheme.length + host.length + 3), frag⟩ := by
  have e0 : scheme ++ "://".toList ++ host ++ "/".toList ++ path ++ "#".toList ++ frag
      = scheme ++ [':', '/', '/'] ++ (host ++ '/' :: (path ++ '#' :: frag)) := by
    simp
  rw [e0]
  have f1 : find (scheme ++ [':', '/', '/'] ++ (host ++ '/' :: (path ++ '#' :: frag))) [':', '/', '/'] 0 = some scheme.length := by
    rw [find_at_zero]; exact findFrom_fresh h2
  have f2 : find (host ++ '/' :: (path ++ '#' :: frag)) ['/'] 0 = some host.length := by
    rw [find_at_zero]
    have := findFrom_fresh (pat := []) (b := path ++ '#' :: frag) h3
    simpa using this
  have f3 : find (scheme ++ [':', '/', '/'] ++ (host ++ '/' :: (path ++ '#' :: frag))) ['#'] 0
      = some (scheme.length + host.length + path.length + 4) := by
    rw [find_at_zero]
    have h5 : '#' ∉ scheme ++ [':', '/', '/'] ++ host ++ ['/'] ++ path := by
      simp only [List.mem_append, not_or] at h4
      simp [h4]
    have := findFrom_fresh (pat := []) (b := frag) h5
    simp only [List.append_assoc, List.cons_append, List.nil_append, List.length_append, List.length_cons] at this ⊢
    rw [this]
    congr 1
    omega
  obtain ⟨n, hn⟩ : ∃ n, scheme.length = n + 1 := by
    cases scheme with
    | nil => exact absurd rfl h1
    | cons c s => exact ⟨s.length, rfl⟩
  have e1 : parseScheme (scheme ++ [':', '/', '/'] ++ (host ++ '/' :: (path ++ '#' :: frag))) = .ok (scheme, scheme.length + 3) := by
    unfold parseScheme
    rw [f1, hn]
    simp only [substr_ok (Nat.zero_le _)]
    rw [← hn]
    simp [List.append_assoc]
  have e4 : (scheme ++ [':', '/', '/'] ++ (host ++ '/' :: (path ++ '#' :: frag))).drop (scheme.length + 3)
      = host ++ '/' :: (path ++ '#' :: frag) := by
    rw [List.drop_append_of_le_length (by simp)]
    have : (scheme ++ [':', '/', '/']).drop (scheme.length + 3) = [] := by simp
    rw [this, List.nil_append]
  have e3 : parseNetLoc (host ++ '/' :: (path ++ '#' :: frag)) = .ok (host, host.length + 1) := by
    unfold parseNetLoc
    rw [f2]
    simp [substr]
  have e6 : parseLoc (scheme ++ [':', '/', '/'] ++ (host ++ '/' :: (path ++ '#' :: frag))) (scheme.length + 3)
      = .ok (host, host.length + 1 + (scheme.length + 3)) := by
    unfold parseLoc
    rw [if_pos (by omega), substr_ok (by simp)]
    simp only [Outcome.ok_bind, e4]
    rw [List.take_of_length_le (by simp; omega), e3]
    rfl
  unfold parse
  simp only [e1, Outcome.ok_bind, f3, e6]
  rw [substr_ok (by simp; omega), substr_ok (by simp; omega)]
  simp only [Outcome.ok_bind]
  have a1 : host.length + 1 + (scheme.length + 3) = scheme.length + 3 + (host.length + 1) := by omega
  have a2 : scheme.length + host.length + path.length + 4 + 1
      = scheme.length + 3 + (host.length + 1) + (path.length + 1) := by omega
  have e5 : (host ++ '/' :: (path ++ '#' :: frag)).drop (host.length + 1) = path ++ '#' :: frag := by
    rw [← List.drop_drop, List.drop_left]; rfl
  have e7 : (path ++ '#' :: frag).drop (path.length + 1) = frag := by
    rw [← List.drop_drop, List.drop_left]; rfl
  have d1 := List.drop_drop (i := host.length + 1) (j := scheme.length + 3) (l := scheme ++ [':', '/', '/'] ++ (host ++ '/' :: (path ++ '#' :: frag)))
  have d2 := List.drop_drop (i := path.length + 1) (j := scheme.length + 3 + (host.length + 1)) (l := scheme ++ [':', '/', '/'] ++ (host ++ '/' :: (path ++ '#' :: frag)))
  rw [e4, e5] at d1
  rw [← d1, e7] at d2
  rw [a1, a2, ← d1, ← d2, List.take_of_length_le (l := frag) (by simp; omega)]
  congr 2
  have a3 : scheme.length + host.length + path.length + 4 = path.length + (1 + (scheme.length + host.length + 3)) := by omega
  rw [a3, List.take_length_add_append, Nat.add_comm 1, List.take_succ_cons]
  simp

/-- **C44, without a slash.** Of `scheme://host` the scheme is right, but the host is always taken for the path. -/
theorem C44_host (scheme host : Str) (h1 : scheme ≠ []) (h2 : ':' ∉ scheme) (h3 : '/' ∉ host)
    (h4 : '#' ∉ scheme ++ host) :
    parse (scheme ++ "://".toList ++ host) = .ok ⟨scheme, [], host, []⟩ := by
  have e0 : scheme ++ "://".toList ++ host = scheme ++ [':', '/', '/'] ++ host := rfl
  rw [e0]
  have f1 : find (scheme ++ [':', '/', '/'] ++ host) [':', '/', '/'] 0 = some scheme.length := by
    rw [find_at_zero]; exact findFrom_fresh h2
  have f2 : find host ['/'] 0 = none := by
    rw [find_at_zero]; exact findFrom_absent h3
  have f3 : find (scheme ++ [':', '/', '/'] ++ host) ['#'] 0 = none := by
    rw [find_at_zero]
    apply findFrom_absent
    simp only [List.mem_append, not_or] at h4
    simp [h4]
  obtain ⟨n, hn⟩ : ∃ n, scheme.length = n + 1 := by
    cases scheme with
    | nil => exact absurd rfl h1
    | cons c s => exact ⟨s.length, rfl⟩
  have e1 : parseScheme (scheme ++ [':', '/', '/'] ++ host) = .ok (scheme, scheme.length + 3) := by
    unfold parseScheme
    rw [f1, hn]
    simp only [substr_ok (Nat.zero_le _)]
    rw [← hn]
    simp [List.append_assoc]
  have e4 : (scheme ++ [':', '/', '/'] ++ host).drop (scheme.length + 3) = host := by
    rw [List.drop_append_of_le_length (by simp)]
    have : (scheme ++ [':', '/', '/']).drop (scheme.length + 3) = [] := by simp
    rw [this, List.nil_append]
  have e6 : parseLoc (scheme ++ [':', '/', '/'] ++ host) (scheme.length + 3) = .ok ([], scheme.length + 3) := by
    unfold parseLoc
    rw [if_pos (by omega), substr_ok (by simp)]
    simp only [Outcome.ok_bind, e4]
    rw [List.take_of_length_le (by simp; omega)]
    unfold parseNetLoc
    rw [f2]
    simp
  unfold parse
  simp only [e1, Outcome.ok_bind, f3, e6]
  rw [substr_ok (by simp), e4, List.take_of_length_le (by simp; omega)]
  rfl

example : parse "http://h/a#123456789".toList = .ok ⟨"http".toList, "h".toList, "a#12345678".toList, "123456789".toList⟩ := by decide

/-! #### C45 -/

theorem kmzSplit_spec (url : Str) :
    (¬ dotKmz <:+: url ∧ kmzSplit url = .ok none) ∨
    ∃ a rest, url = a ++ dotKmz ++ rest ∧ (∀ j < a.length, ¬ dotKmz <+: url.drop j) ∧
      kmzSplit url = .ok (some (a ++ dotKmz, rest.drop 1)) := by
  unfold kmzSplit
  rcases hf : find url dotKmz 0 with _ | n
  · rw [find_at_zero] at hf
    exact .inl ⟨findFrom_not_infix hf, rfl⟩
  · right
    rw [find_at_zero] at hf
    obtain ⟨a, b, e, l, m⟩ := findFrom_cut hf
    refine ⟨a, b, e, by rw [l]; exact m, ?_⟩
    subst l
    subst e
    have hl : (a ++ dotKmz).length = a.length + 4 := by simp [dotKmz]
    simp only [substr_ok (Nat.zero_le _), Outcome.ok_bind, List.drop_zero]
    have t1 : (a ++ dotKmz ++ b).take (a.length + 4) = a ++ dotKmz := by rw [← hl, List.take_left]
    rw [t1]
    cases b with
    | nil =>
      rw [if_neg]
      · rfl
      · rw [List.append_nil, hl]; omega
    | cons c b =>
      rw [if_pos (by rw [List.length_append, hl]; simp)]
      rw [substr_ok (by rw [List.length_append, hl]; simp)]
      simp only [Outcome.ok_bind]
      congr 3
      rw [← List.drop_drop, ← hl, List.drop_left, List.take_of_length_le]
      simp
      omega

/-- It never throws. -/
theorem C45_never_throws (url : Str) : (kmzSplit url).Safe := by
  rcases kmzSplit_spec url with ⟨_, h⟩ | ⟨_, _, _, _, h⟩ <;> simp [h]

/-- URLs without `.kmz`, and only these, are refused. -/
theorem C45_refused (url : Str) : kmzSplit url = .ok none ↔ ¬ ".kmz".toList <:+: url := by
  have hk : ".kmz".toList = dotKmz := by decide
  rw [hk]
  rcases kmzSplit_spec url with ⟨h, e⟩ | ⟨a, b, e, _, h⟩
  · simp [h, e]
  · simp only [h, Outcome.ok.injEq, reduceCtorEq, false_iff]
    exact fun hn => hn ⟨a, b, e.symm⟩

/-- Otherwise the URL is cut behind its first `.kmz`; what follows is the path inside, without its first character. -/
theorem C45_split (url kmz path : Str) (h : kmzSplit url = .ok (some (kmz, path))) :
    (url = kmz ∧ path = [] ∨ ∃ c, url = kmz ++ c :: path) ∧
    (∃ a, kmz = a ++ ".kmz".toList ∧ ∀ j < a.length, ¬ ".kmz".toList <+: url.drop j) := by
  rcases kmzSplit_spec url with ⟨_, e⟩ | ⟨a, b, e, m, h'⟩
  · rw [h] at e; cases e
  · rw [h] at h'
    simp only [Outcome.ok.injEq, Option.some.injEq, Prod.mk.injEq] at h'
    obtain ⟨rfl, rfl⟩ := h'
    refine ⟨?_, a, rfl, m⟩
    cases b with
    | nil => left; simp [e]
    | cons c b => right; exact ⟨c, by simp [e]⟩

/-- When the first `.kmz` is the end of a path segment, archive and path inside put together are the URL.  Missing:
other URLs, for which this is false. -/
theorem C45_recombine_partial (url kmz path : Str) (h : kmzSplit url = .ok (some (kmz, path)))
    (hseg : ∀ a c b, url = a ++ ".kmz".toList ++ c :: b → c = '/') :
    (url = kmz ∧ path = []) ∨ url = kmz ++ "/".toList ++ path := by
  obtain ⟨h1 | ⟨c, h1⟩, a, h2, _⟩ := C45_split url kmz path h
  · exact .inl h1
  · right
    have := hseg a c path (by rw [h1, h2])
    rw [h1, this]
    simp

example : kmzSplit "http://h/a.kmz/b/doc.kml".toList = .ok (some ("http://h/a.kmz".toList, "b/doc.kml".toList)) ∧
    kmzSplit "http://h/a.kmz".toList = .ok (some ("http://h/a.kmz".toList, [])) ∧
    kmzSplit "http://h/a.kml".toList = .ok none := by decide

/-- A KML file whose name holds `.kmz` is taken for a file inside an archive that does not exist. -/
theorem C45_violated : kmzSplit "http://h/my.kmz.kml".toList = .ok (some ("http://h/my.kmz".toList, "kml".toList)) := by decide

end Kml.Uri
