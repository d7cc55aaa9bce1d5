import Verif.Lemmas.Rfc
/-! Lemmas about resolving references (RFC 3986, 5.2). -/
namespace Kml.Rfc
open Kml Kml.Kmz

theorem removeDots_mem {x : Str} : ∀ {l out : List Str}, x ∈ removeDots out l → x = [] ∨ x ∈ out ∨ (x ∈ l ∧ x ≠ ['.'] ∧ x ≠ ['.', '.'])
  | [], out, h => by
    rw [removeDots] at h
    exact .inr (.inl (List.mem_reverse.1 h))
  | y :: l, out, h => by
    rw [removeDots] at h
    split at h
    · split at h
      · rcases List.mem_cons.1 (List.mem_reverse.1 h) with h | h
        · exact .inl h
        · exact .inr (.inl h)
      · rcases removeDots_mem h with h | h | ⟨h, h'⟩
        · exact .inl h
        · exact .inr (.inl h)
        · exact .inr (.inr ⟨List.mem_cons_of_mem _ h, h'⟩)
    · split at h
      · split at h
        · rcases List.mem_cons.1 (List.mem_reverse.1 h) with h | h
          · exact .inl h
          · exact .inr (.inl (List.mem_of_mem_tail h))
        · rcases removeDots_mem h with h | h | ⟨h, h'⟩
          · exact .inl h
          · exact .inr (.inl (List.mem_of_mem_tail h))
          · exact .inr (.inr ⟨List.mem_cons_of_mem _ h, h'⟩)
      · rename_i h1 h2
        rcases removeDots_mem h with h | h | ⟨h, h'⟩
        · exact .inl h
        · rcases List.mem_cons.1 h with h | h
          · subst h
            exact .inr (.inr ⟨by simp, h1, h2⟩)
          · exact .inr (.inl h)
        · exact .inr (.inr ⟨List.mem_cons_of_mem _ h, h'⟩)

theorem removeDots_dotless (l : List Str) : Dotless (removeDots [] l) := by
  constructor
  · intro h
    rcases removeDots_mem h with h | h | h
    · cases h
    · cases h
    · exact h.2.1 rfl
  · intro h
    rcases removeDots_mem h with h | h | h
    · cases h
    · cases h
    · exact h.2.2 rfl

theorem removeDots_append {l : List Str} (h : Dotless l) (out r : List Str) : removeDots out (l ++ r) = removeDots (l.reverse ++ out) r := by
  induction l generalizing out with
  | nil => rfl
  | cons x l ih =>
    have h1 : x ≠ ['.'] := fun e => h.1 (by rw [e]; exact List.mem_cons_self ..)
    have h2 : x ≠ ['.', '.'] := fun e => h.2 (by rw [e]; exact List.mem_cons_self ..)
    rw [List.cons_append, removeDots, if_neg h1, if_neg h2,
      ih ⟨fun e => h.1 (List.mem_cons_of_mem _ e), fun e => h.2 (List.mem_cons_of_mem _ e)⟩]
    simp

theorem removeDots_self {l : List Str} (h : Dotless l) (out : List Str) : removeDots out l = out.reverse ++ l := by
  have := removeDots_append h out []
  rw [List.append_nil, removeDots] at this
  rw [this]
  simp

theorem removeDots_up {r : List Str} (hr : r ≠ []) : ∀ (subs out : List Str),
    removeDots (subs ++ out) (List.replicate subs.length ['.', '.'] ++ r) = removeDots out r
  | [], out => rfl
  | x :: subs, out => by
    rw [List.length_cons, List.replicate_succ, List.cons_append, List.cons_append, removeDots, if_neg (by decide), if_pos rfl,
      if_neg (by simp [hr])]
    exact removeDots_up hr subs out

theorem Dotless.append {l l' : List Str} (h : Dotless l) (h' : Dotless l') : Dotless (l ++ l') := by
  constructor
  · intro e
    rcases List.mem_append.1 e with e | e
    · exact h.1 e
    · exact h'.1 e
  · intro e
    rcases List.mem_append.1 e with e | e
    · exact h.2 e
    · exact h'.2 e

/-! ### Texts without a zero -/

theorem text_zero {ip : Str → Bool} {u : Uri} (h : u.Ok ip) : '\x00' ∉ u.text := by
  rw [uri_text]
  have h1 : '\x00' ∉ schemeText u.scheme := by
    cases hs : u.scheme with
    | none => simp [schemeText]
    | some s =>
      have : '\x00' ∉ s := all_not (scheme_chars (h.scheme s hs)) (by decide)
      simp [schemeText, this]
  have h2 : '\x00' ∉ hierText u := by
    unfold hierText
    intro hc
    rcases List.mem_append.1 hc with hc | hc
    · cases ha : u.auth with
      | none => rw [ha] at hc; cases hc
      | some a =>
        rw [ha] at hc
        have : '\x00' ∉ a.text := authority_not (h.auth a ha) (by decide) (by decide) (by decide) (by decide) (by decide) (by decide) (by decide)
          (by decide) (by decide)
        simp [before, this] at hc
    · unfold Uri.path at hc
      rcases List.mem_append.1 hc with hc | hc
      · split at hc
        · exact absurd (List.mem_singleton.1 hc) (by decide)
        · cases hc
      · rcases mem_join hc with hc | ⟨x, hx, hc⟩
        · exact absurd hc (by decide)
        · exact textOk_not (h.segs x hx) (by decide) (by decide) (by decide) hc
  have h3 : '\x00' ∉ before ['?'] u.query := by
    cases hs : u.query with
    | none => simp [before]
    | some s =>
      have : '\x00' ∉ s := textOk_not (h.query s hs) (by decide) (by decide) (by decide)
      simp [before, this]
  have h4 : '\x00' ∉ before ['#'] u.fragment := by
    cases hs : u.fragment with
    | none => simp [before]
    | some s =>
      have : '\x00' ∉ s := textOk_not (h.fragment s hs) (by decide) (by decide) (by decide)
      simp [before, this]
  simp only [List.mem_append, not_or]
  exact ⟨⟨⟨h1, h2⟩, h3⟩, h4⟩

theorem cstr_id {s : Str} (h : '\x00' ∉ s) : UriFile.cstr s = s := by
  unfold UriFile.cstr
  induction s with
  | nil => rfl
  | cons c s ih =>
    have hc : c ≠ '\x00' := fun e => h (by simp [e])
    rw [List.takeWhile_cons_of_pos (p := fun x => decide (x ≠ '\x00')) (by simpa using hc), ih fun e => h (List.mem_cons_of_mem _ e)]

theorem create_text {ip : Str → Bool} {u : Uri} (h : u.Ok ip) : createFromParse ip u.text = some u := by
  unfold createFromParse
  rw [cstr_id (text_zero h)]
  exact parse_iff.2 ⟨rfl, h⟩

theorem create_iff {ip : Str → Bool} {s : Str} {u : Uri} (hs : '\x00' ∉ s) : createFromParse ip s = some u ↔ u.text = s ∧ u.Ok ip := by
  unfold createFromParse
  rw [cstr_id hs]
  exact parse_iff

theorem create_ok {ip : Str → Bool} {s : Str} {u : Uri} (h : createFromParse ip s = some u) : u.Ok ip ∧ u.text = UriFile.cstr s := by
  obtain ⟨h1, h2⟩ := parse_iff.1 h
  exact ⟨h2, h1⟩

/-! ### Resolved references -/

theorem removeDots_ok {l : List Str} (h : ∀ s ∈ l, textOk pathChar s = true) : ∀ s ∈ removeDots [] l, textOk pathChar s = true := by
  intro s hs
  rcases removeDots_mem hs with h' | h' | h'
  · rw [h']; rfl
  · cases h'
  · exact h s h'.1

theorem resolve_ok {ip : Str → Bool} {b r : Uri} (hb : b.Ok ip) (hr : r.Ok ip) (hs : b.scheme ≠ none) (ha : b.auth ≠ none)
    (h : r.scheme = none ∨ r.auth ≠ none) : (resolve b r).Ok ip ∧ (resolve b r).scheme ≠ none ∧ (resolve b r).auth ≠ none ∧
      (r.scheme = none → r.auth = none → (resolve b r).scheme = b.scheme ∧ (resolve b r).auth = b.auth) ∧
      (r.segs ≠ [] ∨ r.absolute = true → Dotless (resolve b r).segs) := by
  unfold resolve
  split
  · rename_i h1
    have h1' : r.scheme ≠ none := by
      intro e
      rw [e] at h1
      cases h1
    have hra : r.auth ≠ none := h.resolve_left h1'
    refine ⟨⟨hr.scheme, hr.auth, removeDots_ok hr.segs, hr.query, hr.fragment, hr.absolute, fun e => absurd e hra, fun e => absurd e h1'⟩, h1', hra,
      fun e => absurd e h1', fun _ => removeDots_dotless _⟩
  · rename_i h1
    have h1' : r.scheme = none := by
      cases e : r.scheme with
      | none => rfl
      | some x => rw [e] at h1; exact absurd rfl h1
    split
    · rename_i h2
      have hra : r.auth ≠ none := by
        intro e
        rw [e] at h2
        cases h2
      exact ⟨⟨hb.scheme, hr.auth, removeDots_ok hr.segs, hr.query, hr.fragment, hr.absolute, fun e => absurd e hra, fun e => absurd e hs⟩, hs, hra,
        fun _ e => absurd e hra, fun _ => removeDots_dotless _⟩
    · split
      · rename_i h3
        simp only [Bool.and_eq_true, decide_eq_true_eq, Bool.not_eq_true'] at h3
        refine ⟨⟨hb.scheme, hb.auth, hb.segs, ?_, hr.fragment, hb.absolute, hb.first, hb.colon⟩, hs, ha, fun _ _ => ⟨rfl, rfl⟩, ?_⟩
        · intro s hs
          have hs : r.query.or b.query = some s := hs
          cases hq : r.query with
          | none => rw [hq] at hs; exact hb.query s (by simpa using hs)
          | some x =>
            rw [hq] at hs
            cases hs
            exact hr.query _ hq
        · rintro (e | e)
          · exact absurd h3.1 e
          · rw [h3.2] at e; cases e
      · split
        · have hi : b.auth.isSome = true := Option.isSome_iff_ne_none.2 ha
          have hw : withHost ⟨b.scheme, b.auth, true, removeDots [] r.segs, r.query, r.fragment⟩ =
              ⟨b.scheme, b.auth, false, if removeDots [] r.segs = [] then [[]] else removeDots [] r.segs, r.query, r.fragment⟩ := by
            unfold withHost
            rw [if_pos (by simp [hi])]
          rw [hw]
          refine ⟨⟨hb.scheme, hb.auth, ?_, hr.query, hr.fragment, fun _ => rfl, fun e => absurd e ha, fun e => absurd e hs⟩, hs, ha,
            fun _ _ => ⟨rfl, rfl⟩, fun _ => ?_⟩
          · dsimp only
            split
            · intro s hs
              rw [List.mem_singleton.1 hs]
              rfl
            · exact removeDots_ok hr.segs
          · dsimp only
            split
            · exact ⟨by decide, by decide⟩
            · exact removeDots_dotless _
        · refine ⟨⟨hb.scheme, hb.auth, removeDots_ok ?_, hr.query, hr.fragment, fun _ => hb.absolute ha, fun e => absurd e ha, fun e => absurd e hs⟩,
            hs, ha, fun _ _ => ⟨rfl, rfl⟩, fun _ => removeDots_dotless _⟩
          intro s hs
          rcases List.mem_append.1 hs with hs | hs
          · exact hb.segs s (List.dropLast_subset _ hs)
          · exact hr.segs s hs

theorem resolve_relative {b r : Uri} (h : r.Relative) :
    resolve b r = ⟨b.scheme, b.auth, b.absolute, removeDots [] (b.segs.dropLast ++ r.segs), r.query, r.fragment⟩ := by
  obtain ⟨h1, h2, h3, h4⟩ := h
  unfold resolve
  rw [h1, h2, h3]
  simp [h4]

/-! ### Directories -/

/-- A file in a directory. -/
def Uri.file (d : Uri) (l : List Str) (q f : Option Str) : Uri := ⟨d.scheme, d.auth, false, d.segs ++ l, q, f⟩

theorem file_text {ip : Str → Bool} {d : Uri} (hd : d.Ok ip) (h : d.Directory) {l : List Str} (hl : l ≠ []) (q f : Option Str) :
    (d.file l q f).text = d.text ++ '/' :: join l ++ before ['?'] q ++ before ['#'] f := by
  obtain ⟨h1, h2, h3, h4⟩ := h
  have ha : d.absolute = false := hd.absolute h2
  have hi : d.auth.isSome = true := Option.isSome_iff_ne_none.2 h2
  have e1 : (d.file l q f).prefix = d.prefix := rfl
  have e2 : (d.file l q f).path = d.path ++ '/' :: join l := by
    unfold Uri.path Uri.file
    dsimp only
    rw [hi, ha]
    cases hs : d.segs with
    | nil => simp [join, hl]
    | cons x s =>
      have : join (x :: s ++ l) = _ := join_append (by simp) hl
      rw [this]
      simp
  have e3 : d.text = d.prefix ++ d.path := by
    unfold Uri.text
    rw [h3, h4]
    simp [before]
  unfold Uri.text at e3 ⊢
  rw [e1, e2, e3]
  have e4 : (d.file l q f).query = q := rfl
  have e5 : (d.file l q f).fragment = f := rfl
  rw [e4, e5]
  simp

theorem file_ok {ip : Str → Bool} {d : Uri} (hd : d.Ok ip) (h : d.Directory) {l : List Str} {q f : Option Str}
    (hl : ∀ s ∈ l, textOk pathChar s = true) (hq : ∀ s, q = some s → textOk queryChar s = true)
    (hf : ∀ s, f = some s → textOk queryChar s = true) : (d.file l q f).Ok ip := by
  refine ⟨hd.scheme, hd.auth, ?_, hq, hf, fun _ => rfl, fun e => absurd e h.2.1, fun e => absurd e h.1⟩
  intro s hs
  rcases List.mem_append.1 hs with hs | hs
  · exact hd.segs s hs
  · exact hl s hs

theorem relative_text {r : Uri} (h : r.Relative) : r.text = join r.segs ++ before ['?'] r.query ++ before ['#'] r.fragment := by
  obtain ⟨h1, h2, h3, _⟩ := h
  unfold Uri.text Uri.prefix Uri.path
  rw [h1, h2, h3]
  simp [before]

theorem file_relative_text {ip : Str → Bool} {d r : Uri} (hd : d.Ok ip) (h : d.Directory) (hr : r.Relative) :
    (d.file r.segs r.query r.fragment).text = d.text ++ '/' :: r.text := by
  rw [file_text hd h hr.2.2.2, relative_text hr]
  simp

theorem file_resolve {d r : Uri} (hdot : Dotless d.segs) (hrel : r.Relative) (hr : Dotless r.segs)
    (subs : List Str) (hsub : Dotless subs) (name : Str) (q f : Option Str) :
    resolve (d.file (subs ++ [name]) q f) ⟨none, none, false, List.replicate subs.length ['.', '.'] ++ r.segs, r.query, r.fragment⟩ =
      d.file r.segs r.query r.fragment := by
  have hne : List.replicate subs.length ['.', '.'] ++ r.segs ≠ [] := by simp [hrel.2.2.2]
  rw [resolve_relative ⟨rfl, rfl, rfl, hne⟩]
  have e : (d.file (subs ++ [name]) q f).segs.dropLast = d.segs ++ subs := by
    unfold Uri.file
    dsimp only
    rw [← List.append_assoc, List.dropLast_concat]
  rw [e]
  dsimp only
  rw [removeDots_append (hdot.append hsub), List.append_nil, List.reverse_append,
    show subs.length = subs.reverse.length from List.length_reverse.symm, removeDots_up hrel.2.2.2, removeDots_self hr]
  simp [Uri.file]

theorem up_text {r : Uri} (hr : r.Relative) (n : Nat) :
    Uri.text ⟨none, none, false, List.replicate n ['.', '.'] ++ r.segs, r.query, r.fragment⟩ = (List.replicate n ['.', '.', '/']).flatten ++ r.text := by
  have : join (List.replicate n ['.', '.'] ++ r.segs) = (List.replicate n ['.', '.', '/']).flatten ++ join r.segs := by
    induction n with
    | zero => rfl
    | succ n ih =>
      rw [List.replicate_succ, List.replicate_succ, List.cons_append, join_cons (by simp [hr.2.2.2]), ih, List.flatten_cons]
      rfl
  rw [relative_text hr]
  unfold Uri.text Uri.prefix Uri.path
  dsimp only
  rw [this]
  simp [before]

theorem up_ok {ip : Str → Bool} {r : Uri} (h : r.Ok ip) (hr : r.Relative) (n : Nat) :
    Uri.Ok ip ⟨none, none, false, List.replicate n ['.', '.'] ++ r.segs, r.query, r.fragment⟩ := by
  obtain ⟨h1, h2, h3, h4⟩ := hr
  refine ⟨by rintro s ⟨⟩, by rintro a ⟨⟩, ?_, h.query, h.fragment, fun _ => rfl, ?_, ?_⟩
  · intro s hs
    rcases List.mem_append.1 hs with hs | hs
    · rw [(List.mem_replicate.1 hs).2]
      rfl
    · exact h.segs s hs
  · intro _
    cases n with
    | zero => exact h.first h2
    | succ n => simp [List.replicate_succ]
  · intro _ _ _ s hs
    cases n with
    | zero => exact h.colon h1 h2 h3 s hs
    | succ n =>
      have : s = ['.', '.'] := by simpa [List.replicate_succ] using hs.symm
      rw [this]
      decide

/-! ### Paths as texts -/

theorem pieces_cons {c : Char} {s : Str} (h : c ≠ '/') : ∃ p ps, pieces s = p :: ps ∧ pieces (c :: s) = (c :: p) :: ps := by
  cases hp : pieces s with
  | nil => exact absurd hp (pieces_ne s)
  | cons p ps =>
    refine ⟨p, ps, rfl, ?_⟩
    rw [pieces, if_neg h, hp]

theorem textOk_cons {p : Char → Bool} {c : Char} {s : Str} (hc : c ≠ '%') (h : p c = true) (hs : textOk p s = true) : textOk p (c :: s) = true := by
  match s, hs with
  | [], _ => exact h
  | [d], hs => simpa [textOk, h] using hs
  | d :: e :: s, hs => rw [textOk, if_neg hc, h, hs]; rfl

theorem textOk_escape {p : Char → Bool} {d e : Char} {s : Str} (hd : isHex d = true) (he : isHex e = true) (hs : textOk p s = true) :
    textOk p ('%' :: d :: e :: s) = true := by
  rw [textOk, if_pos rfl, hd, he, hs]; rfl

theorem hex_slash {d : Char} (h : isHex d = true) : d ≠ '/' := by
  rintro rfl
  exact absurd h (by decide)

theorem pieces_char {c : Char} {s : Str} (hc : pathChar c = true ∨ c = '/') (ih : ∀ x ∈ pieces s, textOk pathChar x = true) :
    ∀ x ∈ pieces (c :: s), textOk pathChar x = true := by
  intro x hx
  by_cases h : c = '/'
  · rw [pieces, if_pos h] at hx
    rcases List.mem_cons.1 hx with hx | hx
    · rw [hx]; rfl
    · exact ih x hx
  · obtain ⟨p, ps, e1, e2⟩ := pieces_cons (s := s) h
    rw [e2] at hx
    rw [e1] at ih
    have hp := hc.resolve_right h
    rcases List.mem_cons.1 hx with hx | hx
    · rw [hx]
      refine textOk_cons ?_ hp (ih p (by simp))
      rintro rfl
      exact absurd hp (by decide)
    · exact ih x (by simp [hx])

theorem pieces_ok : ∀ {s : Str}, textOk (fun c => pathChar c || c = '/') s = true → ∀ x ∈ pieces s, textOk pathChar x = true
  | [], _ => by
    intro x hx
    rw [List.mem_singleton.1 hx]
    rfl
  | [c], h => by
    have h : (pathChar c || decide (c = '/')) = true := h
    exact pieces_char (by simpa using h) (pieces_ok (s := []) rfl)
  | [c, d], h => by
    simp only [textOk, Bool.and_eq_true] at h
    exact pieces_char (by simpa using h.1) (pieces_ok (s := [d]) h.2)
  | c :: d :: e :: s, h => by
    rw [textOk] at h
    split at h
    · rename_i hc
      subst hc
      simp only [Bool.and_eq_true] at h
      obtain ⟨⟨hd, he⟩, hs⟩ := h
      have ih := pieces_ok hs
      obtain ⟨p3, ps3, a3, b3⟩ := pieces_cons (s := s) (hex_slash he)
      obtain ⟨p2, ps2, a2, b2⟩ := pieces_cons (s := e :: s) (hex_slash hd)
      obtain ⟨p1, ps1, a1, b1⟩ := pieces_cons (s := d :: e :: s) (c := '%') (by decide)
      rw [b3] at a2
      cases a2
      rw [b2] at a1
      cases a1
      rw [a3] at ih
      intro x hx
      rw [b1] at hx
      rcases List.mem_cons.1 hx with hx | hx
      · rw [hx]
        exact textOk_escape hd he (ih p3 (by simp))
      · exact ih x (by simp [hx])
    · simp only [Bool.and_eq_true] at h
      exact pieces_char (by simpa using h.1) (pieces_ok h.2)

end Kml.Rfc
