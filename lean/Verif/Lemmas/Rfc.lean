import Verif.Spec.Rfc
/-! Lemmas for URIs. -/
namespace Kml.Rfc
open Kml

theorem cut_of {c : Char} {a : Str} (o : Option Str) (h : c ∉ a) : cut c (a ++ before [c] o) = (a, o) := by
  induction a with
  | nil =>
    cases o with
    | none => rfl
    | some r => simp [cut, before]
  | cons x a ih =>
    have hx : x ≠ c := fun e => h (by simp [e])
    have ih := ih (fun e => h (List.mem_cons_of_mem _ e))
    unfold cut at ih ⊢
    simp only [Prod.mk.injEq] at ih
    rw [List.cons_append, List.takeWhile_cons_of_pos (p := fun y => decide (y ≠ c)) (by simpa using hx),
      List.dropWhile_cons_of_pos (p := fun y => decide (y ≠ c)) (by simpa using hx), ih.1]
    exact Prod.ext rfl ih.2

theorem cut_spec (c : Char) (s : Str) : s = (cut c s).1 ++ before [c] (cut c s).2 ∧ c ∉ (cut c s).1 := by
  induction s with
  | nil => exact ⟨rfl, by simp [cut]⟩
  | cons x s ih =>
    by_cases hx : x = c
    · subst hx
      simp [cut, before]
    · have h1 : cut c (x :: s) = (x :: (cut c s).1, (cut c s).2) := by
        unfold cut
        rw [List.takeWhile_cons_of_pos (p := fun y => decide (y ≠ c)) (by simpa using hx),
          List.dropWhile_cons_of_pos (p := fun y => decide (y ≠ c)) (by simpa using hx)]
      rw [h1]
      exact ⟨by rw [List.cons_append, ← ih.1], by simp [ih.2, Ne.symm hx]⟩

theorem cut_iff {c : Char} {s a : Str} {o : Option Str} : cut c s = (a, o) ↔ s = a ++ before [c] o ∧ c ∉ a := by
  constructor
  · intro h
    have := cut_spec c s
    rw [h] at this
    exact this
  · rintro ⟨rfl, h⟩
    exact cut_of o h

theorem textOk_mem {p : Char → Bool} {x : Char} : ∀ {s : Str}, textOk p s = true → x ∈ s → p x = true ∨ x = '%' ∨ isHex x = true
  | [], _, h => by cases h
  | [c], hs, h => by
    rw [List.mem_singleton.1 h]
    exact .inl hs
  | [c, d], hs, h => by
    simp only [textOk, Bool.and_eq_true] at hs
    rcases List.mem_cons.1 h with rfl | h
    · exact .inl hs.1
    · rw [List.mem_singleton.1 h]; exact .inl hs.2
  | c :: d :: e :: s, hs, h => by
    rw [textOk] at hs
    split at hs
    · rename_i hc
      simp only [Bool.and_eq_true] at hs
      rcases List.mem_cons.1 h with rfl | h
      · exact .inr (.inl hc)
      rcases List.mem_cons.1 h with rfl | h
      · exact .inr (.inr hs.1.1)
      rcases List.mem_cons.1 h with rfl | h
      · exact .inr (.inr hs.1.2)
      · exact textOk_mem hs.2 h
    · simp only [Bool.and_eq_true] at hs
      rcases List.mem_cons.1 h with rfl | h
      · exact .inl hs.1
      · exact textOk_mem hs.2 h

theorem textOk_not {p : Char → Bool} {x : Char} {s : Str} (h : textOk p s = true) (h1 : p x = false) (h2 : x ≠ '%') (h3 : isHex x = false) :
    x ∉ s := by
  intro hx
  rcases textOk_mem h hx with h | h | h
  · rw [h1] at h; cases h
  · exact h2 h
  · rw [h3] at h; cases h

theorem all_not {p : Char → Bool} {x : Char} {s : Str} (h : s.all p = true) (h1 : p x = false) : x ∉ s := by
  intro hx
  have := List.all_eq_true.1 h x hx
  rw [h1] at this
  cases this

theorem pieces_ne (s : Str) : pieces s ≠ [] := by
  cases s with
  | nil => simp [pieces]
  | cons c s =>
    rw [pieces]
    split
    · simp
    · split <;> simp

theorem join_cons {s : Str} {l : List Str} (h : l ≠ []) : join (s :: l) = s ++ '/' :: join l := by
  cases l with
  | nil => exact absurd rfl h
  | cons => rfl

theorem join_append {l l' : List Str} (h : l ≠ []) (h' : l' ≠ []) : join (l ++ l') = join l ++ '/' :: join l' := by
  induction l with
  | nil => exact absurd rfl h
  | cons s l ih =>
    cases l with
    | nil => rw [List.singleton_append, join_cons h']; rfl
    | cons t l =>
      rw [List.cons_append, join_cons (by simp), ih (by simp), join_cons (l := t :: l) (by simp)]
      simp

theorem join_pieces (s : Str) : join (pieces s) = s := by
  induction s with
  | nil => rfl
  | cons c s ih =>
    rw [pieces]
    split
    · rename_i hc
      rw [join_cons (pieces_ne s), ih, hc]
      rfl
    · split
      · rename_i h; exact absurd h (pieces_ne s)
      · rename_i p ps h
        rw [h] at ih
        cases ps with
        | nil => simp only [join] at ih ⊢; rw [ih]
        | cons q ps =>
          rw [join_cons (by simp)] at ih ⊢
          rw [List.cons_append, ih]

theorem pieces_single {s : Str} (h : '/' ∉ s) : pieces s = [s] := by
  induction s with
  | nil => rfl
  | cons c s ih =>
    rw [pieces, if_neg (fun e => h (by simp [e])), ih (fun e => h (List.mem_cons_of_mem _ e))]

theorem pieces_slash {s t : Str} (h : '/' ∉ s) : pieces (s ++ '/' :: t) = s :: pieces t := by
  induction s with
  | nil => rw [List.nil_append, pieces, if_pos rfl]
  | cons c s ih =>
    rw [List.cons_append, pieces, if_neg (fun e => h (by simp [e])), ih (fun e => h (List.mem_cons_of_mem _ e))]

theorem pieces_join {l : List Str} (hl : l ≠ []) (h : ∀ s ∈ l, '/' ∉ s) : pieces (join l) = l := by
  induction l with
  | nil => exact absurd rfl hl
  | cons s l ih =>
    cases l with
    | nil => exact pieces_single (h s (by simp))
    | cons t l =>
      rw [join_cons (by simp), pieces_slash (h s (by simp)), ih (by simp) (fun x hx => h x (List.mem_cons_of_mem _ hx))]

/-! ### The scheme -/

/-- The text of a scheme. -/
def schemeText : Option Str → Str
  | none => []
  | some s => s ++ [':']

theorem scheme_chars {s : Str} (h : schemeOk s = true) : s.all (fun c => isAlpha c || isDigit c || c = '+' || c = '-' || c = '.') = true := by
  cases s with
  | nil => rfl
  | cons c s =>
    simp only [schemeOk, Bool.and_eq_true] at h
    rw [List.all_cons, h.2]
    simp [h.1]

theorem takeWhile_all {α : Type} (p : α → Bool) {a b : List α} (h : ∀ x ∈ a, p x = true) :
    (a ++ b).takeWhile p = a ++ b.takeWhile p ∧ (a ++ b).dropWhile p = b.dropWhile p := by
  induction a with
  | nil => exact ⟨rfl, rfl⟩
  | cons x a ih =>
    have := ih (fun y hy => h y (List.mem_cons_of_mem _ hy))
    rw [List.cons_append, List.takeWhile_cons_of_pos (p := p) (h x (by simp)), List.dropWhile_cons_of_pos (p := p) (h x (by simp)), this.1, this.2]
    exact ⟨rfl, rfl⟩

theorem cutScheme_some {h r : Str} (hs : schemeOk h = true) : cutScheme (h ++ ':' :: r) = some (some h, r) := by
  have hc := scheme_chars hs
  have := takeWhile_all (fun c => decide (c ≠ ':') && decide (c ≠ '/')) (a := h) (b := ':' :: r) (by
    intro x hx
    have h1 : x ≠ ':' := fun e => all_not hc (x := ':') (by decide) (e ▸ hx)
    have h2 : x ≠ '/' := fun e => all_not hc (x := '/') (by decide) (e ▸ hx)
    simp [h1, h2])
  unfold cutScheme
  rw [this.1, this.2]
  have e1 : List.dropWhile (fun c => decide (c ≠ ':') && decide (c ≠ '/')) (':' :: r) = ':' :: r := rfl
  have e2 : List.takeWhile (fun c => decide (c ≠ ':') && decide (c ≠ '/')) (':' :: r) = [] := rfl
  rw [e1, e2, List.append_nil]
  exact if_pos hs

theorem cutScheme_none {r : Str} (h : ':' ∉ r.takeWhile (· ≠ '/')) : cutScheme r = some (none, r) := by
  unfold cutScheme
  split
  · rename_i t ht
    exfalso
    apply h
    have : ∀ r : Str, r.dropWhile (fun c => decide (c ≠ ':') && decide (c ≠ '/')) = ':' :: t → ':' ∈ r.takeWhile (· ≠ '/') := by
      intro r
      induction r with
      | nil => intro h; cases h
      | cons c r ih =>
        intro h
        by_cases h1 : c = ':'
        · subst h1
          rw [List.takeWhile_cons_of_pos (p := fun y => decide (y ≠ '/')) (by decide)]
          simp
        · by_cases h2 : c = '/'
          · subst h2
            rw [List.dropWhile_cons_of_neg (by simp)] at h
            simp at h
          · rw [List.dropWhile_cons_of_pos (by simp [h1, h2])] at h
            rw [List.takeWhile_cons_of_pos (p := fun y => decide (y ≠ '/')) (by simpa using h2)]
            exact List.mem_cons_of_mem _ (ih h)
    exact this r ht
  · rfl

theorem cutScheme_iff {s r : Str} {o : Option Str} : cutScheme s = some (o, r) ↔
    s = schemeText o ++ r ∧ (∀ h, o = some h → schemeOk h = true) ∧ (o = none → ':' ∉ r.takeWhile (· ≠ '/')) := by
  constructor
  · intro h
    unfold cutScheme at h
    split at h
    · rename_i t ht
      split at h
      · rename_i hs
        cases h
        refine ⟨?_, by rintro x ⟨⟩; exact hs, by rintro ⟨⟩⟩
        have := List.takeWhile_append_dropWhile (p := fun c => decide (c ≠ ':') && decide (c ≠ '/')) (l := s)
        rw [ht] at this
        unfold schemeText
        rw [List.append_assoc]
        exact this.symm
      · cases h
    · rename_i hn
      cases h
      refine ⟨rfl, by rintro x ⟨⟩, fun _ hc => ?_⟩
      have : ∀ r : Str, ':' ∈ r.takeWhile (· ≠ '/') → ∃ t, r.dropWhile (fun c => decide (c ≠ ':') && decide (c ≠ '/')) = ':' :: t := by
        intro r
        induction r with
        | nil => intro h; cases h
        | cons c r ih =>
          intro h
          by_cases h1 : c = ':'
          · subst h1
            exact ⟨r, rfl⟩
          · by_cases h2 : c = '/'
            · subst h2
              rw [List.takeWhile_cons_of_neg (by simp)] at h
              cases h
            · rw [List.takeWhile_cons_of_pos (p := fun y => decide (y ≠ '/')) (by simpa using h2)] at h
              rw [List.dropWhile_cons_of_pos (by simp [h1, h2])]
              rcases List.mem_cons.1 h with h | h
              · exact absurd h.symm h1
              · exact ih h
      obtain ⟨t, ht⟩ := this _ hc
      exact hn t ht
  · rintro ⟨rfl, h1, h2⟩
    cases o with
    | none => exact cutScheme_none (h2 rfl)
    | some h =>
      have := cutScheme_some (r := r) (h1 h rfl)
      unfold schemeText
      simpa using this

/-! ### The authority -/

theorem port_text (o : Option Str) : before [':'] o = [] ∧ o = none ∨ ∃ p, o = some p ∧ before [':'] o = ':' :: p := by
  cases o with
  | none => exact .inl ⟨rfl, rfl⟩
  | some p => exact .inr ⟨p, rfl, rfl⟩

/-- The text of a host and a port. -/
def hostText (a : Authority) : Str := (if a.bracket then '[' :: a.host ++ [']'] else a.host) ++ before [':'] a.port

theorem parseHost_plain {ip : Str → Bool} {user : Option Str} {s : Str} (h : s.head? ≠ some '[') : parseHost ip user s =
    if textOk plain (cut ':' s).1 && ((cut ':' s).2.all fun p => p.all isDigit) then some ⟨user, (cut ':' s).1, false, (cut ':' s).2⟩
    else none := by
  unfold parseHost
  split
  · exact absurd rfl h
  · rfl

theorem parseHost_bracket {ip : Str → Bool} {user : Option Str} {s : Str} : parseHost ip user ('[' :: s) =
    match cut ']' s with
    | (host, some rest) =>
      if host.all userChar && ip host then
        match rest with
        | [] => some ⟨user, host, true, none⟩
        | c :: port => if c = ':' && port.all isDigit then some ⟨user, host, true, some port⟩ else none
      else none
    | _ => none := rfl

theorem parseHost_ok {ip : Str → Bool} {a : Authority} (h : a.Ok ip) : parseHost ip a.user (hostText a) = some a := by
  obtain ⟨user, host, bracket, port⟩ := a
  obtain ⟨_, h2, h3, h4⟩ := h
  cases bracket with
  | false =>
    have h2 : textOk plain host = true := h2 rfl
    have ht : hostText ⟨user, host, false, port⟩ = host ++ before [':'] port := rfl
    have hc : ':' ∉ host := textOk_not h2 (by decide) (by decide) (by decide)
    rw [ht, parseHost_plain, cut_of port hc]
    · have : (port.all fun p => p.all isDigit) = true := by
        cases port with
        | none => rfl
        | some p => exact h4 p rfl
      dsimp only
      rw [h2, this]
      rfl
    · cases host with
      | nil => cases port <;> simp [before]
      | cons c s =>
        have : '[' ∉ c :: s := textOk_not h2 (by decide) (by decide) (by decide)
        simp only [List.cons_append, List.head?_cons, ne_eq, Option.some.injEq]
        exact fun e => this (by simp [e])
  | true =>
    obtain ⟨h5, h6⟩ := h3 rfl
    have h5 : host.all userChar = true := h5
    have h6 : ip host = true := h6
    have hc : ']' ∉ host := all_not h5 (by decide)
    have ht : hostText ⟨user, host, true, port⟩ = '[' :: (host ++ before [']'] (some (before [':'] port))) := by
      unfold hostText before
      simp
    rw [ht, parseHost_bracket, cut_of _ hc]
    dsimp only
    rw [h5, h6]
    cases port with
    | none => rfl
    | some p =>
      have h4 : p.all isDigit = true := h4 p rfl
      simp [before, h4]

theorem parseHost_inv {ip : Str → Bool} {user : Option Str} {s : Str} {a : Authority} (h : parseHost ip user s = some a)
    (hu : ∀ u, user = some u → textOk userChar u = true) : a.Ok ip ∧ hostText a = s ∧ a.user = user := by
  unfold parseHost at h
  split at h
  · rename_i s
    split at h
    · rename_i host rest hc
      obtain ⟨rfl, _⟩ := cut_iff.1 hc
      split at h
      · rename_i hh
        simp only [Bool.and_eq_true] at hh
        split at h
        · cases h
          exact ⟨⟨hu, by rintro ⟨⟩, fun _ => hh, by rintro p ⟨⟩⟩, by simp [hostText, before], rfl⟩
        · rename_i c port
          split at h
          · rename_i hp
            simp only [Bool.and_eq_true, decide_eq_true_eq] at hp
            cases h
            exact ⟨⟨hu, by rintro ⟨⟩, fun _ => hh, by rintro p ⟨⟩; exact hp.2⟩, by simp [hostText, before, hp.1], rfl⟩
          · cases h
      · cases h
    · cases h
  · split at h
    · rename_i hh
      simp only [Bool.and_eq_true] at hh
      cases h
      refine ⟨⟨hu, fun _ => hh.1, by rintro ⟨⟩, ?_⟩, ?_, rfl⟩
      · intro p hp
        have := hh.2
        have hp : (cut ':' s).2 = some p := hp
        rw [hp] at this
        exact this
      · exact (cut_spec ':' s).1.symm
    · cases h

theorem authority_text (a : Authority) : a.text = (match a.user with
    | none => []
    | some u => u ++ ['@']) ++ hostText a := by
  unfold Authority.text hostText
  rw [List.append_assoc]
  cases a.user <;> rfl

theorem hostText_at {ip : Str → Bool} {a : Authority} (h : a.Ok ip) {c : Char} (h1 : plain c = false) (h2 : c ≠ '%') (h3 : isHex c = false)
    (h4 : userChar c = false) (h5 : c ≠ '[') (h6 : c ≠ ']') (h7 : c ≠ ':') (h8 : isDigit c = false) : c ∉ hostText a := by
  unfold hostText
  intro hc
  rcases List.mem_append.1 hc with hc | hc
  · split at hc
    · rename_i hb
      rcases List.mem_append.1 hc with hc | hc
      · rcases List.mem_cons.1 hc with hc | hc
        · exact h5 hc
        · exact all_not (h.address hb).1 h4 hc
      · exact h6 (List.mem_singleton.1 hc)
    · rename_i hb
      exact textOk_not (h.host (by simpa using hb)) h1 h2 h3 hc
  · rcases port_text a.port with ⟨e, _⟩ | ⟨p, e, e'⟩
    · rw [e] at hc; cases hc
    · rw [e'] at hc
      rcases List.mem_cons.1 hc with hc | hc
      · exact h7 hc
      · exact all_not (h.port p e) h8 hc

theorem authority_not {ip : Str → Bool} {a : Authority} (h : a.Ok ip) {c : Char} (h1 : plain c = false) (h2 : c ≠ '%') (h3 : isHex c = false)
    (h4 : userChar c = false) (h5 : c ≠ '[') (h6 : c ≠ ']') (h7 : c ≠ ':') (h8 : isDigit c = false) (h9 : c ≠ '@') : c ∉ a.text := by
  rw [authority_text]
  intro hc
  rcases List.mem_append.1 hc with hc | hc
  · split at hc
    · cases hc
    · rename_i u hu
      rcases List.mem_append.1 hc with hc | hc
      · exact textOk_not (h.user u hu) h4 h2 h3 hc
      · exact h9 (List.mem_singleton.1 hc)
  · exact hostText_at h h1 h2 h3 h4 h5 h6 h7 h8 hc

theorem parseAuthority_iff {ip : Str → Bool} {s : Str} {a : Authority} : parseAuthority ip s = some a ↔ a.text = s ∧ a.Ok ip := by
  constructor
  · intro h
    unfold parseAuthority at h
    split at h
    · rename_i x y hc
      obtain ⟨rfl, _⟩ := cut_iff.1 hc
      split at h
      · rename_i hx
        obtain ⟨h1, h2, h3⟩ := parseHost_inv h (by rintro u ⟨⟩; exact hx)
        refine ⟨?_, h1⟩
        rw [authority_text, h2, h3]
        simp [before]
      · cases h
    · rename_i x hc
      obtain ⟨rfl, _⟩ := cut_iff.1 hc
      obtain ⟨h1, h2, h3⟩ := parseHost_inv h (by rintro u ⟨⟩)
      refine ⟨?_, h1⟩
      rw [authority_text, h2, h3]
      simp [before]
  · rintro ⟨rfl, h⟩
    have hat : '@' ∉ hostText a := hostText_at h (by decide) (by decide) (by decide) (by decide) (by decide) (by decide) (by decide) (by decide)
    have hp := parseHost_ok h
    rw [authority_text]
    unfold parseAuthority
    cases hu : a.user with
    | none =>
      have : cut '@' (hostText a) = (hostText a, none) := cut_iff.2 ⟨by simp [before], hat⟩
      rw [List.nil_append, this]
      dsimp only
      rw [← hu, hp]
    | some u =>
      have hok := h.user u hu
      have : cut '@' (u ++ ['@'] ++ hostText a) = (u, some (hostText a)) :=
        cut_iff.2 ⟨by simp [before], textOk_not hok (by decide) (by decide) (by decide)⟩
      rw [this]
      dsimp only
      rw [if_pos hok, ← hu, hp]

/-! ### The whole -/

/-- The authority and the path. -/
def hierText (u : Uri) : Str := before ['/', '/'] (u.auth.map Authority.text) ++ u.path

/-- What the authority and the path have to be. -/
structure HierOk (ip : Str → Bool) (u : Uri) : Prop where
  auth : ∀ a, u.auth = some a → a.Ok ip
  segs : ∀ s ∈ u.segs, textOk pathChar s = true
  absolute : u.auth ≠ none → u.absolute = false
  first : u.auth = none → u.segs.head? ≠ some []

theorem parseSegs_iff {s : Str} {l : List Str} : parseSegs s = some l ↔ l ≠ [] ∧ join l = s ∧ ∀ x ∈ l, textOk pathChar x = true := by
  unfold parseSegs
  constructor
  · intro h
    split at h
    · rename_i ha
      cases h
      exact ⟨pieces_ne s, join_pieces s, by simpa using ha⟩
    · cases h
  · rintro ⟨h1, rfl, h2⟩
    rw [pieces_join h1 fun x hx => textOk_not (h2 x hx) (by decide) (by decide) (by decide)]
    rw [if_pos (by simpa using h2)]

theorem join_head {x : Str} {l : List Str} (hx : x ≠ []) : (join (x :: l)).head? = x.head? ∧ join (x :: l) ≠ [] := by
  cases x with
  | nil => exact absurd rfl hx
  | cons c x =>
    cases l with
    | nil => exact ⟨rfl, by simp [join]⟩
    | cons y l => exact ⟨rfl, by simp [join]⟩

theorem parseHier_auth (ip : Str → Bool) (sc q f : Option Str) (s : Str) : parseHier ip sc q f ('/' :: '/' :: s) =
    (parseAuthority ip (s.takeWhile (· ≠ '/'))).bind fun auth =>
      match s.dropWhile (· ≠ '/') with
      | [] => some ⟨sc, some auth, false, [], q, f⟩
      | _ :: r => (parseSegs r).map fun segs => ⟨sc, some auth, false, segs, q, f⟩ := rfl

theorem parseHier_abs (ip : Str → Bool) (sc q f : Option Str) {s : Str} (h : s ≠ []) (h' : s.head? ≠ some '/') :
    parseHier ip sc q f ('/' :: s) = (parseSegs s).map fun segs => ⟨sc, none, true, segs, q, f⟩ := by
  unfold parseHier
  split
  · rename_i heq
    cases heq
    exact absurd rfl h'
  · rename_i heq
    cases heq
    exact absurd rfl h
  · rename_i heq
    cases heq
    rfl
  · rename_i heq
    cases heq
  · rename_i h1 _
    exact absurd rfl (h1 s)

theorem parseHier_rel (ip : Str → Bool) (sc q f : Option Str) {s : Str} (h : s ≠ []) (h' : s.head? ≠ some '/') :
    parseHier ip sc q f s = (parseSegs s).map fun segs => ⟨sc, none, false, segs, q, f⟩ := by
  unfold parseHier
  split
  · exact absurd rfl h'
  · exact absurd rfl h'
  · exact absurd rfl h'
  · exact absurd rfl h
  · rfl

theorem cut_take (c : Char) (s : Str) : cut c s = (s.takeWhile (· ≠ c), match s.dropWhile (· ≠ c) with
    | [] => none
    | _ :: r => some r) := rfl

theorem seg_char {x : Str} (h : textOk pathChar x = true) : '/' ∉ x ∧ '?' ∉ x ∧ '#' ∉ x :=
  ⟨textOk_not h (by decide) (by decide) (by decide), textOk_not h (by decide) (by decide) (by decide),
    textOk_not h (by decide) (by decide) (by decide)⟩

theorem mem_join {c : Char} {l : List Str} (h : c ∈ join l) : c = '/' ∨ ∃ x ∈ l, c ∈ x := by
  induction l with
  | nil => cases h
  | cons x l ih =>
    by_cases hl : l = []
    · subst hl
      exact .inr ⟨x, by simp, h⟩
    · rw [join_cons hl] at h
      rcases List.mem_append.1 h with h | h
      · exact .inr ⟨x, by simp, h⟩
      · rcases List.mem_cons.1 h with h | h
        · exact .inl h
        · rcases ih h with h | ⟨y, hy, h⟩
          · exact .inl h
          · exact .inr ⟨y, by simp [hy], h⟩

theorem parseHier_ok {ip : Str → Bool} {u : Uri} (h : HierOk ip u) : parseHier ip u.scheme u.query u.fragment (hierText u) = some u := by
  obtain ⟨sc, auth, absolute, segs, q, f⟩ := u
  obtain ⟨h1, h2, h3, h4⟩ := h
  cases auth with
  | some a =>
    have ha : a.Ok ip := h1 a rfl
    have habs : absolute = false := h3 (by simp)
    subst habs
    have hs : '/' ∉ a.text := authority_not ha (by decide) (by decide) (by decide) (by decide) (by decide) (by decide) (by decide) (by decide)
      (by decide)
    have hp := parseAuthority_iff.2 ⟨rfl, ha⟩
    cases segs with
    | nil =>
      have ht : hierText ⟨sc, some a, false, [], q, f⟩ = '/' :: '/' :: a.text := by simp [hierText, before, Uri.path, join]
      have hc := cut_of none hs
      have hw := takeWhile_all (fun c => decide (c ≠ '/')) (a := a.text) (b := []) (by
        intro x hx
        simp only [decide_eq_true_eq]
        rintro rfl
        exact hs hx)
      rw [List.append_nil] at hw
      rw [ht, parseHier_auth, hw.1, hw.2, List.takeWhile_nil, List.append_nil, hp]
      rfl
    | cons x l =>
      have ht : hierText ⟨sc, some a, false, x :: l, q, f⟩ = '/' :: '/' :: (a.text ++ '/' :: join (x :: l)) := by
        simp [hierText, before, Uri.path]
      have hw := takeWhile_all (fun c => decide (c ≠ '/')) (a := a.text) (b := '/' :: join (x :: l)) (by
        intro x hx
        simp only [decide_eq_true_eq]
        rintro rfl
        exact hs hx)
      have hj : parseSegs (join (x :: l)) = some (x :: l) := parseSegs_iff.2 ⟨by simp, rfl, h2⟩
      rw [ht, parseHier_auth, hw.1, hw.2]
      have e1 : List.takeWhile (fun c => decide (c ≠ '/')) ('/' :: join (x :: l)) = [] := rfl
      have e2 : List.dropWhile (fun c => decide (c ≠ '/')) ('/' :: join (x :: l)) = '/' :: join (x :: l) := rfl
      rw [e1, e2, List.append_nil, hp]
      dsimp only [Option.bind_some]
      rw [hj]
      rfl
  | none =>
    cases segs with
    | nil => cases absolute <;> rfl
    | cons x l =>
      have hx : x ≠ [] := fun e => h4 rfl (by rw [e]; rfl)
      obtain ⟨j1, j2⟩ := join_head (l := l) hx
      have hslash : (join (x :: l)).head? ≠ some '/' := by
        rw [j1]
        intro e
        exact (seg_char (h2 x (by simp))).1 (List.mem_of_mem_head? e)
      have hj : parseSegs (join (x :: l)) = some (x :: l) := parseSegs_iff.2 ⟨by simp, rfl, h2⟩
      cases absolute with
      | true =>
        have ht : hierText ⟨sc, none, true, x :: l, q, f⟩ = '/' :: join (x :: l) := by simp [hierText, before, Uri.path]
        rw [ht, parseHier_abs _ _ _ _ j2 hslash, hj]
        rfl
      | false =>
        have ht : hierText ⟨sc, none, false, x :: l, q, f⟩ = join (x :: l) := by simp [hierText, before, Uri.path]
        rw [ht, parseHier_rel _ _ _ _ j2 hslash, hj]
        rfl

theorem head_segs {s : Str} {l : List Str} (h : join l = s) (hs : s ≠ []) (hh : s.head? ≠ some '/') : l.head? ≠ some [] := by
  subst h
  cases l with
  | nil => exact absurd rfl hs
  | cons x l =>
    intro e
    have e : x = [] := by simpa using e
    subst e
    cases l with
    | nil => exact hs rfl
    | cons y l => exact hh rfl

theorem parseHier_inv {ip : Str → Bool} {sc q f : Option Str} {s : Str} {u : Uri} (h : parseHier ip sc q f s = some u) :
    u.scheme = sc ∧ u.query = q ∧ u.fragment = f ∧ hierText u = s ∧ HierOk ip u := by
  by_cases hs : s = []
  · subst hs
    cases h
    exact ⟨rfl, rfl, rfl, rfl, by rintro a ⟨⟩, by rintro s ⟨⟩, fun _ => rfl, by rintro _ ⟨⟩⟩
  by_cases hh : s.head? = some '/'
  · obtain ⟨t, rfl⟩ : ∃ t, s = '/' :: t := by
      cases s with
      | nil => cases hh
      | cons c s => exact ⟨s, by simpa using hh⟩
    by_cases ht : t = []
    · subst ht
      cases h
      exact ⟨rfl, rfl, rfl, rfl, by rintro a ⟨⟩, by rintro s ⟨⟩, fun h => absurd rfl h, by rintro _ ⟨⟩⟩
    by_cases hh' : t.head? = some '/'
    · obtain ⟨r, rfl⟩ : ∃ r, t = '/' :: r := by
        cases t with
        | nil => cases hh'
        | cons c t => exact ⟨t, by simpa using hh'⟩
      rw [parseHier_auth] at h
      obtain ⟨a, ha, h⟩ := Option.bind_eq_some_iff.1 h
      obtain ⟨a1, a2⟩ := parseAuthority_iff.1 ha
      have hr := List.takeWhile_append_dropWhile (p := fun c => decide (c ≠ '/')) (l := r)
      split at h
      · rename_i hd
        cases h
        rw [hd, List.append_nil, ← a1] at hr
        refine ⟨rfl, rfl, rfl, ?_, ?_, by rintro s ⟨⟩, fun _ => rfl, by rintro ⟨⟩⟩
        · rw [← hr]
          simp [hierText, before, Uri.path, join]
        · rintro _ ⟨⟩
          exact a2
      · rename_i c y hd
        obtain ⟨l, hl, h⟩ := Option.map_eq_some_iff.1 h
        subst h
        obtain ⟨l1, l2, l3⟩ := parseSegs_iff.1 hl
        have hc : c = '/' := by
          have := List.head?_dropWhile_not (fun c => decide (c ≠ '/')) r
          rw [hd] at this
          simpa using this
        refine ⟨rfl, rfl, rfl, ?_, ?_, l3, fun _ => rfl, by rintro ⟨⟩⟩
        · rw [← hr, hd, ← a1, hc, ← l2]
          simp [hierText, before, Uri.path, l1]
        · rintro _ ⟨⟩
          exact a2
    · rw [parseHier_abs _ _ _ _ ht hh'] at h
      obtain ⟨l, hl, h⟩ := Option.map_eq_some_iff.1 h
      subst h
      obtain ⟨l1, l2, l3⟩ := parseSegs_iff.1 hl
      refine ⟨rfl, rfl, rfl, ?_, by rintro a ⟨⟩, l3, fun h => absurd rfl h, fun _ => head_segs l2 ht hh'⟩
      simp [hierText, before, Uri.path, l2]
  · rw [parseHier_rel _ _ _ _ hs hh] at h
    obtain ⟨l, hl, h⟩ := Option.map_eq_some_iff.1 h
    subst h
    obtain ⟨l1, l2, l3⟩ := parseSegs_iff.1 hl
    refine ⟨rfl, rfl, rfl, ?_, by rintro a ⟨⟩, l3, fun h => absurd rfl h, fun _ => head_segs l2 hs hh⟩
    simp [hierText, before, Uri.path, l2]

theorem uri_text (u : Uri) : u.text = schemeText u.scheme ++ hierText u ++ before ['?'] u.query ++ before ['#'] u.fragment := by
  unfold Uri.text Uri.prefix hierText schemeText
  cases u.scheme <;> simp

theorem path_char {u : Uri} (h : ∀ s ∈ u.segs, textOk pathChar s = true) : '?' ∉ u.path ∧ '#' ∉ u.path := by
  have : ∀ c, c ∈ u.path → c = '/' ∨ ∃ x ∈ u.segs, c ∈ x := by
    intro c hc
    unfold Uri.path at hc
    rcases List.mem_append.1 hc with hc | hc
    · split at hc
      · exact .inl (List.mem_singleton.1 hc)
      · cases hc
    · exact mem_join hc
  constructor
  · intro hc
    rcases this _ hc with h' | ⟨x, hx, hc⟩
    · exact absurd h' (by decide)
    · exact (seg_char (h x hx)).2.1 hc
  · intro hc
    rcases this _ hc with h' | ⟨x, hx, hc⟩
    · exact absurd h' (by decide)
    · exact (seg_char (h x hx)).2.2 hc

theorem hier_char {ip : Str → Bool} {u : Uri} (h : HierOk ip u) : '?' ∉ hierText u ∧ '#' ∉ hierText u := by
  obtain ⟨p1, p2⟩ := path_char h.segs
  unfold hierText
  cases ha : u.auth with
  | none => exact ⟨p1, p2⟩
  | some a =>
    have hok := h.auth a ha
    have n1 : '?' ∉ a.text := authority_not hok (by decide) (by decide) (by decide) (by decide) (by decide) (by decide) (by decide) (by decide)
      (by decide)
    have n2 : '#' ∉ a.text := authority_not hok (by decide) (by decide) (by decide) (by decide) (by decide) (by decide) (by decide) (by decide)
      (by decide)
    simp [before, p1, p2, n1, n2]

theorem scheme_char {o : Option Str} (h : ∀ s, o = some s → schemeOk s = true) : '?' ∉ schemeText o ∧ '#' ∉ schemeText o := by
  cases o with
  | none => simp [schemeText]
  | some s =>
    have := scheme_chars (h s rfl)
    have n1 : '?' ∉ s := all_not this (by decide)
    have n2 : '#' ∉ s := all_not this (by decide)
    simp [schemeText, n1, n2]

theorem first_take {ip : Str → Bool} {u : Uri} (h : HierOk ip u) :
    ':' ∉ (hierText u).takeWhile (· ≠ '/') ↔ (u.auth = none → u.absolute = false → ∀ s, u.segs.head? = some s → ':' ∉ s) := by
  cases ha : u.auth with
  | some a =>
    have : (hierText u).takeWhile (· ≠ '/') = [] := by
      unfold hierText
      rw [ha]
      rfl
    rw [this]
    simp
  | none =>
    cases hb : u.absolute with
    | true =>
      have : (hierText u).takeWhile (· ≠ '/') = [] := by
        unfold hierText Uri.path
        rw [ha, hb]
        rfl
      rw [this]
      simp
    | false =>
      have e : hierText u = join u.segs := by
        unfold hierText Uri.path
        rw [ha, hb]
        rfl
      rw [e]
      cases hl : u.segs with
      | nil => simp [join]
      | cons x l =>
        have hx := (seg_char (h.segs x (by simp [hl]))).1
        have : (join (x :: l)).takeWhile (· ≠ '/') = x := by
          have hall : ∀ y ∈ x, (decide (y ≠ '/')) = true := by
            intro y hy
            simp only [decide_eq_true_eq]
            rintro rfl
            exact hx hy
          cases l with
          | nil =>
            have := (takeWhile_all (fun c => decide (c ≠ '/')) (a := x) (b := []) hall).1
            rw [List.append_nil] at this
            rw [join, this]
            simp
          | cons y l =>
            rw [join_cons (by simp), (takeWhile_all (fun c => decide (c ≠ '/')) hall).1]
            simp
        rw [this]
        simp

theorem parse_iff {ip : Str → Bool} {s : Str} {u : Uri} : parse ip s = some u ↔ u.text = s ∧ u.Ok ip := by
  constructor
  · intro h
    unfold parse at h
    split at h
    · rename_i hq
      simp only [Bool.and_eq_true] at hq
      obtain ⟨⟨sc, r⟩, h1, h2⟩ := Option.bind_eq_some_iff.1 h
      obtain ⟨e1, e2, e3⟩ := cutScheme_iff.1 h1
      obtain ⟨f1, f2, f3, f4, f5⟩ := parseHier_inv h2
      dsimp only at f1 f4
      have g1 := (cut_spec '#' s).1
      have g2 := (cut_spec '?' (cut '#' s).1).1
      refine ⟨?_, ?_, f5.auth, f5.segs, ?_, ?_, f5.absolute, f5.first, ?_⟩
      · rw [uri_text, f1, f2, f3, f4, ← e1, ← g2, ← g1]
      · rw [f1]; exact e2
      · rw [f2]
        intro x hx
        have := hq.2
        rw [hx] at this
        exact this
      · rw [f3]
        intro x hx
        have := hq.1
        rw [hx] at this
        exact this
      · intro hn
        have := e3 (f1 ▸ hn)
        rw [← f4] at this
        exact (first_take f5).1 this
    · cases h
  · rintro ⟨rfl, h⟩
    have hh : HierOk ip u := ⟨h.auth, h.segs, h.absolute, h.first⟩
    obtain ⟨n1, n2⟩ := hier_char hh
    obtain ⟨m1, m2⟩ := scheme_char h.scheme
    have nq : '#' ∉ before ['?'] u.query := by
      cases hq : u.query with
      | none => simp [before]
      | some q =>
        have : '#' ∉ q := textOk_not (h.query q hq) (by decide) (by decide) (by decide)
        simp [before, this]
    have c1 : cut '#' u.text = (schemeText u.scheme ++ hierText u ++ before ['?'] u.query, u.fragment) := by
      rw [uri_text]
      exact cut_of _ (by simp only [List.mem_append, not_or]; exact ⟨⟨m2, n2⟩, nq⟩)
    have c2 : cut '?' (schemeText u.scheme ++ hierText u ++ before ['?'] u.query) = (schemeText u.scheme ++ hierText u, u.query) :=
      cut_of _ (by simp only [List.mem_append, not_or]; exact ⟨m1, n1⟩)
    have c3 : cutScheme (schemeText u.scheme ++ hierText u) = some (u.scheme, hierText u) :=
      cutScheme_iff.2 ⟨rfl, h.scheme, fun hn => (first_take hh).2 (h.colon hn)⟩
    have q1 : (u.fragment.all (textOk queryChar)) = true := by
      cases hf : u.fragment with
      | none => rfl
      | some x => exact h.fragment x hf
    have q2 : (u.query.all (textOk queryChar)) = true := by
      cases hf : u.query with
      | none => rfl
      | some x => exact h.query x hf
    unfold parse
    rw [c1]
    dsimp only
    rw [c2]
    dsimp only
    rw [q1, q2, c3]
    exact parseHier_ok hh

end Kml.Rfc
