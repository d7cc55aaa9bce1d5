import Verif.Model.Coordinates
import Verif.Spec.Numbers

/-!
# C23, C24: reading and writing coordinates
-/

namespace Kml.Coords

open Kml

/-! ## Lemmas -/

theorem dropWhile_suffix {α} (p : α → Bool) (s : List α) : s.dropWhile p <:+ s :=
  List.dropWhile_suffix p

theorem dropWhile_nil_iff {α} {p : α → Bool} {s : List α} :
    s.dropWhile p = [] ↔ ∀ c ∈ s, p c = true := by
  induction s with
  | nil => simp
  | cons x s ih =>
    by_cases hx : p x = true
    · rw [List.dropWhile_cons_of_pos hx, ih]; simp [hx]
    · rw [List.dropWhile_cons_of_neg hx]; simp [hx]

theorem skipJunk_suffix (s : Str) : skipJunk s <:+ s := dropWhile_suffix _ _
theorem skipToLat_suffix (s : Str) : skipToLat s <:+ s := dropWhile_suffix _ _

theorem skipJunk_append {w s : Str} (h : ∀ c ∈ w, c ≠ '\x00' ∧ numStart c = false) :
    skipJunk (w ++ s) = skipJunk s := by
  unfold skipJunk
  rw [List.dropWhile_append_of_pos]
  intro c hc
  simp [h c hc]

theorem skipJunk_stop {c : Char} {s : Str} (h : numStart c = true) : skipJunk (c :: s) = c :: s := by
  unfold skipJunk
  rw [List.dropWhile_cons_of_neg]
  simp [h]

theorem skipToLat_stop {c : Char} {s : Str} (h : numStart c = true) : skipToLat (c :: s) = c :: s := by
  unfold skipToLat
  rw [List.dropWhile_cons_of_neg]
  simp [h]

theorem dropWhile_head_false {α} {p : α → Bool} {s : List α} {a : α} {t : List α}
    (h : s.dropWhile p = a :: t) : p a = false := by
  induction s with
  | nil => simp at h
  | cons x s ih =>
    by_cases hx : p x = true
    · rw [List.dropWhile_cons_of_pos hx] at h; exact ih h
    · rw [List.dropWhile_cons_of_neg hx] at h
      injection h with h1 h2; subst h1; simpa using hx

/-- Where a NUL-free text is skipped to: its end or the start of a number. -/
theorem skipJunk_cases (s : Str) (h0 : '\x00' ∉ s) :
    skipJunk s = [] ∨ ∃ c r, skipJunk s = c :: r ∧ numStart c = true := by
  rcases hs : skipJunk s with _ | ⟨c, r⟩
  · exact Or.inl rfl
  · refine Or.inr ⟨c, r, rfl, ?_⟩
    have hp := dropWhile_head_false hs
    have hc : c ≠ '\x00' := by
      rintro rfl
      have : '\x00' ∈ skipJunk s := by rw [hs]; simp
      exact h0 ((skipJunk_suffix s).subset this)
    simpa [hc] using hp

theorem skipJunk_eq_nil {s : Str} (h0 : '\x00' ∉ s) :
    skipJunk s = [] ↔ ∀ c ∈ s, numStart c = false := by
  unfold skipJunk
  rw [dropWhile_nil_iff]
  constructor
  · intro h c hc
    have := h c hc
    simp at this
    exact this.2
  · intro h c hc
    have : c ≠ '\x00' := fun e => h0 (e ▸ hc)
    simp [h c hc, this]

/-! ## C23 -/

/-- Every minus sign is followed by a digit, or by a point and a digit. -/
def MinusOk (s : Str) : Prop :=
  ∀ a b, s = a ++ '-' :: b → isDecimalDouble ('-' :: b) = true

/-- No run of characters other than blanks and commas is 1024 characters or longer. -/
def TokensFit (s : Str) : Prop :=
  ∀ t, t <:+: s → (∀ c ∈ t, c ≠ ' ' ∧ c ≠ ',') → t.length < 1024

theorem MinusOk.suffix {s t : Str} (h : MinusOk s) (ht : t <:+ s) : MinusOk t := by
  obtain ⟨p, rfl⟩ := ht
  intro a b e
  exact h (p ++ a) b (by rw [e]; simp)

theorem TokensFit.suffix {s t : Str} (h : TokensFit s) (ht : t <:+ s) : TokensFit t :=
  fun u hu hc => h u (hu.trans ht.isInfix) hc

theorem not_mem_suffix {s t : Str} (h : '\x00' ∉ s) (ht : t <:+ s) : '\x00' ∉ t :=
  fun hm => h (ht.subset hm)

theorem isDecimalDouble_takeWhile {s : Str} {p : Char → Bool} (h : isDecimalDouble s = true)
    (hd : ∀ c, isDigit c = true → p c = true) (hm : p '-' = true) (hp : p '.' = true) :
    isDecimalDouble (s.takeWhile p) = true := by
  rcases s with _ | ⟨c, s⟩
  · exact h
  by_cases h1 : c = '-'
  · subst h1
    rcases s with _ | ⟨d, s⟩
    · exact absurd h (by decide)
    · by_cases h2 : d = '.'
      · subst h2
        rcases s with _ | ⟨e, s⟩
        · exact absurd h (by decide)
        · have he : isDigit e = true := by simpa [isDecimalDouble] using h
          rw [List.takeWhile_cons_of_pos hm, List.takeWhile_cons_of_pos hp,
            List.takeWhile_cons_of_pos (hd _ he)]
          simpa [isDecimalDouble] using he
      · have he : isDigit d = true := by simpa [isDecimalDouble, h2] using h
        rw [List.takeWhile_cons_of_pos hm, List.takeWhile_cons_of_pos (hd _ he)]
        simpa [isDecimalDouble, h2] using he
  · by_cases h2 : c = '.'
    · subst h2
      rcases s with _ | ⟨e, s⟩
      · exact absurd h (by decide)
      · have he : isDigit e = true := by simpa [isDecimalDouble] using h
        rw [List.takeWhile_cons_of_pos hp, List.takeWhile_cons_of_pos (hd _ he)]
        simpa [isDecimalDouble] using he
    · have he : isDigit c = true := by simpa [isDecimalDouble, h1, h2] using h
      rw [List.takeWhile_cons_of_pos (hd _ he)]
      simpa [isDecimalDouble, h1, h2] using he

theorem digit_lonChar (c : Char) (h : isDigit c = true) : lonChar c = true := by
  unfold lonChar
  have : ∀ d : Char, isDigit d = false → c ≠ d := by
    rintro d hd rfl; rw [h] at hd; cases hd
  simp [this '\x00' (by decide), this ' ' (by decide), this '\n' (by decide), this ',' (by decide)]

theorem digit_latChar (c : Char) (h : isDigit c = true) : latChar c = true := by
  unfold latChar
  have : ∀ d : Char, isDigit d = false → c ≠ d := by
    rintro d hd rfl; rw [h] at hd; cases hd
  simp [this '\x00' (by decide), this ' ' (by decide), this ',' (by decide)]

theorem digit_ne (c d : Char) (h : isDigit c = true) (hd : isDigit d = false) : c ≠ d := by
  rintro rfl; rw [h] at hd; cases hd

theorem decimal_of_numStart {c : Char} {r : Str} (hm : MinusOk (c :: r)) (hc : numStart c = true) :
    isDecimalDouble (c :: r) = true := by
  by_cases h1 : c = '-'
  · subst h1; exact hm [] r rfl
  · have hd : isDigit c = true := by simpa [numStart, h1] using hc
    have h2 : c ≠ '.' := digit_ne _ _ hd (by decide)
    simpa [isDecimalDouble, h1, h2] using hd

theorem takeWhile_infix (p : Char → Bool) (s : Str) : s.takeWhile p <:+: s :=
  (List.takeWhile_prefix p).isInfix

theorem fits_takeWhile {s : Str} {p : Char → Bool} (h : TokensFit s)
    (hp : ∀ c, p c = true → c ≠ ' ' ∧ c ≠ ',') : fits (s.takeWhile p) = true := by
  have hall : ∀ c ∈ s.takeWhile p, p c = true := fun c hc => List.all_eq_true.1 (List.all_takeWhile) c hc
  have := h _ (takeWhile_infix p s) (fun c hc => hp c (hall c hc))
  simpa [fits] using this

theorem lonChar_ne (c : Char) (h : lonChar c = true) : c ≠ ' ' ∧ c ≠ ',' := by
  simp [lonChar] at h; exact ⟨h.1.1.2, h.2⟩

theorem latChar_ne (c : Char) (h : latChar c = true) : c ≠ ' ' ∧ c ≠ ',' := by
  simp [latChar] at h; exact ⟨h.2, h.1.2⟩

theorem numStart_lonChar (c : Char) (h : numStart c = true) : lonChar c = true := by
  by_cases h1 : c = '-'
  · subst h1; decide
  · exact digit_lonChar c (by simpa [numStart, h1] using h)

theorem parseLat_ok (n : NumLib) {s : Str} (hf : TokensFit s) :
    ∃ lat b rest, parseLat n s = .ok (lat, b, rest) ∧ rest <:+ s := by
  have h1 := skipToLat_suffix s
  have hf1 := fits_takeWhile (hf.suffix h1) latChar_ne
  have h : ∃ lat b, parseLat n s = .ok (lat, b, (skipToLat s).dropWhile latChar) := by
    unfold parseLat
    simp only [hf1, Bool.not_true, Bool.false_eq_true, if_false]
    exact ⟨_, _, rfl⟩
  obtain ⟨lat, b, h⟩ := h
  exact ⟨lat, b, _, h, (dropWhile_suffix _ _).trans h1⟩

theorem parseAlt_ok (n : NumLib) (b : Bool) {s : Str} (v : Vec3) (hf : TokensFit s) (hm : MinusOk s)
    (hs : s = [] ∨ ∃ c r, s = c :: r ∧ numStart c = true) :
    ∃ v' rest, parseAlt n b s v = .ok (v', rest) ∧ rest <:+ s := by
  cases b with
  | true => exact ⟨v, s, rfl, List.suffix_refl _⟩
  | false =>
    have hf1 := fits_takeWhile hf latChar_ne
    rcases hs with rfl | ⟨c, r, rfl, hc⟩
    · exact ⟨v, [], rfl, List.suffix_refl _⟩
    · have hd := isDecimalDouble_takeWhile (p := latChar) (decimal_of_numStart hm hc)
        digit_latChar (by decide) (by decide)
      have hne : (c :: r).takeWhile latChar ≠ [] := by
        intro e; rw [e] at hd; exact absurd hd (by decide)
      have h : ∃ v', parseAlt n false (c :: r) v = .ok (v', (c :: r).dropWhile latChar) := by
        unfold parseAlt
        simp only [hf1, hd, hne, Bool.not_true, Bool.false_eq_true, if_false, if_true]
        exact ⟨_, rfl⟩
      obtain ⟨v', h⟩ := h
      exact ⟨v', _, h, dropWhile_suffix _ _⟩

theorem parseVec3_ok (n : NumLib) {s : Str} (h0 : '\x00' ∉ s) (hf : TokensFit s) (hm : MinusOk s)
    (hn : ∃ c ∈ s, numStart c = true) :
    ∃ v next, parseVec3 n s = .ok (some (v, next)) ∧ next <:+ s ∧ next.length < s.length ∧
      (next = [] ∨ ∃ c r, next = c :: r ∧ numStart c = true) := by
  have hj := skipJunk_suffix s
  rcases skipJunk_cases s h0 with h | ⟨c, r, hs, hc⟩
  · obtain ⟨c, hc, hcn⟩ := hn
    have := (skipJunk_eq_nil h0).1 h c hc
    rw [this] at hcn; cases hcn
  have hf1 : TokensFit (c :: r) := hs ▸ hf.suffix hj
  have hm1 : MinusOk (c :: r) := hs ▸ hm.suffix hj
  have hlc := numStart_lonChar c hc
  have hd := isDecimalDouble_takeWhile (p := lonChar) (decimal_of_numStart hm1 hc)
    digit_lonChar (by decide) (by decide)
  have hne : (c :: r).takeWhile lonChar ≠ [] := by
    intro e; rw [e] at hd; exact absurd hd (by decide)
  have hdr : (c :: r).dropWhile lonChar <:+ r := by
    rw [List.dropWhile_cons_of_pos hlc]; exact dropWhile_suffix _ _
  have hr : r <:+ c :: r := List.suffix_cons c r
  obtain ⟨lat, b, rest, hlat, hrest⟩ := parseLat_ok n (hf1.suffix (hdr.trans hr))
  have hsr : skipJunk rest <:+ c :: r := (skipJunk_suffix rest).trans (hrest.trans (hdr.trans hr))
  have h0r : '\x00' ∉ rest := not_mem_suffix h0 ((hrest.trans (hdr.trans hr)).trans (hs ▸ hj))
  obtain ⟨v', rest', halt, hrest'⟩ := parseAlt_ok n b
    { Vec3.zero with lon := n.num ((c :: r).takeWhile lonChar), lat := lat }
    (hf1.suffix hsr) (hm1.suffix hsr) (skipJunk_cases rest h0r)
  have hfin : skipJunk rest' <:+ r :=
    (skipJunk_suffix rest').trans (hrest'.trans ((skipJunk_suffix rest).trans (hrest.trans hdr)))
  have hrs : r <:+ s := hr.trans (hs ▸ hj)
  refine ⟨v', skipJunk rest', ?_, hfin.trans hrs, ?_, ?_⟩
  · unfold parseVec3
    simp only [hs, fits_takeWhile hf1 lonChar_ne, hd, hne, hlat, halt, Bool.not_true,
      Bool.false_eq_true, if_false, Outcome.ok_bind]
  · have h1 := hfin.length_le
    have h2 : (c :: r).length ≤ s.length := (hs ▸ hj : c :: r <:+ s).length_le
    simp at h2; omega
  · exact skipJunk_cases rest' (not_mem_suffix h0 ((hrest'.trans hsr).trans (hs ▸ hj)))

theorem parse_ok (n : NumLib) : ∀ (fuel : Nat) (s : Str) (acc : List Vec3), s.length ≤ fuel →
    '\x00' ∉ s → TokensFit s → MinusOk s → (s = [] ∨ ∃ c ∈ s, numStart c = true) →
    ∃ pts, parse n fuel s acc = some (.ok pts) := by
  intro fuel
  induction fuel with
  | zero =>
    intro s acc hl _ _ _ _
    have : s = [] := List.length_eq_zero_iff.1 (by omega)
    subst this
    exact ⟨acc, rfl⟩
  | succ fuel ih =>
    intro s acc hl h0 hf hm hn
    rcases s with _ | ⟨c, s⟩
    · exact ⟨acc, rfl⟩
    · rcases hn with hn | hn
      · cases hn
      obtain ⟨v, next, hp, hsuf, hlen, hnext⟩ := parseVec3_ok n h0 hf hm hn
      have := ih next (acc ++ [v]) (by omega) (not_mem_suffix h0 hsuf) (hf.suffix hsuf)
        (hm.suffix hsuf) (by
          rcases hnext with rfl | ⟨c, r, rfl, hc⟩
          · exact Or.inl rfl
          · exact Or.inr ⟨c, by simp, hc⟩)
      obtain ⟨pts, hpts⟩ := this
      exact ⟨pts, by simp only [parse, hp, hpts]⟩

/-- **C23, what holds.** Parsing the text of a coordinates element ends with a list of points, within
as many rounds as the text has characters, if the text has no NUL character, is empty or contains a
digit or a minus sign, has no run of 1024 characters without blank or comma, and each of its minus
signs is followed by a digit or by a point and a digit.

Missing from the full property: texts outside these conditions; `C23_hang_violated`,
`C23_uninitialised_violated` and `C23_overflow_violated` show that it is false there. -/
theorem C23_parse_partial (n : NumLib) (s : Str) (h0 : '\x00' ∉ s)
    (hn : s = [] ∨ ∃ c ∈ s, isDigit c = true ∨ c = '-')
    (hf : ∀ t, t <:+: s → (∀ c ∈ t, c ≠ ' ' ∧ c ≠ ',') → t.length < 1024)
    (hm : ∀ a b, s = a ++ '-' :: b →
      (∃ d r, b = d :: r ∧ isDigit d = true) ∨ (∃ d r, b = '.' :: d :: r ∧ isDigit d = true)) :
    ∃ pts, ∀ fuel, s.length ≤ fuel → parse n fuel s [] = some (.ok pts) := by
  have hm' : MinusOk s := by
    intro a b e
    rcases hm a b e with ⟨d, r, rfl, hd⟩ | ⟨d, r, rfl, hd⟩
    · have h2 : d ≠ '.' := digit_ne _ _ hd (by decide)
      simpa [isDecimalDouble, h2] using hd
    · simpa [isDecimalDouble] using hd
  have hn' : s = [] ∨ ∃ c ∈ s, numStart c = true := by
    rcases hn with h | ⟨c, hc, h⟩
    · exact Or.inl h
    · refine Or.inr ⟨c, hc, ?_⟩
      rcases h with h | h <;> simp [numStart, h]
  have hmono : ∀ (f g : Nat) (t : Str) (acc : List Vec3) (o : Outcome (List Vec3)), f ≤ g →
      parse n f t acc = some o → parse n g t acc = some o := by
    intro f
    induction f with
    | zero =>
      intro g t acc o _ h
      rcases t with _ | ⟨c, t⟩
      · cases g <;> exact h
      · cases h
    | succ f ih =>
      intro g t acc o hg h
      rcases t with _ | ⟨c, t⟩
      · cases g <;> exact h
      · obtain ⟨g, rfl⟩ : ∃ g', g = g' + 1 := ⟨g - 1, by omega⟩
        rw [parse] at h ⊢
        split at h
        · exact ih g _ _ _ (by omega) h
        · exact ih g _ _ _ (by omega) h
        · exact h
        · exact h
  obtain ⟨pts, hp⟩ := parse_ok n s.length s [] (Nat.le_refl _) h0 hf hm' hn'
  exact ⟨pts, fun fuel hfuel => hmono _ _ _ _ _ hfuel hp⟩

example : parse NumLib.integers 40 (chars! "\n 1,2,3\n 4,5 -6 , 7") [] =
    some (.ok [⟨['1'], ['2'], ['3'], true⟩, ⟨['4'], ['5'], ['0'], false⟩,
      ⟨['-', '6'], ['7'], ['0'], false⟩]) := by decide

/-- The hypotheses of `C23_parse_partial` hold of an ordinary text. -/
example : let s := chars! "1,-2 3,4"
    '\x00' ∉ s ∧ (∃ c ∈ s, isDigit c = true ∨ c = '-') ∧ s.length < 1024 := by decide

/-- A value of a parsed point: a piece of the text that looks like a number, as the number library reads it. -/
def ReadFrom (n : NumLib) (s value : Str) : Prop :=
  ∃ token, token <:+: s ∧ isDecimalDouble token = true ∧ value = n.num token

/-- The values of a parsed point are in the text; a latitude may be missing and is then 0, and so may an altitude. -/
def PointFrom (n : NumLib) (s : Str) (v : Vec3) : Prop :=
  ReadFrom n s v.lon ∧ (ReadFrom n s v.lat ∨ v.lat = ['0']) ∧
    (v.hasAlt = true ∧ ReadFrom n s v.alt ∨ v.hasAlt = false ∧ v.alt = ['0'])

theorem PointFrom.mono {n : NumLib} {s s' : Str} {v : Vec3} (h : PointFrom n s v) (hs : s <:+: s') : PointFrom n s' v := by
  have : ∀ x, ReadFrom n s x → ReadFrom n s' x := fun x ⟨t, h1, h2, h3⟩ => ⟨t, h1.trans hs, h2, h3⟩
  obtain ⟨h1, h2, h3⟩ := h
  refine ⟨this _ h1, h2.imp_left (this _), h3.imp_left fun h => ⟨h.1, this _ h.2⟩⟩

theorem parseVec3_from {n : NumLib} {s : Str} {v : Vec3} {next : Str} (h : parseVec3 n s = .ok (some (v, next))) :
    PointFrom n s v ∧ next <:+ s := by
  have take : ∀ {p : Char → Bool} {x : Str}, x <:+ s → x.takeWhile p <:+: s := fun hx =>
    (List.takeWhile_prefix _).isInfix.trans hx.isInfix
  unfold parseVec3 at h
  have hj := skipJunk_suffix s
  generalize hs1 : skipJunk s = s1 at h hj
  dsimp only at h
  split at h
  · cases h
  · split at h
    · cases h
    · split at h
      · cases h
      · rename_i _ _ hlon
        have hlon : isDecimalDouble (s1.takeWhile lonChar) = true := by simpa using hlon
        have hd : s1.dropWhile lonChar <:+ s := (List.dropWhile_suffix _).trans hj
        cases hl : parseLat n (s1.dropWhile lonChar) with
        | ok lat =>
          rw [hl] at h
          simp only [Outcome.ok_bind] at h
          have hlat : (ReadFrom n s lat.1 ∨ lat.1 = ['0']) ∧ lat.2.2 <:+ s := by
            unfold parseLat at hl
            have hk : skipToLat (s1.dropWhile lonChar) <:+ s := (List.dropWhile_suffix _).trans hd
            dsimp only at hl
            split at hl
            · cases hl
            · cases hl
              refine ⟨?_, (List.dropWhile_suffix _).trans hk⟩
              dsimp only
              split
              · rename_i hdd
                exact .inl ⟨_, take hk, hdd, rfl⟩
              · exact .inr rfl
          have hj2 : skipJunk lat.2.2 <:+ s := (skipJunk_suffix _).trans hlat.2
          cases ha : parseAlt n lat.2.1 (skipJunk lat.2.2)
              { Vec3.zero with lon := n.num (s1.takeWhile lonChar), lat := lat.1 } with
          | ok a =>
            rw [ha] at h
            simp only [Outcome.ok_bind, Outcome.ok.injEq, Option.some.injEq, Prod.mk.injEq] at h
            obtain ⟨rfl, rfl⟩ := h
            have base : ReadFrom n s (n.num (s1.takeWhile lonChar)) := ⟨_, take hj, hlon, rfl⟩
            unfold parseAlt at ha
            dsimp only at ha
            split at ha
            · cases ha
              exact ⟨⟨base, hlat.1, .inr ⟨rfl, rfl⟩⟩, (skipJunk_suffix _).trans hj2⟩
            · split at ha
              · cases ha
              · split at ha
                · cases ha
                  exact ⟨⟨base, hlat.1, .inr ⟨rfl, rfl⟩⟩,
                    (skipJunk_suffix _).trans ((List.dropWhile_suffix _).trans hj2)⟩
                · split at ha
                  · rename_i hdd
                    cases ha
                    exact ⟨⟨base, hlat.1, .inl ⟨rfl, ⟨_, take hj2, hdd, rfl⟩⟩⟩,
                      (skipJunk_suffix _).trans ((List.dropWhile_suffix _).trans hj2)⟩
                  · cases ha
          | throws => rw [ha] at h; cases h
          | ub => rw [ha] at h; cases h
        | throws => rw [hl] at h; cases h
        | ub => rw [hl] at h; cases h

/-- **C23, values.** Whatever the text, every value of a point that is read is a number in the text; a missing latitude is
0, and a missing altitude is 0 and marked as missing. -/
theorem C23_values (n : NumLib) : ∀ (fuel : Nat) (s : Str) (pts : List Vec3), parse n fuel s [] = some (.ok pts) →
    ∀ v ∈ pts, PointFrom n s v := by
  have general : ∀ (fuel : Nat) (t : Str) (acc pts : List Vec3) (s : Str), t <:+ s → (∀ v ∈ acc, PointFrom n s v) →
      parse n fuel t acc = some (.ok pts) → ∀ v ∈ pts, PointFrom n s v := by
    intro fuel
    induction fuel with
    | zero =>
      intro t acc pts s _ hacc h
      cases t with
      | nil => simp only [parse, Option.some.injEq, Outcome.ok.injEq] at h; subst h; exact hacc
      | cons => cases h
    | succ fuel ih =>
      intro t acc pts s ht hacc h
      cases t with
      | nil => simp only [parse, Option.some.injEq, Outcome.ok.injEq] at h; subst h; exact hacc
      | cons c t =>
        rw [parse] at h
        split at h
        · exact ih _ _ _ _ ht hacc h
        · rename_i v next hv
          obtain ⟨h1, h2⟩ := parseVec3_from hv
          refine ih _ _ _ _ (h2.trans ht) ?_ h
          intro w hw
          rcases List.mem_append.1 hw with hw | hw
          · exact hacc w hw
          · rw [List.mem_singleton.1 hw]; exact h1.mono ht.isInfix
        · cases h
        · cases h
  intro fuel s pts h
  exact general fuel s [] pts s List.suffix_rfl (by simp) h

example : parse NumLib.integers 10 (chars! "12,abc 3,4,5") [] =
    some (.ok [⟨chars! "12", chars! "3", chars! "4", true⟩, ⟨chars! "5", chars! "0", chars! "0", false⟩]) := by decide

/-- **C23 fails: endless loop.** On every text that is not empty and has neither a digit nor a minus
sign before its end (a blank, for instance) the parser runs for ever. -/
theorem C23_hang_violated (n : NumLib) (s : Str) (hs : s ≠ [])
    (h : ∀ c ∈ s, isDigit c = false ∧ c ≠ '-') : ∀ fuel, parse n fuel s [] = none := by
  have hv : parseVec3 n s = .ok none := by
    have hj : (skipJunk s).takeWhile lonChar = [] := by
      rcases hs' : skipJunk s with _ | ⟨c, r⟩
      · rfl
      · have hp := dropWhile_head_false hs'
        have hc : c ∈ s := (skipJunk_suffix s).subset (by rw [hs']; simp)
        have : c = '\x00' := by
          simpa [numStart, (h c hc).1, (h c hc).2] using hp
        subst this
        rw [List.takeWhile_cons_of_neg (by decide)]
    unfold parseVec3
    simp only [hj]
    rfl
  intro fuel
  rcases s with _ | ⟨c, s⟩
  · exact absurd rfl hs
  induction fuel with
  | zero => rfl
  | succ fuel ih => simp only [parse, hv, ih]

example : ∀ fuel, parse NumLib.integers fuel (chars! " ") [] = none :=
  C23_hang_violated _ _ (by decide) (by decide)

/-- **C23 fails: uninitialised value.** A minus sign that starts a longitude but no number makes the
parser use a variable that was never set. -/
theorem C23_uninitialised_violated : ∃ s, ∀ n : NumLib, parse n s.length s [] = some .ub :=
  ⟨chars! "-x,1", fun _ => rfl⟩

theorem takeWhile_replicate_self (k : Nat) :
    (List.replicate k '1').takeWhile lonChar = List.replicate k '1' :=
  takeWhile_self (fun x hx => by rw [(List.mem_replicate.1 hx).2]; decide)

/-- **C23 fails: buffer overflow.** A token of 1024 characters or more is copied beyond the end of a
buffer. -/
theorem C23_overflow_violated (n : NumLib) (k : Nat) (h : 1024 ≤ k) :
    parse n k (List.replicate k '1') [] = some .ub := by
  obtain ⟨k, rfl⟩ : ∃ j, k = j + 1 := ⟨k - 1, by omega⟩
  have hj : skipJunk (List.replicate (k + 1) '1') = List.replicate (k + 1) '1' := by
    rw [List.replicate_succ]; exact skipJunk_stop (by decide)
  have hv : parseVec3 n (List.replicate (k + 1) '1') = .ub := by
    unfold parseVec3
    simp only [hj, takeWhile_replicate_self]
    have : fits (List.replicate (k + 1) '1') = false := by simp [fits]; omega
    simp [this]
  rw [List.replicate_succ] at hv ⊢
  simp only [parse, hv]

/-! ## C24 -/

/-- A point whose numbers are texts the library itself writes, as every number of a point is. -/
def IsPoint (n : NumLib) (v : Vec3) : Prop := n.num v.lon = v.lon ∧ n.num v.lat = v.lat ∧ n.num v.alt = v.alt

theorem numText_decimal {t : Str} (h : IsNumText t) : isDecimalDouble t = true := by
  obtain ⟨⟨c, r, ht, hc⟩, _, _⟩ := h
  have h1 : c ≠ '-' := digit_ne _ _ hc (by decide)
  have h2 : c ≠ '.' := digit_ne _ _ hc (by decide)
  rcases ht with rfl | rfl <;> simpa [isDecimalDouble, h1, h2] using hc

theorem numText_start {t : Str} (h : IsNumText t) : ∃ c r, t = c :: r ∧ numStart c = true := by
  obtain ⟨⟨c, r, ht, hc⟩, _, _⟩ := h
  rcases ht with rfl | rfl
  · exact ⟨c, r, rfl, by simp [numStart, hc]⟩
  · exact ⟨'-', c :: r, rfl, by decide⟩

theorem numText_chars {t : Str} (h : IsNumText t) {p : Char → Bool}
    (hd : ∀ c, isDigit c = true → p c = true)
    (ho : p '-' = true ∧ p '+' = true ∧ p '.' = true ∧ p 'e' = true) : ∀ c ∈ t, p c = true := by
  intro c hc
  rcases h.2.1 c hc with h | rfl | rfl | rfl | rfl
  · exact hd c h
  · exact ho.1
  · exact ho.2.1
  · exact ho.2.2.1
  · exact ho.2.2.2

theorem dropWhile_all {α} {p : α → Bool} {t r : List α} {c : α} (h : ∀ x ∈ t, p x = true)
    (hc : p c = false) : (t ++ c :: r).dropWhile p = c :: r := by
  induction t with
  | nil => simp [hc]
  | cons x t ih =>
    simp only [List.cons_append]
    rw [List.dropWhile_cons_of_pos (h x (by simp)), ih (fun y hy => h y (by simp [hy]))]

theorem dropWhile_self {α} {p : α → Bool} {t : List α} (h : ∀ x ∈ t, p x = true) :
    t.dropWhile p = [] := dropWhile_nil_iff.2 h

theorem fits_num {t : Str} (h : IsNumText t) : fits t = true := by
  have := h.2.2; simp [fits]; omega

/-- Reading one written point: the point, and what follows its line break. -/
theorem parseVec3_written (n : NumLib) (v : Vec3) (hv : IsPoint n v) (s rest : Str)
    (hrest : rest = [] ∨ ∃ r, rest = ' ' :: r)
    (hs : skipJunk s = v.lon ++ ',' :: (v.lat ++ ',' :: (v.alt ++ '\n' :: rest))) :
    parseVec3 n s = .ok (some ({ v with hasAlt := true }, skipJunk rest)) := by
  have hlon : IsNumText v.lon := hv.1 ▸ n.num_text _
  have hlat : IsNumText v.lat := hv.2.1 ▸ n.num_text _
  have halt : IsNumText v.alt := hv.2.2 ▸ n.num_text _
  have clon : ∀ c ∈ v.lon, lonChar c = true := numText_chars hlon digit_lonChar (by decide)
  have clat : ∀ c ∈ v.lat, latChar c = true := numText_chars hlat digit_latChar (by decide)
  have calt : ∀ c ∈ v.alt ++ ['\n'], latChar c = true := by
    intro c hc
    rcases List.mem_append.1 hc with h | h
    · exact numText_chars halt digit_latChar (by decide) c h
    · rw [List.mem_singleton.1 h]; decide
  -- the latitude
  have hskip : skipToLat (',' :: (v.lat ++ ',' :: (v.alt ++ '\n' :: rest))) =
      v.lat ++ ',' :: (v.alt ++ '\n' :: rest) := by
    obtain ⟨c, r, hr, hc⟩ := numText_start hlat
    have : skipToLat (',' :: (v.lat ++ ',' :: (v.alt ++ '\n' :: rest))) =
        skipToLat (v.lat ++ ',' :: (v.alt ++ '\n' :: rest)) := by
      unfold skipToLat
      rw [List.dropWhile_cons_of_pos (by decide)]
    rw [this, hr, List.cons_append, skipToLat_stop hc]
  have hplat : parseLat n (',' :: (v.lat ++ ',' :: (v.alt ++ '\n' :: rest))) =
      .ok (v.lat, false, ',' :: (v.alt ++ '\n' :: rest)) := by
    unfold parseLat
    simp only [hskip, takeWhile_all clat (show latChar ',' = false by decide),
      dropWhile_all clat (show latChar ',' = false by decide), fits_num hlat, numText_decimal hlat,
      hv.2.1, Bool.not_true, Bool.false_eq_true, if_false, if_true]
    rfl
  -- the altitude
  have hskip2 : skipJunk (',' :: (v.alt ++ '\n' :: rest)) = v.alt ++ '\n' :: rest := by
    obtain ⟨c, r, hr, hc⟩ := numText_start halt
    rw [show ',' :: (v.alt ++ '\n' :: rest) = [','] ++ (v.alt ++ '\n' :: rest) from rfl,
      skipJunk_append (by decide), hr, List.cons_append, skipJunk_stop hc]
  have hsplit : v.alt ++ '\n' :: rest = (v.alt ++ ['\n']) ++ rest := by simp
  have htake : (v.alt ++ '\n' :: rest).takeWhile latChar = v.alt ++ ['\n'] := by
    rw [hsplit]
    rcases hrest with rfl | ⟨r, rfl⟩
    · rw [List.append_nil]; exact takeWhile_self calt
    · exact takeWhile_all calt (by decide)
  have hdrop : (v.alt ++ '\n' :: rest).dropWhile latChar = rest := by
    rw [hsplit]
    rcases hrest with rfl | ⟨r, rfl⟩
    · rw [List.append_nil]; exact dropWhile_self calt
    · exact dropWhile_all calt (by decide)
  have hnum : n.num (v.alt ++ ['\n']) = v.alt := by
    have := n.num_stop v.alt []
    rwa [hv.2.2] at this
  have hdec : isDecimalDouble (v.alt ++ ['\n']) = true := by
    obtain ⟨⟨c, r, ht, hc⟩, _, _⟩ := halt
    have h1 : c ≠ '-' := digit_ne _ _ hc (by decide)
    have h2 : c ≠ '.' := digit_ne _ _ hc (by decide)
    rcases ht with h | h <;> rw [h] <;> simpa [isDecimalDouble, h1, h2] using hc
  have hfit : fits (v.alt ++ ['\n']) = true := by
    have := halt.2.2; simp [fits]; omega
  have hpalt : parseAlt n false (v.alt ++ '\n' :: rest)
      { Vec3.zero with lon := v.lon, lat := v.lat } = .ok ({ v with hasAlt := true }, rest) := by
    unfold parseAlt
    simp only [htake, hdrop, hnum, hdec, hfit, Bool.not_true, Bool.false_eq_true, if_false, if_true]
    rw [if_neg (by simp)]
  -- all
  have hne : v.lon ≠ [] := by
    obtain ⟨c, r, hr, _⟩ := numText_start hlon; rw [hr]; simp
  unfold parseVec3
  simp only [hs, takeWhile_all clon (show lonChar ',' = false by decide),
    dropWhile_all clon (show lonChar ',' = false by decide), fits_num hlon, numText_decimal hlon,
    hne, hv.1, hplat, hskip2, hpalt, Bool.not_true, Bool.false_eq_true, if_false, Outcome.ok_bind]

theorem spaces_junk (k : Nat) : ∀ c ∈ List.replicate k ' ', c ≠ '\x00' ∧ numStart c = false := by
  intro c hc
  rw [(List.mem_replicate.1 hc).2]; decide

theorem parse_written (n : NumLib) (k j : Nat) : ∀ (pts : List Vec3) (acc : List Vec3) (s : Str) (fuel : Nat),
    (∀ v ∈ pts, IsPoint n v) → pts.length ≤ fuel → (pts = [] → s = []) →
    skipJunk s = skipJunk (pts.flatMap (saveVec3 ['\n'] (List.replicate (k + 1) ' ')) ++
      List.replicate j ' ') →
    parse n fuel s acc = some (.ok (acc ++ pts.map fun v => { v with hasAlt := true })) := by
  intro pts
  induction pts with
  | nil =>
    intro acc s fuel _ _ h0 _
    rw [h0 rfl]
    cases fuel <;> simp [parse]
  | cons v pts ih =>
    intro acc s fuel hp hf _ hs
    obtain ⟨fuel, rfl⟩ : ∃ f, fuel = f + 1 := ⟨fuel - 1, by simp at hf; omega⟩
    let rest := pts.flatMap (saveVec3 ['\n'] (List.replicate (k + 1) ' ')) ++ List.replicate j ' '
    have hv := hp v (by simp)
    have htext : (v :: pts).flatMap (saveVec3 ['\n'] (List.replicate (k + 1) ' ')) ++
        List.replicate j ' ' =
        List.replicate (k + 1) ' ' ++ (v.lon ++ ',' :: (v.lat ++ ',' :: (v.alt ++ '\n' :: rest))) := by
      simp [saveVec3, rest]
    have hs' : skipJunk s = v.lon ++ ',' :: (v.lat ++ ',' :: (v.alt ++ '\n' :: rest)) := by
      rw [hs, htext, skipJunk_append (spaces_junk _)]
      obtain ⟨c, r, hr, hc⟩ := numText_start (hv.1 ▸ n.num_text _ : IsNumText v.lon)
      rw [hr, List.cons_append, skipJunk_stop hc]
    have hrest : rest = [] ∨ ∃ r, rest = ' ' :: r := by
      rcases pts with _ | ⟨w, ws⟩
      · cases j with
        | zero => exact Or.inl rfl
        | succ j => exact Or.inr ⟨List.replicate j ' ', by simp [rest, List.replicate_succ]⟩
      · refine Or.inr (List.head?_eq_some_iff.1 ?_)
        simp [rest, saveVec3, List.replicate_succ]
    have hvec := parseVec3_written n v hv s rest hrest hs'
    have hne : s ≠ [] := by
      rintro rfl
      have hl := congrArg List.length hs'
      simp [skipJunk] at hl
    have hnext := ih (acc ++ [{ v with hasAlt := true }]) (skipJunk rest) fuel
      (fun w hw => hp w (by simp [hw])) (by simpa using hf)
      (by
        rintro rfl
        simp only [rest, List.flatMap_nil, List.nil_append]
        have := skipJunk_append (s := []) (spaces_junk j)
        rw [List.append_nil] at this
        rw [this]; rfl)
      (by
        show skipJunk (skipJunk rest) = skipJunk rest
        have : ∀ t : Str, skipJunk (skipJunk t) = skipJunk t := by
          intro t
          rcases ht : skipJunk t with _ | ⟨c, r⟩
          · rfl
          · have hp := dropWhile_head_false ht
            unfold skipJunk
            rw [List.dropWhile_cons_of_neg (by simpa using hp)]
        exact this rest)
    rcases s with _ | ⟨c, s⟩
    · exact absurd rfl hne
    · simp only [parse, hvec, hnext, List.map_cons, List.append_assoc, List.singleton_append]

/-- **C24, pretty output.** For every list of points, at every depth of nesting, reading back what was
written gives a list of points of which each equals (as `Vec3::operator==` compares) the one written;
the altitude is now always present. -/
theorem C24_pretty_partial (n : NumLib) (pts : List Vec3) (h : ∀ v ∈ pts, IsPoint n v) (depth : Nat)
    (fuel : Nat) (hf : pts.length ≤ fuel) :
    ∃ back, parse n fuel (content ['\n'] (List.replicate (2 * (depth + 1)) ' ')
        (List.replicate (2 * depth) ' ') pts) [] = some (.ok back) ∧
      back.length = pts.length ∧ ∀ i (hi : i < pts.length) (hj : i < back.length),
        pts[i].same back[i] = true ∧ back[i].hasAlt = true := by
  refine ⟨pts.map fun v => { v with hasAlt := true }, ?_, by simp, ?_⟩
  · by_cases h0 : pts = []
    · subst h0; cases fuel <;> rfl
    · rw [content, if_neg h0]
      have := parse_written n (2 * depth + 1) (2 * depth) pts []
        (['\n'] ++ pts.flatMap (saveVec3 ['\n'] (List.replicate (2 * depth + 1 + 1) ' ')) ++
          List.replicate (2 * depth) ' ') fuel h hf (fun e => absurd e h0)
        (by rw [List.append_assoc, skipJunk_append (by decide)])
      rw [show 2 * (depth + 1) = 2 * depth + 1 + 1 by omega]
      simpa using this
  · intro i hi hj
    simp [Vec3.same]

/-- **C24, raw output, what holds.** A coordinates element with at most one point, as a `Point` has,
is read back from raw output too.

Missing: raw output with two or more points, for which the property is false
(`C24_raw_violated`). -/
theorem C24_raw_partial (n : NumLib) (v : Vec3) (h : IsPoint n v) :
    ∃ back, parse n 1 (content [] [] [] [v]) [] = some (.ok [back]) ∧ v.same back = true := by
  have hv := parseVec3_written n v h (content [] [] [] [v]) [] (Or.inl rfl) (by
    obtain ⟨c, r, hr, hc⟩ := numText_start (h.1 ▸ n.num_text _ : IsNumText v.lon)
    have : content [] [] [] [v] = v.lon ++ ',' :: (v.lat ++ ',' :: (v.alt ++ '\n' :: [])) := by
      simp [content, saveVec3]
    rw [this, hr, List.cons_append, skipJunk_stop hc])
  refine ⟨{ v with hasAlt := true }, ?_, by simp [Vec3.same]⟩
  rcases hc : content [] [] [] [v] with _ | ⟨c, s⟩
  · have := congrArg List.length hc
    simp [content, saveVec3] at this
  · rw [hc] at hv
    simp only [parse, hv]
    rfl

/-- **C24 fails for raw output.** Two points written without line breaks are read back as two other
points: the line break `SaveVec3` writes does not end an altitude, so the second point loses its
longitude. -/
theorem C24_raw_violated : ∃ pts : List Vec3,
    (∀ v ∈ pts, IsPoint NumLib.integers v) ∧
    parse NumLib.integers 10 (content [] [] [] pts) [] =
      some (.ok [⟨['1'], ['2'], ['3'], true⟩, ⟨['5'], ['6'], ['0'], false⟩]) ∧
    pts = [⟨['1'], ['2'], ['3'], true⟩, ⟨['4'], ['5'], ['6'], true⟩] :=
  ⟨_, by unfold IsPoint; decide, by decide, rfl⟩

example : parse NumLib.integers 10 (content ['\n'] (chars! "  ") []
    [⟨['1'], ['2'], ['3'], true⟩, ⟨['4'], ['5'], ['6'], false⟩]) [] =
    some (.ok [⟨['1'], ['2'], ['3'], true⟩, ⟨['4'], ['5'], ['6'], true⟩]) := by decide

end Kml.Coords
