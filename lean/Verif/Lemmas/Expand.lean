import Verif.Model.StringUtil
import Verif.Lemmas.Find
import Verif.Spec.StringUtil
/-! Facts about `CreateExpandedStrings` (used by `Verif/Props/StringUtil.lean`). -/
namespace Kml.StringUtil
open Kml

/-! #### Termination -/

theorem expandLoop_isSome (cand key val : Str) (hk : key <:+: cand) (hnil : cand = [] → key = []) :
    ∀ (fuel : Nat) (out : Str) (pos : Option Nat),
      (∀ p, pos = some p → p + cand.length ≤ out.length ∧ out.length < p + cand.length + fuel) →
      (expandLoop cand key val fuel out pos).isSome
  | _, out, none, _ => by simp [expandLoop]
  | 0, out, some p, h => by
    obtain ⟨h1, h2⟩ := h p rfl
    omega
  | fuel + 1, out, some p, h => by
    obtain ⟨h1, h2⟩ := h p rfl
    rw [expandLoop]
    split
    · rfl
    · rename_i hc
      have hval : ¬ key <:+: val := by
        intro hi
        exact hc (findFrom_isSome_iff_infix.2 hi)
      have hcand : cand ≠ [] := by
        intro h0
        exact hval (by rw [hnil h0]; exact List.nil_infix)
      have hcl : 0 < cand.length := List.length_pos_iff.2 hcand
      apply expandLoop_isSome cand key val hk hnil fuel
      intro q hq
      rw [find] at hq
      split at hq
      case isFalse => cases hq
      rename_i hle
      simp only [Option.map_eq_some_iff] at hq
      obtain ⟨a, ha, rfl⟩ := hq
      obtain ⟨ha1, ha2, -⟩ := findFrom_some ha
      rw [List.drop_drop] at ha1
      have hlen : (replaceAt out p cand.length val).length = p + val.length + (out.length - (p + cand.length)) := by
        simp [replaceAt]; omega
      have hl1 := ha1.length_le
      rw [List.length_drop] at hl1
      refine ⟨by omega, ?_⟩
      -- the hit cannot lie within the value
      by_cases hin : a + (p + cand.length) + cand.length ≤ p + val.length
      · exfalso
        apply hval
        refine hk.trans ?_
        have e : (replaceAt out p cand.length val).drop (p + cand.length + a)
            = (val.drop (cand.length + a)) ++ out.drop (p + cand.length) := by
          rw [replaceAt, List.append_assoc, List.drop_append, List.drop_append]
          simp only [List.length_take, List.drop_take]
          rw [show min p out.length = p by omega, show p + cand.length + a - p = cand.length + a by omega,
            show p - (p + cand.length + a) = 0 by omega, show cand.length + a - val.length = 0 by omega]
          simp
        rw [e] at ha1
        have : cand <+: val.drop (cand.length + a) := by
          apply List.prefix_of_prefix_length_le ha1 (List.prefix_append _ _)
          rw [List.length_drop]; omega
        exact this.isInfix.trans (List.drop_suffix _ _).isInfix
      · omega

theorem expandOne_isSome (start end_ key val out : Str) : (expandOne start end_ key val out).isSome := by
  unfold expandOne
  apply expandLoop_isSome
  · exact ⟨start, end_, rfl⟩
  · intro h; simp_all
  · intro p hp
    rw [find_zero] at hp
    obtain ⟨h1, h2, -⟩ := findFrom_some hp
    have := h1.length_le
    rw [List.length_drop] at this
    constructor
    · simp at *; omega
    · simp at *; omega

theorem foldlM_isSome {α β : Type} (f : β → α → Option β) (hf : ∀ b a, (f b a).isSome) (l : List α) (b : β) :
    (l.foldlM f b).isSome := by
  induction l generalizing b with
  | nil => simp
  | cons a l ih =>
    rw [List.foldlM_cons]
    obtain ⟨b', hb⟩ := Option.isSome_iff_exists.1 (hf b a)
    rw [hb]
    exact ih b'

/-! #### Templates -/

theorem createExpandedStrings_absent (start end_ s : Str) (m : List (Str × Str))
    (h : ∀ kv ∈ m, ¬ (start ++ kv.1 ++ end_) <:+: s) :
    createExpandedStrings s m start end_ = some s := by
  induction m with
  | nil => rfl
  | cons kv m ih =>
    unfold createExpandedStrings
    rw [List.foldlM_cons]
    have : expandOne start end_ kv.1 kv.2 s = some s := by
      unfold expandOne
      simp only
      rw [find_zero, findFrom_eq_none_iff_infix.2 (h kv (by simp)), expandLoop]
    rw [this]
    exact ih (fun kv hkv => h kv (by simp [hkv]))

theorem not_prefix_other {e0 : Char} : ∀ {k k' en r : Str}, e0 ∉ k → e0 ∉ k' → k ≠ k' →
    ¬ (k ++ e0 :: en) <+: (k' ++ e0 :: r)
  | [], [], _, _, _, _, hne => by simp at hne
  | [], c :: k', en, r, _, h2, _ => by
    simp only [List.nil_append, List.cons_append, List.cons_prefix_cons]
    rintro ⟨rfl, _⟩; simp at h2
  | c :: k, [], en, r, h1, _, _ => by
    simp only [List.nil_append, List.cons_append, List.cons_prefix_cons]
    rintro ⟨rfl, _⟩; simp at h1
  | c :: k, c' :: k', en, r, h1, h2, hne => by
    simp only [List.cons_append, List.cons_prefix_cons]
    rintro ⟨rfl, h⟩
    simp at h1 h2 hne
    exact not_prefix_other h1.2 h2.2 hne h

theorem flat_append (s e : Str) (a b : List Piece) : flat s e (a ++ b) = flat s e a ++ flat s e b := by
  simp [flat]

theorem flat_cons (s e : Str) (p : Piece) (b : List Piece) : flat s e (p :: b) = p.text s e ++ flat s e b := by
  simp [flat]

section
variable {c0 e0 : Char} {st en : Str}

/-- Searching for a placeholder finds the first placeholder with that name. -/
theorem findFrom_flat (hst : c0 ∉ st) (hen : c0 ∉ e0 :: en) (k : Str) (hk : e0 ∉ k) :
    ∀ (ps : List Piece), (∀ p ∈ ps, Clean c0 e0 p) →
      findFrom ((c0 :: st) ++ k ++ (e0 :: en)) (flat (c0 :: st) (e0 :: en) ps) = none ∧ .hole k ∉ ps ∨
      ∃ a b, ps = a ++ .hole k :: b ∧ .hole k ∉ a ∧
        findFrom ((c0 :: st) ++ k ++ (e0 :: en)) (flat (c0 :: st) (e0 :: en) ps)
          = some (flat (c0 :: st) (e0 :: en) a).length
  | [], _ => by
    left; simp [flat, findFrom]
  | .lit t :: ps, h => by
    have ht : c0 ∉ t := h (.lit t) (by simp)
    have e : findFrom ((c0 :: st) ++ k ++ (e0 :: en)) (flat (c0 :: st) (e0 :: en) (.lit t :: ps))
        = (findFrom ((c0 :: st) ++ k ++ (e0 :: en)) (flat (c0 :: st) (e0 :: en) ps)).map (· + t.length) := by
      simpa [flat, Piece.text] using findFrom_skip (p := st ++ k ++ e0 :: en) (r := flat (c0 :: st) (e0 :: en) ps) ht
    rcases findFrom_flat hst hen k hk ps (fun p hp => h p (by simp [hp])) with ⟨h1, h2⟩ | ⟨a, b, rfl, hna, h3⟩
    · left; rw [e, h1]; simp [h2]
    · right
      refine ⟨.lit t :: a, b, rfl, by simp [hna], ?_⟩
      rw [e, h3, flat_cons]; simp only [Option.map_some, List.length_append, Piece.text, Nat.add_comm]
  | .hole k' :: ps, h => by
    obtain ⟨hk1, hk2⟩ := h (.hole k') (by simp)
    by_cases hkk : k' = k
    · right
      refine ⟨[], ps, by rw [hkk]; rfl, by simp, ?_⟩
      rw [findFrom_eq_some_iff]
      simp [flat, Piece.text, hkk]
    · have e : findFrom ((c0 :: st) ++ k ++ (e0 :: en)) (flat (c0 :: st) (e0 :: en) (.hole k' :: ps))
        = (findFrom ((c0 :: st) ++ k ++ (e0 :: en)) (flat (c0 :: st) (e0 :: en) ps)).map
            (· + ((c0 :: st) ++ k' ++ (e0 :: en)).length) := by
        have e1 : flat (c0 :: st) (e0 :: en) (.hole k' :: ps)
            = c0 :: ((st ++ k' ++ e0 :: en) ++ flat (c0 :: st) (e0 :: en) ps) := by
          simp [flat, Piece.text]
        rw [e1]
        have hnp : ¬ ((c0 :: st) ++ k ++ (e0 :: en)) <+:
            c0 :: ((st ++ k' ++ e0 :: en) ++ flat (c0 :: st) (e0 :: en) ps) := by
          simp only [List.cons_append, List.append_assoc, List.cons_prefix_cons, List.prefix_append_right_inj,
            true_and]
          exact not_prefix_other hk hk2 (Ne.symm hkk)
        rw [findFrom, if_neg (by simpa using hnp)]
        have := findFrom_skip (c0 := c0) (p := st ++ k ++ e0 :: en) (a := st ++ k' ++ e0 :: en)
          (r := flat (c0 :: st) (e0 :: en) ps) (by simp at hen; simp [hst, hk1, hen])
        simp only [List.cons_append, List.append_assoc] at this ⊢
        rw [this]
        cases findFrom (c0 :: (st ++ (k ++ e0 :: en))) (flat (c0 :: st) (e0 :: en) ps) <;> simp
        omega
      rcases findFrom_flat hst hen k hk ps (fun p hp => h p (by simp [hp])) with ⟨h1, h2⟩ | ⟨a, b, rfl, hna, h3⟩
      · left; rw [e, h1]; simp [h2, Ne.symm hkk]
      · right
        refine ⟨.hole k' :: a, b, rfl, by simp [hna, Ne.symm hkk], ?_⟩
        rw [e, h3, flat_cons]; simp only [Option.map_some, List.length_append, Piece.text, Nat.add_comm]

theorem fill_of_not_mem {k val : Str} : ∀ {ps : List Piece}, .hole k ∉ ps → ps.map (Piece.fill k val) = ps
  | [], _ => rfl
  | .lit t :: ps, h => by
    simp only [List.mem_cons, not_or] at h
    simp [Piece.fill, fill_of_not_mem h.2]
  | .hole k' :: ps, h => by
    simp only [List.mem_cons, not_or, Piece.hole.injEq] at h
    simp [Piece.fill, Ne.symm h.1, fill_of_not_mem h.2]

theorem roomy_append {k val : Str} {s e : Str} : ∀ {a b : List Piece},
    Roomy s e k val (a ++ b) → Roomy s e k val b := by
  intro a b h
  induction a with
  | nil => exact h
  | cons x a ih =>
    cases x with
    | lit t => exact ih h
    | hole k' => exact ih h.2

/-- The loop for one name fills all its placeholders. -/
theorem expandLoop_flat (hst : c0 ∉ st) (hen : c0 ∉ e0 :: en) (k val : Str) (hk : e0 ∉ k)
    (hv : c0 ∉ val) (hkv : ¬ k <:+: val) :
    ∀ (fuel : Nat) (ps : List Piece) (pre : Str),
      (ps.countP (· = .hole k) < fuel) →
      (∀ p ∈ ps, Clean c0 e0 p) → Roomy (c0 :: st) (e0 :: en) k val ps →
      expandLoop ((c0 :: st) ++ k ++ (e0 :: en)) k val fuel (pre ++ flat (c0 :: st) (e0 :: en) ps)
        (find (pre ++ flat (c0 :: st) (e0 :: en) ps) ((c0 :: st) ++ k ++ (e0 :: en)) pre.length)
        = some (pre ++ flat (c0 :: st) (e0 :: en) (ps.map (Piece.fill k val))) := by
  intro fuel
  induction fuel with
  | zero =>
    intro ps pre hf hc hr
    omega
  | succ fuel ih =>
    intro ps pre hf hc hr
    rw [find_append]
    rcases findFrom_flat hst hen k hk ps hc with ⟨h1, h2⟩ | ⟨a, b, rfl, hna, h3⟩
    · rw [h1, fill_of_not_mem h2]; simp [expandLoop]
    · rw [h3]
      have hcount : (a ++ Piece.hole k :: b).countP (· = .hole k) = b.countP (· = .hole k) + 1 := by
        rw [List.countP_append, List.countP_cons]
        have : a.countP (· = Piece.hole k) = 0 := by
          rw [List.countP_eq_zero]
          intro x hx
          simp only [decide_eq_true_eq]
          rintro rfl
          exact hna hx
        simp [this]
      rw [hcount] at hf
      simp only [Option.map_some, expandLoop]
      rw [if_neg (by rw [contains, findFrom_isSome_iff_infix]; exact hkv)]
      generalize hcd : (c0 :: st) ++ k ++ (e0 :: en) = cand at *
      have hrep : replaceAt (pre ++ flat (c0 :: st) (e0 :: en) (a ++ Piece.hole k :: b))
          ((flat (c0 :: st) (e0 :: en) a).length + pre.length) cand.length val
          = pre ++ flat (c0 :: st) (e0 :: en) a ++ val ++ flat (c0 :: st) (e0 :: en) b := by
        rw [flat_append, flat_cons, Piece.text, hcd, replaceAt]
        have e1 : pre ++ (flat (c0 :: st) (e0 :: en) a ++ (cand ++ flat (c0 :: st) (e0 :: en) b))
          = (pre ++ flat (c0 :: st) (e0 :: en) a) ++ (cand ++ flat (c0 :: st) (e0 :: en) b) := by simp
        rw [e1]
        have e2 : (flat (c0 :: st) (e0 :: en) a).length + pre.length
          = (pre ++ flat (c0 :: st) (e0 :: en) a).length := by simp; omega
        rw [e2, List.take_left]
        rw [← List.drop_drop, List.drop_left, List.drop_left]
      rw [hrep]
      have hres : pre ++ flat (c0 :: st) (e0 :: en) ((a ++ Piece.hole k :: b).map (Piece.fill k val))
          = pre ++ flat (c0 :: st) (e0 :: en) a ++ val ++ flat (c0 :: st) (e0 :: en) (b.map (Piece.fill k val)) := by
        rw [List.map_append, fill_of_not_mem hna, flat_append, List.map_cons, flat_cons]
        simp [Piece.fill, Piece.text]
      rw [hres]
      have hroom := roomy_append hr
      simp only [Roomy, true_implies] at hroom
      rw [hcd] at hroom
      have hcb : ∀ p ∈ b, Clean c0 e0 p := fun p hp => hc p (by simp [hp])
      by_cases hlen : cand.length ≤ val.length
      · have := ih (.lit (val.drop cand.length) :: b) (pre ++ flat (c0 :: st) (e0 :: en) a ++ val.take cand.length)
          (by simp at *; omega)
          (by
            intro p hp
            simp only [List.mem_cons] at hp
            rcases hp with rfl | hp
            · exact fun hm => hv (List.mem_of_mem_drop hm)
            · exact hcb p hp)
          hroom.2
        rw [List.map_cons] at this
        simp only [flat_cons, Piece.text, Piece.fill, List.append_assoc] at this ⊢
        rw [← List.append_assoc (List.take cand.length val), List.take_append_drop,
          ← List.append_assoc (List.take cand.length val), List.take_append_drop] at this
        rw [← this]
        congr 2
        simp [Nat.min_eq_left hlen]
        omega
      · rcases hroom.1 with rfl | hb
        · rw [find, if_neg (by simp [flat]; omega)]
          simp [expandLoop, flat]
        · have hroom2 := hroom.2
          match b, hb, hcb, hf, hroom2 with
          | [], hb, hcb, _, _ => exact absurd hb (by simp [leadLen]; omega)
          | .hole k' :: _, hb, _, _, _ => exact absurd hb (by simp [leadLen]; omega)
          | .lit t :: b', hb, hcb, hf, hroom2 =>
            simp only [leadLen] at hb
            have := ih (.lit (t.drop (cand.length - val.length)) :: b')
              (pre ++ flat (c0 :: st) (e0 :: en) a ++ val ++ t.take (cand.length - val.length))
              (by simp at *; omega)
              (by
                intro p hp
                simp only [List.mem_cons] at hp
                rcases hp with rfl | hp
                · exact fun hm => hcb (.lit t) (by simp) (List.mem_of_mem_drop hm)
                · exact hcb p (by simp [hp]))
              hroom2
            rw [List.map_cons] at this
            simp only [flat_cons, Piece.text, Piece.fill, List.append_assoc, List.map_cons] at this ⊢
            rw [← List.append_assoc (List.take (cand.length - val.length) t), List.take_append_drop,
              ← List.append_assoc (List.take (cand.length - val.length) t), List.take_append_drop] at this
            rw [← this]
            congr 2
            simp
            omega

theorem leadLen_fill (k v : Str) (ps : List Piece) : leadLen ps ≤ leadLen (ps.map (Piece.fill k v)) := by
  cases ps with
  | nil => simp
  | cons p ps => cases p <;> simp [leadLen, Piece.fill]

theorem roomy_fill {s e k v k2 v2 : Str} {ps : List Piece} (h : Roomy s e k2 v2 ps) :
    Roomy s e k2 v2 (ps.map (Piece.fill k v)) := by
  induction ps with
  | nil => trivial
  | cons p ps ih =>
    cases p with
    | lit t => exact ih h
    | hole k' =>
      simp only [List.map_cons, Piece.fill]
      split
      · exact ih h.2
      · refine ⟨?_, ih h.2⟩
        intro hk
        rcases h.1 hk with rfl | hh
        · left; rfl
        · right; exact Nat.le_trans hh (Nat.add_le_add_left (leadLen_fill k v ps) _)

theorem clean_fill {k v : Str} (hv : c0 ∉ v) {ps : List Piece} (h : ∀ p ∈ ps, Clean c0 e0 p) :
    ∀ p ∈ ps.map (Piece.fill k v), Clean c0 e0 p := by
  intro p hp
  simp only [List.mem_map] at hp
  obtain ⟨q, hq, rfl⟩ := hp
  have := h q hq
  cases q with
  | lit t => exact this
  | hole k' =>
    simp only [Piece.fill]
    split
    · exact hv
    · exact this

theorem count_le_flat (s e : Str) (hs : s ≠ []) (k : Str) (ps : List Piece) :
    ps.countP (· = .hole k) ≤ (flat s e ps).length := by
  induction ps with
  | nil => simp
  | cons p ps ih =>
    rw [flat_cons, List.countP_cons]
    cases p with
    | lit t => simp [Piece.text]; omega
    | hole k' =>
      have := List.length_pos_iff.2 hs
      simp only [Piece.text, List.length_append]
      split <;> omega

theorem expandOne_flat (hst : c0 ∉ st) (hen : c0 ∉ e0 :: en) (k val : Str) (hk : e0 ∉ k)
    (hv : c0 ∉ val) (hkv : ¬ k <:+: val) (ps : List Piece)
    (hc : ∀ p ∈ ps, Clean c0 e0 p) (hr : Roomy (c0 :: st) (e0 :: en) k val ps) :
    expandOne (c0 :: st) (e0 :: en) k val (flat (c0 :: st) (e0 :: en) ps)
      = some (flat (c0 :: st) (e0 :: en) (ps.map (Piece.fill k val))) := by
  have := expandLoop_flat hst hen k val hk hv hkv ((flat (c0 :: st) (e0 :: en) ps).length + 1) ps []
    (by have := count_le_flat (c0 :: st) (e0 :: en) (by simp) k ps; omega) hc hr
  simpa [expandOne] using this

theorem expand_fill (s e k v : Str) (m : List (Str × Str)) (ps : List Piece) :
    expected s e m (ps.map (Piece.fill k v)) = expected s e ((k, v) :: m) ps := by
  induction ps with
  | nil => rfl
  | cons p ps ih =>
    simp only [expected, List.map_cons, List.flatMap_cons] at ih ⊢
    rw [ih]
    congr 1
    cases p with
    | lit t => rfl
    | hole k' =>
      simp only [Piece.fill, List.lookup_cons]
      by_cases h : k' = k
      · simp [h]
      · have : (k' == k) = false := by simpa using h
        simp [h, this]

theorem expected_nil (s e : Str) (ps : List Piece) : expected s e [] ps = flat s e ps := by
  unfold expected flat
  congr 1

theorem createExpandedStrings_flat (hst : c0 ∉ st) (hen : c0 ∉ e0 :: en) (m : List (Str × Str))
    (ps : List Piece)
    (hm : ∀ kv ∈ m, e0 ∉ kv.1 ∧ c0 ∉ kv.2 ∧ ¬ kv.1 <:+: kv.2 ∧ Roomy (c0 :: st) (e0 :: en) kv.1 kv.2 ps)
    (hc : ∀ p ∈ ps, Clean c0 e0 p) :
    createExpandedStrings (flat (c0 :: st) (e0 :: en) ps) m (c0 :: st) (e0 :: en)
      = some (expected (c0 :: st) (e0 :: en) m ps) := by
  induction m generalizing ps with
  | nil => rw [expected_nil]; rfl
  | cons kv m ih =>
    obtain ⟨k, v⟩ := kv
    obtain ⟨h1, h2, h3, h4⟩ := hm (k, v) (by simp)
    unfold createExpandedStrings
    rw [List.foldlM_cons, expandOne_flat hst hen k v h1 h2 h3 ps hc h4, ← expand_fill]
    exact ih (ps.map (Piece.fill k v))
      (fun kv hkv => by
        obtain ⟨a1, a2, a3, a4⟩ := hm kv (by simp [hkv])
        exact ⟨a1, a2, a3, roomy_fill a4⟩)
      (clean_fill h2 hc)
end
end Kml.StringUtil
