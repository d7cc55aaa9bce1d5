import Verif.Lemmas.Style
import Verif.Props.Merge

/-!
# C48 and C49: style resolution

`Styles` (Model/Style.lean) is what a resolution works with: the shared styles of the file, and what the cache of KML
files gives for a URL.  They are arbitrary here: a URL can name a style map that refers to it again.
-/

namespace Kml.Dom

open Kml

/-- **C48.** Resolving a style ends, for all shared styles and style maps, remote files, state, limit, style URL and
inline style: there is a depth of recursion that is never exceeded, so that the same result is got whatever more is
allowed.  The result is a `Style`, and no more than `limit` references were followed. -/
theorem C48_ends (n : NumLib) (w : Styles) (limit : Nat) (url : Str) (inline : Option Elem) : ∃ enough result,
    (∀ fuel, enough ≤ fuel → createResolvedStyle n w limit fuel url inline = some result) ∧
    ∀ st, result = .ok st → st.followed.length ≤ limit ∧ st.resolved.ty = Ty.«Style» :=
  resolve_ends limit url inline

/-- Every `Style` in a style map can be merged (C36). -/
def Usable (n : NumLib) (e : Elem) : Prop :=
  Everywhere (fun x => x.ty = Ty.«Style» → Held n x ∧ Everywhere Clonable x ∧ Everywhere Lossless x ∧ Everywhere Tidy x ∧
    x.complex = true) e

theorem usable_only {n : NumLib} {e x : Elem} {m : Mem} (h : Usable n e) (hx : e.only m = some x) : Usable n x := by
  cases h with
  | field => cases hx
  | node _ h _ => exact h m x (List.mem_of_mem_head? hx)

theorem usable_items {n : NumLib} {e x : Elem} {m : Mem} (h : Usable n e) (hx : x ∈ e.items m) : Usable n x := by
  cases h with
  | field => cases hx
  | node _ h _ => exact h m x hx

/-- A `Style` that can be merged into. -/
def OkStyle (n : NumLib) (e : Elem) : Prop := OkTarget n e ∧ e.complex = true ∧ e.ty = Ty.«Style»

section
variable {n : NumLib} {w : Styles}

theorem url_safe {f : StyleMerger → Option Elem → Run StyleMerger} (hw : ∀ url e, w.find url = some e → Usable n e)
    (hf : ∀ st x r, f st x = some r → (∀ e, x = some e → Usable n e) → OkStyle n st.resolved →
      ∃ st', r = .ok st' ∧ OkStyle n st'.resolved) {st : StyleMerger} {url : Str} {r : Outcome StyleMerger}
    (h : st.mergeStyleUrl w f url = some r) (hs : OkStyle n st.resolved) :
    ∃ st', r = .ok st' ∧ OkStyle n st'.resolved := by
  unfold StyleMerger.mergeStyleUrl at h
  split at h
  · cases h; exact ⟨_, rfl, hs⟩
  · split at h
    · rename_i e he
      exact hf _ _ _ h (fun x hx => by cases hx; exact hw url e he) hs
    · cases h; exact ⟨_, rfl, hs⟩

theorem style_safe {f : StyleMerger → Option Elem → Run StyleMerger} (hw : ∀ url e, w.find url = some e → Usable n e)
    (hf : ∀ st x r, f st x = some r → (∀ e, x = some e → Usable n e) → OkStyle n st.resolved →
      ∃ st', r = .ok st' ∧ OkStyle n st'.resolved) {st : StyleMerger} {url : Str} {x : Option Elem}
    {r : Outcome StyleMerger} (h : st.mergeStyle w f url x = some r) (hx : ∀ e, x = some e → Usable n e)
    (hs : OkStyle n st.resolved) : ∃ st', r = .ok st' ∧ OkStyle n st'.resolved := by
  unfold StyleMerger.mergeStyle at h
  rcases andThen_some h with ⟨a, h1, h2⟩ | ⟨h1, rfl⟩ | ⟨h1, rfl⟩
  · obtain ⟨st', h3, h4⟩ := url_safe hw hf h1 hs
    cases h3
    exact hf _ _ _ h2 hx h4
  · obtain ⟨st', h3, h4⟩ := url_safe hw hf h1 hs
    cases h3
  · obtain ⟨st', h3, h4⟩ := url_safe hw hf h1 hs
    cases h3

theorem pairs_safe {f : StyleMerger → Option Elem → Run StyleMerger} (hw : ∀ url e, w.find url = some e → Usable n e)
    (hf : ∀ st x r, f st x = some r → (∀ e, x = some e → Usable n e) → OkStyle n st.resolved →
      ∃ st', r = .ok st' ∧ OkStyle n st'.resolved) : ∀ (ps : List Elem) {st : StyleMerger}
    {r : Outcome StyleMerger}, st.mergePairs w f ps = some r → (∀ p ∈ ps, Usable n p) →
    OkStyle n st.resolved → ∃ st', r = .ok st' ∧ OkStyle n st'.resolved
  | [], st, r, h, _, hs => by cases h; exact ⟨_, rfl, hs⟩
  | p :: ps, st, r, h, hps, hs => by
    rw [StyleMerger.mergePairs] at h
    have first : ∀ r', (if pairKey p = w.state then
        st.mergeStyle w f (p.text M.«styleurl») (p.only M.«styleselector») else some (.ok st)) = some r' →
        ∃ st', r' = .ok st' ∧ OkStyle n st'.resolved := by
      intro r' h'
      split at h'
      · exact style_safe hw hf h' (fun e he => usable_only (hps p (by simp)) he) hs
      · cases h'; exact ⟨_, rfl, hs⟩
    rcases andThen_some h with ⟨a, h1, h2⟩ | ⟨h1, rfl⟩ | ⟨h1, rfl⟩
    · obtain ⟨st', h3, h4⟩ := first _ h1
      cases h3
      exact pairs_safe hw hf ps h2 (fun q hq => hps q (List.mem_cons_of_mem _ hq)) h4
    · obtain ⟨st', h3, h4⟩ := first _ h1
      cases h3
    · obtain ⟨st', h3, h4⟩ := first _ h1
      cases h3

theorem selector_safe (hw : ∀ url e, w.find url = some e → Usable n e) : ∀ (fuel : Nat) (st : StyleMerger)
    (x : Option Elem) (r : Outcome StyleMerger), mergeSelector n w fuel st x = some r →
    (∀ e, x = some e → Usable n e) → OkStyle n st.resolved → ∃ st', r = .ok st' ∧ OkStyle n st'.resolved
  | 0, _, _, _, h, _, _ => by cases h
  | fuel + 1, st, none, r, h, _, hs => by cases h; exact ⟨_, rfl, hs⟩
  | fuel + 1, st, some e, r, h, hx, hs => by
    have hu := hx e rfl
    rw [mergeSelector] at h
    split at h
    · rename_i hty
      cases h
      obtain ⟨g1, g2, g3, g4, g5⟩ := everywhere_top hu hty
      have hm := merge_main g1 g2 g3 g4 g5 st.resolved hs.1 hs.2.1 (by rw [hs.2.2, hty])
      rw [hm.1]
      have ht := merged_ty g5 hs.2.1 (by rw [hs.2.2, hty])
      exact ⟨_, rfl, hm.2, ht.2, by rw [ht.1, hty]⟩
    · split at h
      · exact pairs_safe hw (selector_safe hw fuel) _ h (fun p hp => usable_items hu hp) hs
      · cases h; exact ⟨_, rfl, hs⟩

end

/-- **C48, safety.** If the styles can be merged (they are as the parser leaves them, can be copied, and have nothing but
simple elements misplaced), then resolving a style has no undefined behaviour, and what it gives can be merged
into again. -/
theorem C48_safe (n : NumLib) (w : Styles) (limit : Nat) (url : Str) (inline : Option Elem)
    (hw : ∀ url e, w.find url = some e → Usable n e) (hi : ∀ e, inline = some e → Usable n e) : ∃ enough st,
    (∀ fuel, enough ≤ fuel → createResolvedStyle n w limit fuel url inline = some (.ok st)) ∧
    st.followed.length ≤ limit ∧ st.resolved.ty = Ty.«Style» ∧ Held n st.resolved := by
  obtain ⟨F, r, h1, h2⟩ := resolve_ends (n := n) (w := w) limit url inline
  have hnew : OkStyle n (newNode Ty.«Style») := by
    refine ⟨⟨?_, .node (by intro x hx; cases hx) (by intro m x hx; cases hx) (by intro x hx; cases hx)⟩, rfl, rfl⟩
    exact .node (by decide +kernel) (by decide) ⟨.nil, .nil, .nil, (by intro e he; cases he), (by intro e he; cases he)⟩
      (by intro m x hx; cases hx) (by intro x hx; cases hx) (by intro m x hx; cases hx) (by intro x hx; cases hx)
  obtain ⟨st, h3, h4⟩ := style_safe hw (selector_safe hw F) (h1 F (Nat.le_refl _)) hi hnew
  subst h3
  exact ⟨F, st, h1, (h2 st rfl).1, (h2 st rfl).2, h4.1.1⟩

/-! ### C49 -/

/-- **C49, as far as it holds.** If the last reference that leads anywhere is among the first `limit` looked at — counting,
for every feature and every pair of the state on the way, one, whether or not it has a reference — then all
styles are merged, each shared style before the one inside that goes over it.

Missing from the full property: the limit on the *length* of chains, for which it is false (`C49_siblings_violated`,
`C49_inline_violated`). -/
theorem C49_all_partial (n : NumLib) (w : Styles) (limit fuel : Nat) (url : Str) (inline : Option Elem)
    (d₁ c₁ k₁ d₂ c₂ k₂ : Nat) (l₁ l₂ : List Elem) (hu : UrlGives w.find w.state d₁ c₁ k₁ url l₁)
    (hi : SelGives w.find w.state d₂ c₂ k₂ inline l₂) (hk : lastOf c₁ k₁ k₂ ≤ limit) (r : Outcome StyleMerger)
    (h : createResolvedStyle n w limit fuel url inline = some r) (st : StyleMerger) (hr : r = .ok st) :
    mergeAll n (l₁ ++ l₂) (newNode Ty.«Style») = .ok st.resolved := by
  unfold createResolvedStyle StyleMerger.mergeStyle at h
  obtain ⟨hk1, hk2⟩ := lastOf_le (url_last hu) hk
  have hd : (StyleMerger.init limit).depth.toNat = limit := by simp [StyleMerger.init]
  obtain ⟨f, hf⟩ := After.then h (fun r hr => url_after hu fuel _ r (by omega) hr) fun st' r' hr' hd' =>
    sel_after hi fuel st' r' (by
      have : (StyleMerger.init limit).depth = limit := rfl
      omega) hr'
  subst hr
  have e : (StyleMerger.init limit).resolved = newNode Ty.«Style» := rfl
  rw [e] at hf
  cases hm : mergeAll n (l₁ ++ l₂) (newNode Ty.«Style») with
  | ok v => rw [hm] at hf; cases hf; rfl
  | throws => rw [hm] at hf; cases hf
  | ub => rw [hm] at hf; cases hf

/-- **C49, chains.** If every style map on the way has one pair of the state, and a style map is only reached by a
reference, then a chain no longer than the limit is resolved fully: every style on it is merged, the last one first. -/
theorem C49_chain_partial (n : NumLib) (w : Styles) (limit fuel : Nat) (url : Str) (k : Nat) (l : List Elem)
    (h : Chain w.find w.state k url l) (hk : k ≤ limit) (inline : Option Elem)
    (hi : inline = none ∨ ∃ s, inline = some s ∧ s.ty = Ty.«Style») (st : StyleMerger)
    (hr : createResolvedStyle n w limit fuel url inline = some (.ok st)) :
    mergeAll n (l ++ inline.toList) (newNode Ty.«Style») = .ok st.resolved := by
  obtain ⟨c, hc, hu⟩ := chain_gives h
  have hs : SelGives w.find w.state 0 0 0 inline inline.toList := by
    rcases hi with rfl | ⟨s, rfl, hs⟩
    · exact .none
    · exact .style hs
  exact C49_all_partial n w limit fuel url inline _ _ _ _ _ _ _ _ hu hs (by simpa [lastOf] using hk) _ hr st rfl

/-! ### Examples -/

/-- A reference in the file: `#` and the id. -/
def splitLocal : Str → Option (Str × Str)
  | '#' :: id => some ([], id)
  | path => some (path, [])

/-- A pair with the state `normal`. -/
def pairOf (slots : Mem → List Elem) : Elem :=
  .node Ty.«Pair» .empty (setSlot slots M.«key» [.field Ty.«key» (chars! "normal")]) [] []

/-- A pair with a reference. -/
def pairTo (url : Str) : Elem := pairOf (setSlot (fun _ => []) M.«styleurl» [.field Ty.«styleUrl» url])

/-- A style map with the given pairs. -/
def mapOf (ps : List Elem) : Elem := .node Ty.«StyleMap» .empty (setSlot (fun _ => []) M.«pair_array» ps) [] []

/-- `<Style><LabelStyle/></Style>` -/
def sStyle : Elem :=
  .node Ty.«Style» .empty (setSlot (fun _ => []) M.«labelstyle» [newNode Ty.«LabelStyle»]) [] []

/-- A chain of five references to a style, and a style map that refers to itself. -/
def sChain : Styles where
  split := splitLocal
  shared := [(['a'], mapOf [pairTo ['#', 'b']]), (['b'], mapOf [pairTo ['#', 'c']]), (['c'], mapOf [pairTo ['#', 'd']]),
    (['d'], mapOf [pairTo ['#', 's']]), (['l'], mapOf [pairTo ['#', 'l'], pairTo ['#', 's']]), (['s'], sStyle)]
  fetch := none
  state := chars! "normal"

/-- The resolved style as text. -/
def resolvedText (w : Styles) (limit fuel : Nat) (url : Str) (inline : Option Elem) : Option Str :=
  match createResolvedStyle NumLib.integers w limit fuel url inline with
  | some (.ok st) =>
    match serializeRaw st.resolved with
    | .ok s => some s
    | _ => none
  | _ => none

theorem sChain_chain : Chain sChain.find sChain.state 5 ['#', 'a'] ([] ++ [sStyle]) := by
  have hs : Chain sChain.find sChain.state 1 ['#', 's'] ([] ++ [sStyle]) := .style rfl rfl
  have hd := Chain.map (find := sChain.find) (state := sChain.state) (url := ['#', 'd']) (e := mapOf [pairTo ['#', 's']])
    (p := pairTo ['#', 's']) rfl rfl rfl (.inl rfl) hs
  have hc := Chain.map (find := sChain.find) (state := sChain.state) (url := ['#', 'c']) (e := mapOf [pairTo ['#', 'd']])
    (p := pairTo ['#', 'd']) rfl rfl rfl (.inl rfl) hd
  have hb := Chain.map (find := sChain.find) (state := sChain.state) (url := ['#', 'b']) (e := mapOf [pairTo ['#', 'c']])
    (p := pairTo ['#', 'c']) rfl rfl rfl (.inl rfl) hc
  exact Chain.map (find := sChain.find) (state := sChain.state) (url := ['#', 'a']) (e := mapOf [pairTo ['#', 'b']])
    (p := pairTo ['#', 'b']) rfl rfl rfl (.inl rfl) hb

/-- The chain is resolved with the limit of the library, 5. -/
example : resolvedText sChain 5 10 ['#', 'a'] none = some (chars! "<Style><LabelStyle/></Style>") := by decide +kernel

/-- A style map that refers to itself. -/
example : resolvedText sChain 5 10 ['#', 'l'] none = some (chars! "<Style/>") := by decide +kernel

example (st : StyleMerger) (hr : createResolvedStyle NumLib.integers sChain 5 10 ['#', 'a'] none = some (.ok st)) :
    mergeAll NumLib.integers [sStyle] (newNode Ty.«Style») = .ok st.resolved :=
  C49_chain_partial _ _ 5 10 _ 5 _ sChain_chain (by decide) none (.inl rfl) st hr

/-- A style map with five pairs of the state, of which only the last has a reference. -/
def sSiblings : Styles where
  split := splitLocal
  shared := [(['m'], mapOf [pairTo [], pairTo [], pairTo [], pairTo [], pairTo ['#', 's']]), (['s'], sStyle)]
  fetch := none
  state := chars! "normal"

/-- **C49 fails: references next to each other.** The style map `m` has five pairs of the state, of which only the last
has a reference.  The longest chain has two references, but it is not followed with a limit of 5. -/
theorem C49_siblings_violated : ∃ (w : Styles) (c k : Nat),
    UrlGives w.find w.state 2 c k ['#', 'm'] [sStyle] ∧
    resolvedText w 5 10 ['#', 'm'] none = some (chars! "<Style/>") ∧
    resolvedText w 6 10 ['#', 'm'] none = some (chars! "<Style><LabelStyle/></Style>") := by
  refine ⟨sSiblings, 6, 6, ?_, by decide +kernel, by decide +kernel⟩
  have h1 := PairsGive.cons (find := sSiblings.find) (state := sSiblings.state) (p := pairTo ['#', 's']) (ps := [])
    (UrlGives.found (e := sStyle) rfl (.style rfl)) SelGives.none PairsGive.nil
  have h2 := PairsGive.cons (p := pairTo []) (UrlGives.nothing rfl) SelGives.none h1
  have h3 := PairsGive.cons (p := pairTo []) (UrlGives.nothing rfl) SelGives.none h2
  have h4 := PairsGive.cons (p := pairTo []) (UrlGives.nothing rfl) SelGives.none h3
  have h5 := PairsGive.cons (p := pairTo []) (UrlGives.nothing rfl) SelGives.none h4
  exact UrlGives.found (e := mapOf [pairTo [], pairTo [], pairTo [], pairTo [], pairTo ['#', 's']]) rfl
    (SelGives.map rfl h5)

/-- **C49 fails: an inline style map.** The inline style map refers to a chain of five references, but the feature's own
`styleUrl`, which it does not have, counts too: the last one is not followed with a limit of 5. -/
theorem C49_inline_violated : ∃ c k,
    SelGives sChain.find sChain.state 5 c k (some (mapOf [pairTo ['#', 'a']])) [sStyle] ∧
    resolvedText sChain 5 10 [] (some (mapOf [pairTo ['#', 'a']])) = some (chars! "<Style/>") ∧
    resolvedText sChain 6 10 [] (some (mapOf [pairTo ['#', 'a']])) = some (chars! "<Style><LabelStyle/></Style>") := by
  obtain ⟨c, _, hc⟩ := chain_gives sChain_chain
  have h := PairsGive.cons (p := pairTo ['#', 'a']) (ps := []) hc SelGives.none PairsGive.nil
  exact ⟨_, _, SelGives.map (e := mapOf [pairTo ['#', 'a']]) rfl h, by decide +kernel, by decide +kernel⟩

end Kml.Dom
