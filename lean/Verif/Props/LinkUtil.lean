import Verif.Spec.LinkUtil
import Verif.Props.Kmz
/-! Property C93: fetching through the caches. -/
namespace Kml.Dom
open Kml.Kmz Kml.NetCache Kml.Uri Kml.ZipFile

/-! ### What is there without caches -/

/-- Reading in an archive. -/
def readIn (w : World) (z : List Entry) (u : KmlUri) : Option (Str × KmlUri) :=
  if u.pathInKmz ≠ [] then (getEntry w.caseCounts w.max z u.pathInKmz).map fun c => (c, u)
  else (readKmlAndGetPath w z).map fun r => (r.1, u.setPathInKmz r.2)

/-- Fetching without caches. -/
def direct (lib : UriLib) (w : World) : Nat → KmlUri → Option (Option (Str × Str))
  | 0, _ => none
  | fuel + 1, u =>
    if u.isKmz = false then some ((w.net u.url).map fun c => (c, u.url))
    else
      match (w.net u.kmzUrl).bind w.openKmz with
      | none => some none
      | some z =>
        match readIn w z u with
        | some (c, u') => some (some (c, u'.url))
        | none =>
          match createRelative lib u.kmzUrl u.target with
          | none => some none
          | some u' => (direct lib w fuel u').map fun r => r.map fun x => (x.1, u'.url)

theorem direct_same (lib : UriLib) (w : World) : ∀ (n m : Nat) (u : KmlUri) (a b : Option (Str × Str)),
    direct lib w n u = some a → direct lib w m u = some b → a = b
  | 0, _, _, _, _, h, _ => by cases h
  | _ + 1, 0, _, _, _, _, h => by cases h
  | n + 1, m + 1, u, a, b, h, h' => by
    unfold direct at h h'
    by_cases hk : u.isKmz = false
    · rw [if_pos hk] at h h'
      rw [h] at h'
      exact Option.some.inj h'
    rw [if_neg hk] at h h'
    cases hz : (w.net u.kmzUrl).bind w.openKmz with
    | none =>
      rw [hz] at h h'
      cases h
      cases h'
      rfl
    | some z =>
      rw [hz] at h h'
      dsimp only at h h'
      cases hr : readIn w z u with
      | some x =>
        rw [hr] at h h'
        dsimp only at h h'
        rw [h] at h'
        exact Option.some.inj h'
      | none =>
        rw [hr] at h h'
        dsimp only at h h'
        cases hv : createRelative lib u.kmzUrl u.target with
        | none =>
          rw [hv] at h h'
          cases h
          cases h'
          rfl
        | some v =>
          rw [hv] at h h'
          dsimp only at h h'
          obtain ⟨x, hx, rfl⟩ := Option.map_eq_some_iff.1 h
          obtain ⟨y, hy, rfl⟩ := Option.map_eq_some_iff.1 h'
          rw [direct_same lib w n m v x y hx hy]

/-! ### The caches hold what is there -/

/-- All items of a cache are what the network gives. -/
def SoundCache {α : Type} (net : Str → Option Str) (mk : Str → Option α) (c : Cache α) : Prop :=
  ∀ e ∈ c.map, ∀ i, e.2.1 = some i → (net e.1).bind mk = some i

theorem mem_set {β : Type} {m : StdMap β} {k : Str} {v : β} {e : Str × β} (h : e ∈ m.set k v) : e = (k, v) ∨ e ∈ m := by
  induction m with
  | nil => exact .inl (List.mem_singleton.1 h)
  | cons x m ih =>
    unfold StdMap.set at h
    split at h
    · rcases List.mem_cons.1 h with h | h
      · exact .inl h
      · exact .inr (List.mem_cons_of_mem _ h)
    · split at h
      · rcases List.mem_cons.1 h with h | h
        · exact .inl h
        · exact .inr h
      · rcases List.mem_cons.1 h with h | h
        · exact .inr (by rw [h]; exact List.mem_cons_self ..)
        · rcases ih h with h | h
          · exact .inl h
          · exact .inr (List.mem_cons_of_mem _ h)

theorem mem_removeOldest {α : Type} {c : Cache α} {e : Str × Option α × Nat} (h : e ∈ (removeOldest c).2.map) : e ∈ c.map := by
  unfold removeOldest at h
  split at h
  · exact h
  · exact (StdMap.erase_sublist _ _).subset h

theorem mem_save {α : Type} {c : Cache α} {url : Str} {item : Option α} {e : Str × Option α × Nat}
    (h : e ∈ (save c url item).2.map) : (e.1 = url ∧ e.2.1 = item) ∨ e ∈ c.map := by
  unfold save at h
  split at h
  · exact .inr h
  · dsimp only at h
    rcases mem_set h with rfl | h
    · exact .inl ⟨rfl, rfl⟩
    · right
      split at h
      · exact mem_removeOldest h
      · exact h

theorem SoundCache.new {α : Type} (net : Str → Option Str) (mk : Str → Option α) (n : Nat) : SoundCache net mk (init n) := by
  intro e h
  cases h

theorem SoundCache.look {α : Type} {net : Str → Option Str} {mk : Str → Option α} {c : Cache α} (h : SoundCache net mk c) {url : Str} {i : α}
    (hl : lookUp c url = some i) : (net url).bind mk = some i := by
  unfold lookUp at hl
  split at hl
  · cases hl
  · rename_i e he
    exact h _ (StdMap.mem_of_get he) i hl

theorem SoundCache.fetch {α : Type} {net : Str → Option Str} {mk : Str → Option α} {c : Cache α} (h : SoundCache net mk c) (url : Str) :
    (fetch net mk c url).1 = (net url).bind mk ∧ SoundCache net mk (fetch net mk c url).2.1 := by
  unfold NetCache.fetch
  cases hl : lookUp c url with
  | some i => exact ⟨(h.look hl).symm, h⟩
  | none =>
    dsimp only
    cases hn : net url with
    | none => exact ⟨rfl, h⟩
    | some data =>
      dsimp only
      have hs : (save c url (mk data)).1 = true := (C14_save_lookup c url (mk data) hl).1
      rw [hs, if_pos rfl]
      refine ⟨rfl, fun e he i hi => ?_⟩
      rcases mem_save he with ⟨h1, h2⟩ | he
      · rw [h1, hn, Option.bind_some, ← h2, hi]
      · exact h e he i hi

/-- Both raw caches hold what is there. -/
def SoundRaw (w : World) (s : KState) : Prop := SoundCache w.net w.openKmz s.kmz ∧ SoundCache w.net some s.mem

theorem soundRaw_new (w : World) (n : Nat) : SoundRaw w ⟨init n, init n⟩ := ⟨SoundCache.new _ _ n, SoundCache.new _ _ n⟩

theorem doFetch_direct (lib : UriLib) (w : World) : ∀ (fuel : Nat) (s : KState) (u : KmlUri), SoundRaw w s →
    (doFetch lib w fuel s u).map Prod.fst = direct lib w fuel u ∧ ∀ r, doFetch lib w fuel s u = some r → SoundRaw w r.2
  | 0, s, u, h => ⟨rfl, fun r hr => by cases hr⟩
  | fuel + 1, s, u, h => by
    unfold doFetch direct
    by_cases hk : u.isKmz = false
    · rw [if_pos hk, if_pos hk]
      have := h.2.fetch u.url
      rw [Option.bind_fun_some] at this
      dsimp only
      refine ⟨by rw [Option.map_some, this.1], fun r hr => ?_⟩
      cases hr
      exact ⟨h.1, this.2⟩
    rw [if_neg hk, if_neg hk]
    have hf := h.1.fetch u.kmzUrl
    dsimp only
    rw [hf.1]
    cases hz : (w.net u.kmzUrl).bind w.openKmz with
    | none =>
      refine ⟨rfl, fun r hr => ?_⟩
      cases hr
      exact ⟨hf.2, h.2⟩
    | some z =>
      dsimp only
      have hl := fetch_lookUp w.net w.openKmz s.kmz u.kmzUrl z (by rw [hf.1, hz])
      have hread : fetchFromCache w { s with kmz := (fetch w.net w.openKmz s.kmz u.kmzUrl).2.1 } u = readIn w z u := by
        unfold fetchFromCache readIn
        rw [hl]
      rw [hread]
      cases hr : readIn w z u with
      | some x =>
        refine ⟨rfl, fun r hr => ?_⟩
        cases hr
        exact ⟨hf.2, h.2⟩
      | none =>
        dsimp only
        cases hv : createRelative lib u.kmzUrl u.target with
        | none =>
          refine ⟨rfl, fun r hr => ?_⟩
          cases hr
          exact ⟨hf.2, h.2⟩
        | some v =>
          dsimp only
          have ih := doFetch_direct lib w fuel { s with kmz := (fetch w.net w.openKmz s.kmz u.kmzUrl).2.1 } v ⟨hf.2, h.2⟩
          rw [← ih.1, Option.map_map, Option.map_map]
          refine ⟨rfl, fun r hr => ?_⟩
          obtain ⟨x, hx, rfl⟩ := Option.map_eq_some_iff.1 hr
          exact ih.2 x hx

theorem data_direct {F : Type} (lib : UriLib) (w : World) (fuel : Nat) (c : Caches F) (base target : Str) (h : SoundRaw w c.raw) :
    (c.data lib w fuel base target).map Prod.fst = (match createRelative lib base target with
      | none => some none
      | some u => (direct lib w fuel u).map fun r => r.map Prod.fst) ∧
    ∀ r, c.data lib w fuel base target = some r → SoundRaw w r.2.raw ∧ r.2.files = c.files := by
  unfold Caches.data fetchDataRelative
  cases createRelative lib base target with
  | none =>
    refine ⟨rfl, fun r hr => ?_⟩
    cases hr
    exact ⟨h, rfl⟩
  | some u =>
    have hd := doFetch_direct lib w fuel c.raw u h
    dsimp only
    rw [← hd.1, Option.map_map, Option.map_map, Option.map_map]
    refine ⟨rfl, fun r hr => ?_⟩
    obtain ⟨x, hx, rfl⟩ := Option.map_eq_some_iff.1 hr
    obtain ⟨y, hy, rfl⟩ := Option.map_eq_some_iff.1 hx
    exact ⟨hd.2 y hy, rfl⟩

/-- `FetchKmlRelative` with its parts. -/
theorem kml_direct {F : Type} (lib : UriLib) (w : World) (mk : Str → Str → Option F) (fuel : Nat) (c : Caches F) (base target : Str)
    (h : SoundRaw w c.raw) (r : Option F) (c' : Caches F) (hr : c.kml lib w mk fuel base target = some (r, c')) :
    SoundRaw w c'.raw ∧
    ((createRelative lib base target = none ∧ r = none ∧ c'.files = c.files) ∨
     ∃ u, createRelative lib base target = some u ∧
      ((∃ f, lookUp c.files u.url = some f ∧ r = some f ∧ c'.files = c.files) ∨
       (lookUp c.files u.url = none ∧ ∃ d, direct lib w fuel u = some d ∧
        ((r = none ∧ (∀ x, d = some x → mk x.1 x.2 = none) ∧ c'.files = c.files) ∨
         ∃ x f, d = some x ∧ mk x.1 x.2 = some f ∧ r = some f ∧ c'.files = (save c.files x.2 (some f)).2)))) := by
  unfold Caches.kml fetchKmlRelative at hr
  cases hu : createRelative lib base target with
  | none =>
    rw [hu] at hr
    cases hr
    exact ⟨h, .inl ⟨rfl, rfl, rfl⟩⟩
  | some u =>
    rw [hu] at hr
    dsimp only at hr
    cases hl : lookUp c.files u.url with
    | some f =>
      rw [hl] at hr
      cases hr
      exact ⟨h, .inr ⟨u, rfl, .inl ⟨f, hl, rfl, rfl⟩⟩⟩
    | none =>
      rw [hl] at hr
      dsimp only at hr
      have hd := doFetch_direct lib w fuel c.raw u h
      cases hf : doFetch lib w fuel c.raw u with
      | none =>
        rw [hf] at hr
        cases hr
      | some y =>
        have hs := hd.2 y hf
        rw [hf] at hr hd
        obtain ⟨d, s⟩ := y
        cases d with
        | none =>
          cases hr
          exact ⟨hs, .inr ⟨u, rfl, .inr ⟨hl, none, hd.1.symm, .inl ⟨rfl, (fun x hx => nomatch hx), rfl⟩⟩⟩⟩
        | some x =>
          obtain ⟨content, url⟩ := x
          dsimp only at hr
          cases hm : mk content url with
          | none =>
            rw [hm] at hr
            cases hr
            exact ⟨hs, .inr ⟨u, rfl, .inr ⟨hl, some (content, url), hd.1.symm,
              .inl ⟨rfl, (fun x hx => by cases hx; exact hm), rfl⟩⟩⟩⟩
          | some f =>
            rw [hm] at hr
            cases hr
            exact ⟨hs, .inr ⟨u, rfl, .inr ⟨hl, some (content, url), hd.1.symm, .inr ⟨_, f, rfl, hm, rfl, rfl⟩⟩⟩⟩

theorem reached_sound {F : Type} {lib : UriLib} {w : World} {mk : Str → Str → Option F} {n : Nat} {ok : Str → Str → Prop}
    {c : Caches F} (h : Reached lib w mk n ok c) : SoundRaw w c.raw := by
  induction h with
  | new => exact soundRaw_new _ _
  | kml _ _ hr ih => exact (kml_direct _ _ _ _ _ _ _ ih _ _ hr).1
  | data _ hr ih => exact ((data_direct _ _ _ _ _ _ ih).2 _ hr).1

/-- **C93, data.** After any requests `FetchDataRelative` gives what it gives with new caches. -/
theorem C93_data {F : Type} (lib : UriLib) (w : World) (mk : Str → Str → Option F) (n : Nat) (c : Caches F)
    (h : Reached lib w mk n (fun _ _ => True) c) (fuel : Nat) (base target : Str) :
    (c.data lib w fuel base target).map Prod.fst = ((Caches.new n : Caches F).data lib w fuel base target).map Prod.fst := by
  rw [(data_direct lib w fuel c base target (reached_sound h)).1,
    (data_direct lib w fuel (Caches.new n : Caches F) base target (soundRaw_new w n)).1]

/-! ### KML files -/

/-- All URIs with this URL lead to this content, without looking elsewhere. -/
def Stands (lib : UriLib) (w : World) (url content : Str) : Prop :=
  ∀ base target u, createRelative lib base target = some u → u.url = url → direct lib w 1 u = some (some (content, url))

theorem same_place {lib : UriLib} {b t b' t' : Str} {u v : KmlUri} (hu : createRelative lib b t = some u)
    (hv : createRelative lib b' t' = some v) (h : v.url = u.url) : v = { u with target := t' } := by
  have hu' := hu
  have hv' := hv
  unfold createRelative at hu' hv'
  cases p1 : lib.parse t with
  | none => rw [p1] at hu'; cases hu'
  | some q1 =>
  cases r1 : lib.resolve b t with
  | none => rw [p1, r1] at hu'; cases hu'
  | some url =>
  cases p2 : lib.parse t' with
  | none => rw [p2] at hv'; cases hv'
  | some q2 =>
  cases r2 : lib.resolve b' t' with
  | none => rw [p2, r2] at hv'; cases hv'
  | some url' =>
  rw [p1, r1] at hu'
  rw [p2, r2] at hv'
  dsimp only at hu' hv'
  have e1 : u.url = url := by
    split at hu'
    · cases hu'
    · split at hu' <;> cases hu' <;> rfl
  have e2 : v.url = url' := by
    split at hv'
    · cases hv'
    · split at hv' <;> cases hv' <;> rfl
  rw [e1, e2] at h
  subst h
  cases hf : fetchableUri lib url' with
  | none => rw [hf] at hu'; cases hu'
  | some f =>
    rw [hf] at hu' hv'
    dsimp only at hu' hv'
    split at hu'
    · rename_i r hr
      cases hu'
      rw [hr] at hv'
      cases hv'
      rfl
    · rename_i hne
      cases hu'
      split at hv'
      · rename_i r hr
        exact absurd hr (hne r)
      · cases hv'
        rfl

theorem split_again {f kmz path name : Str} (h : kmzSplit f = .ok (some (kmz, path))) :
    kmzSplit (kmz ++ "/".toList ++ name) = .ok (some (kmz, name)) := by
  obtain ⟨h1, a, ha, hmin⟩ := C45_split _ _ _ h
  have hpre : ∃ t, f = kmz ++ t := by
    rcases h1 with ⟨e, _⟩ | ⟨c, e⟩
    · exact ⟨[], by simp [e]⟩
    · exact ⟨_, e⟩
  obtain ⟨t, rfl⟩ := hpre
  have key : ∀ j < a.length, ∀ t : Str, dotKmz <+: (kmz ++ t).drop j → dotKmz <+: kmz.drop j := by
    intro j hj t hp
    have hl : dotKmz.length ≤ (kmz.drop j).length := by
      rw [ha, List.length_drop, List.length_append]
      have : dotKmz.length = 4 := rfl
      have : ".kmz".toList.length = 4 := rfl
      omega
    rw [List.drop_append_of_le_length (by rw [ha, List.length_append]; omega)] at hp
    exact List.prefix_of_prefix_length_le hp (List.prefix_append _ _) hl
  have hno : ∀ j < a.length, ¬ dotKmz <+: (kmz ++ "/".toList ++ name).drop j := by
    intro j hj hp
    rw [List.append_assoc] at hp
    refine hmin j hj ?_
    rw [List.drop_append_of_le_length (by rw [ha, List.length_append]; omega)]
    exact (key j hj _ hp).trans (List.prefix_append _ _)
  rcases kmzSplit_spec (kmz ++ "/".toList ++ name) with ⟨hn, _⟩ | ⟨a', rest, e, hmin', hs⟩
  · exact absurd ⟨a, "/".toList ++ name, by rw [ha]; simp [dotKmz]⟩ hn
  · have hlen : a'.length = a.length := by
      apply Nat.le_antisymm
      · apply Nat.not_lt.1
        intro hlt
        refine hmin' _ hlt ?_
        rw [ha]
        simp only [List.append_assoc, List.drop_left']
        exact ⟨_, rfl⟩
      · apply Nat.not_lt.1
        intro hlt
        refine hno _ hlt ?_
        rw [e]
        simp only [List.append_assoc, List.drop_left']
        exact ⟨_, rfl⟩
    have e2 := e
    rw [ha] at e2
    simp only [List.append_assoc] at e2
    obtain ⟨e3, e4⟩ := List.append_inj e2 hlen.symm
    have e5 : rest = "/".toList ++ name := (List.append_cancel_left e4).symm
    rw [hs, ← e3, e5, ha]
    rfl

theorem first_kml_ne {z : List Entry} {name : Str} (h : findFirstOf z ".kml".toList = some name) : name ≠ [] := by
  obtain ⟨_, _, _, hs, _⟩ := (C72_find_first _ _ _ (by decide)).1 h
  rintro rfl
  exact absurd (List.eq_nil_of_suffix_nil hs) (by decide)

theorem missing_of {w : World} {u : KmlUri} {z : List Entry} (hz : (w.net u.kmzUrl).bind w.openKmz = some z)
    (hr : readIn w z u = none) : Missing w u := by
  obtain ⟨data, h1, h2⟩ := Option.bind_eq_some_iff.1 hz
  refine ⟨data, z, h1, h2, ?_⟩
  unfold readIn at hr
  by_cases hp : u.pathInKmz ≠ []
  · rw [if_pos hp] at hr
    exact .inr ⟨hp, Option.map_eq_none_iff.1 hr⟩
  · rw [if_neg hp] at hr
    exact .inl ⟨Classical.not_not.1 hp, Option.map_eq_none_iff.1 hr⟩

theorem stands_of_request {lib : UriLib} {w : World} (hnames : PlainNames lib w) {base target : Str} {u : KmlUri} {fuel : Nat}
    {x : Str × Str} (hu : createRelative lib base target = some u) (hb : NoArchiveBeside lib w base target)
    (hd : direct lib w fuel u = some (some x)) : Stands lib w x.2 x.1 := by
  have htarget : u.target = target := (createRelative_some hu).1
  cases fuel with
  | zero => cases hd
  | succ fuel =>
  unfold direct at hd
  by_cases hk : u.isKmz = false
  · rw [if_pos hk] at hd
    obtain ⟨c, hc, rfl⟩ := Option.map_eq_some_iff.1 (Option.some.inj hd)
    intro b t v hv he
    have := same_place hu hv he
    rw [this]
    unfold direct
    dsimp only
    rw [if_pos hk, hc]
    rfl
  rw [if_neg hk] at hd
  cases hz : (w.net u.kmzUrl).bind w.openKmz with
  | none => rw [hz] at hd; cases hd
  | some z =>
    rw [hz] at hd
    dsimp only at hd
    cases hr : readIn w z u with
    | some y =>
      rw [hr] at hd
      dsimp only at hd
      cases hd
      unfold readIn at hr
      by_cases hp : u.pathInKmz ≠ []
      · rw [if_pos hp] at hr
        obtain ⟨c, hc, rfl⟩ := Option.map_eq_some_iff.1 hr
        intro b t v hv he
        have := same_place hu hv he
        rw [this]
        unfold direct readIn
        dsimp only
        rw [if_neg hk, hz]
        dsimp only
        rw [if_pos hp, hc]
        rfl
      · rw [if_neg hp] at hr
        obtain ⟨c, hc, rfl⟩ := Option.map_eq_some_iff.1 hr
        intro b t v hv he
        unfold readKmlAndGetPath at hc
        cases hn : findFirstOf z ".kml".toList with
        | none => rw [hn] at hc; cases hc
        | some name =>
          rw [hn] at hc
          obtain ⟨c', hc', rfl⟩ := Option.map_eq_some_iff.1 hc
          obtain ⟨data, hdat, hopen⟩ := Option.bind_eq_some_iff.1 hz
          have hplain := hnames _ _ _ _ hdat hopen hn
          obtain ⟨_, url, f, _, hf, hks⟩ := createRelative_some hu
          have hsplit := split_again (name := name) (hks (by simpa using hk))
          have hurl : v.url = u.kmzUrl ++ "/".toList ++ name := he
          have hvv : v.isKmz = true ∧ v.kmzUrl = u.kmzUrl ∧ v.pathInKmz = name := by
            unfold createRelative at hv
            split at hv
            · rename_i url' _ _
              cases hf' : fetchableUri lib url' with
              | none => rw [hf'] at hv; cases hv
              | some f' =>
                rw [hf'] at hv
                dsimp only at hv
                have e2 : v.url = url' := by split at hv <;> cases hv <;> rfl
                rw [← e2, hurl, hplain] at hf'
                cases hf'
                rw [hsplit] at hv
                cases hv
                exact ⟨rfl, rfl, rfl⟩
            · cases hv
          unfold direct readIn
          rw [if_neg (by rw [hvv.1]; exact Bool.noConfusion), hvv.2.1, hz]
          dsimp only
          rw [if_pos (by rw [hvv.2.2]; exact first_kml_ne hn), hvv.2.2, hc']
          show some (some (c', v.url)) = _
          rw [hurl]
          rfl
    | none =>
      rw [hr] at hd
      dsimp only at hd
      cases hv' : createRelative lib u.kmzUrl u.target with
      | none => rw [hv'] at hd; cases hd
      | some v' =>
        rw [hv'] at hd
        dsimp only at hd
        obtain ⟨d, hd1, hd2⟩ := Option.map_eq_some_iff.1 hd
        obtain ⟨y, rfl, rfl⟩ := Option.map_eq_some_iff.1 hd2
        have hb' := hb u v' hu (by simpa using hk) (missing_of hz hr) (by rw [← htarget]; exact hv')
        cases fuel with
        | zero => cases hd1
        | succ fuel =>
        unfold direct at hd1
        by_cases hvk : v'.isKmz = false
        · rw [if_pos hvk] at hd1
          obtain ⟨c, hc, rfl⟩ := Option.map_eq_some_iff.1 (Option.some.inj hd1)
          intro b t v hv he
          have := same_place hv' hv he
          rw [this]
          unfold direct
          dsimp only
          rw [if_pos hvk, hc]
          rfl
        · rw [if_neg hvk] at hd1
          obtain ⟨hp, hm⟩ := hb' (by simpa using hvk)
          cases hz' : (w.net v'.kmzUrl).bind w.openKmz with
          | none => rw [hz'] at hd1; cases hd1
          | some z' =>
            rw [hz'] at hd1
            dsimp only at hd1
            cases hr' : readIn w z' v' with
            | none => exact absurd (missing_of hz' hr') hm
            | some y' =>
              rw [hr'] at hd1
              cases hd1
              unfold readIn at hr'
              rw [if_pos hp] at hr'
              obtain ⟨c, hc, rfl⟩ := Option.map_eq_some_iff.1 hr'
              intro b t v hv he
              have := same_place hv' hv he
              rw [this]
              unfold direct readIn
              dsimp only
              rw [if_neg hvk, hz']
              dsimp only
              rw [if_pos hp, hc]
              rfl

/-- All files of the cache are made from what stands under their URL. -/
def SoundFiles {F : Type} (lib : UriLib) (w : World) (mk : Str → Str → Option F) (files : Cache F) : Prop :=
  ∀ e ∈ files.map, ∀ f, e.2.1 = some f → ∃ content, mk content e.1 = some f ∧ Stands lib w e.1 content

theorem reached_files {F : Type} {lib : UriLib} {w : World} {mk : Str → Str → Option F} {n : Nat} (hnames : PlainNames lib w)
    {c : Caches F} (h : Reached lib w mk n (NoArchiveBeside lib w) c) : SoundFiles lib w mk c.files := by
  induction h with
  | new => intro e he; cases he
  | data h hr ih =>
    have := ((data_direct _ _ _ _ _ _ (reached_sound h)).2 _ hr).2
    dsimp only at this
    rw [this]
    exact ih
  | kml h hok hr ih =>
    obtain ⟨_, h1⟩ := kml_direct _ _ _ _ _ _ _ (reached_sound h) _ _ hr
    rcases h1 with ⟨_, _, h1⟩ | ⟨u, hu, h1⟩
    · rw [h1]; exact ih
    rcases h1 with ⟨f, _, _, h1⟩ | ⟨_, d, hd, h1⟩
    · rw [h1]; exact ih
    rcases h1 with ⟨_, _, h1⟩ | ⟨x, f, rfl, hm, _, h1⟩
    · rw [h1]; exact ih
    rw [h1]
    intro e he g hg
    rcases mem_save he with ⟨e1, e2⟩ | he
    · rw [e2] at hg
      cases hg
      rw [e1]
      exact ⟨x.1, hm, stands_of_request hnames hu hok hd⟩
    · exact ih e he g hg

/-- **C93, KML files.** After any requests `FetchKmlRelative` gives what it gives with new caches, if no target is found as an
archive beside an archive.

Missing from the full property: such targets (`C93_beside_violated`), and KML files in archives with names that are no plain parts
of addresses (`C93_name_violated`). -/
theorem C93_kml_partial {F : Type} (lib : UriLib) (w : World) (mk : Str → Str → Option F) (n : Nat) (hnames : PlainNames lib w)
    (c : Caches F) (h : Reached lib w mk n (NoArchiveBeside lib w) c) (base target : Str)
    (fuel fuel' : Nat) (r r' : Option F) (c1 c2 : Caches F) (hr : c.kml lib w mk fuel base target = some (r, c1))
    (hr' : (Caches.new n : Caches F).kml lib w mk fuel' base target = some (r', c2)) : r = r' := by
  obtain ⟨_, h1⟩ := kml_direct _ _ _ _ _ _ _ (reached_sound h) _ _ hr
  obtain ⟨_, h2⟩ := kml_direct _ _ _ _ _ _ _ (by exact soundRaw_new w n) _ _ hr'
  rcases h2 with ⟨hn, rfl, _⟩ | ⟨u, hu, h2⟩
  · rcases h1 with ⟨_, rfl, _⟩ | ⟨u, hu, _⟩
    · rfl
    · rw [hn] at hu; cases hu
  rcases h1 with ⟨hn, _⟩ | ⟨u', hu', h1⟩
  · rw [hn] at hu; cases hu
  rw [hu] at hu'
  cases hu'
  rcases h2 with ⟨f, hl, _⟩ | ⟨_, d, hd, h2⟩
  · cases hl
  rcases h1 with ⟨f, hl, rfl, _⟩ | ⟨_, d', hd', h1⟩
  · unfold lookUp at hl
    split at hl
    · cases hl
    · rename_i e he
      obtain ⟨content, hm, hs⟩ := reached_files hnames h _ (StdMap.mem_of_get he) f hl
      have := direct_same _ _ _ _ _ _ _ hd (hs _ _ _ hu rfl)
      subst this
      rcases h2 with ⟨_, h2, _⟩ | ⟨x, g, hx, hm', rfl, _⟩
      · rw [h2 _ rfl] at hm; cases hm
      · cases hx
        rw [hm] at hm'
        exact hm'
  · have := direct_same _ _ _ _ _ _ _ hd hd'
    subst this
    rcases h2 with ⟨rfl, h2, _⟩ | ⟨x, g, rfl, hm', rfl, _⟩
    · rcases h1 with ⟨rfl, _⟩ | ⟨y, g', rfl, hm, _⟩
      · rfl
      · rw [h2 _ rfl] at hm; cases hm
    · rcases h1 with ⟨_, h1, _⟩ | ⟨y, g', hy, hm, rfl, _⟩
      · rw [h1 _ rfl] at hm'; cases hm'
      · cases hy
        rw [hm] at hm'
        exact hm'

/-- Three addresses: a KML file, an archive with a link to the other one, and an archive with an image. -/
def linkWorld : World where
  net := fun u => if u = "http://h/a.kmz".toList then some ['a'] else if u = "http://h/b.kmz".toList then some ['b'] else
    if u = "http://h/i.kml".toList then some ['i'] else none
  openKmz := fun d => if d = ['a'] then some [("doc.kml".toList, ['1'])] else
    if d = ['b'] then some [("doc.kml".toList, ['2']), ("x.png".toList, ['3'])] else none
  max := 100

/-- A file as its content and its URL. -/
def mkPair (content url : Str) : Option (Str × Str) := some (content, url)

example : PlainNames mergeLib linkWorld := by
  intro url data z name _ _ _
  rfl

/-- Requests that meet the conditions: an archive, and then a file that is not in it but beside it. -/
example : NoArchiveBeside mergeLib linkWorld "http://h/i.kml".toList "b.kmz".toList ∧
    NoArchiveBeside mergeLib linkWorld "http://h/b.kmz/doc.kml".toList "i.kml".toList := by
  have e1 : createRelative mergeLib "http://h/i.kml".toList "b.kmz".toList =
      some ⟨true, "b.kmz".toList, "http://h/b.kmz".toList, "http://h/b.kmz".toList, []⟩ := by decide +kernel
  have e2 : createRelative mergeLib "http://h/b.kmz/doc.kml".toList "i.kml".toList =
      some ⟨true, "i.kml".toList, "http://h/b.kmz/i.kml".toList, "http://h/b.kmz".toList, "i.kml".toList⟩ := by decide +kernel
  have e3 : createRelative mergeLib "http://h/b.kmz".toList "i.kml".toList =
      some ⟨false, "i.kml".toList, "http://h/i.kml".toList, [], []⟩ := by decide +kernel
  constructor
  · intro u v hu hk hm
    rw [e1] at hu
    cases hu
    obtain ⟨d, z, h1, h2, h3⟩ := hm
    cases h1
    cases h2
    rcases h3 with ⟨_, h3⟩ | ⟨h3, _⟩
    · exact absurd h3 (by decide +kernel)
    · exact absurd rfl h3
  · intro u v hu hk hm hv
    rw [e2] at hu
    cases hu
    rw [e3] at hv
    cases hv
    exact fun h => nomatch h

theorem C93_again_direct {F : Type} {lib : UriLib} {w : World} {mk : Str → Str → Option F} {fuel : Nat} {c c' : Caches F}
    {base target : Str} {f : F} {u : KmlUri} (h : SoundRaw w c.raw) (hr : c.kml lib w mk fuel base target = some (some f, c'))
    (hu : createRelative lib base target = some u) {x : Str × Str} (hd : direct lib w 1 u = some (some x)) (hx : x.2 = u.url) :
    lookUp c'.files u.url = some f := by
  obtain ⟨_, h1⟩ := kml_direct _ _ _ _ _ _ _ h _ _ hr
  rcases h1 with ⟨hn, _⟩ | ⟨u', hu', h1⟩
  · rw [hn] at hu; cases hu
  rw [hu] at hu'
  cases hu'
  rcases h1 with ⟨g, hl, hg, h1⟩ | ⟨hl, d, hd', h1⟩
  · cases hg
    rw [h1]
    exact hl
  have := direct_same _ _ _ _ _ _ _ hd hd'
  subst this
  rcases h1 with ⟨hn, _⟩ | ⟨y, g, hy, _, hg, h1⟩
  · cases hn
  cases hy
  cases hg
  rw [h1, hx]
  exact (C14_save_lookup c.files u.url (some f) hl).2

/-- **C93, again.** After a KML file was fetched that is not in an archive, or that is in the archive in which the link names it,
every link with the same URL gives the same file, with the caches as they are and no matter what the network has now.

The full property is about all links (`C93_again_violated`). -/
theorem C93_again_partial {F : Type} (lib : UriLib) (w w' : World) (mk mk' : Str → Str → Option F) (n fuel fuel' : Nat)
    (ok : Str → Str → Prop) (c c' : Caches F) (h : Reached lib w mk n ok c) (base target base' target' : Str) (f : F) (u u' : KmlUri)
    (hu : createRelative lib base target = some u) (hu' : createRelative lib base' target' = some u') (hsame : u'.url = u.url)
    (hp : u.isKmz = true → u.pathInKmz ≠ [] ∧ ¬ Missing w u)
    (hr : c.kml lib w mk fuel base target = some (some f, c')) :
    c'.kml lib w' mk' fuel' base' target' = some (some f, c') := by
  have hl : lookUp c'.files u.url = some f := by
    have hs := reached_sound h
    by_cases hk : u.isKmz = false
    · cases hn : w.net u.url with
      | some content => exact C93_again_direct hs hr hu (x := (content, u.url)) (by unfold direct; rw [if_pos hk, hn]; rfl) rfl
      | none =>
        obtain ⟨_, h1⟩ := kml_direct _ _ _ _ _ _ _ hs _ _ hr
        rcases h1 with ⟨hn, _⟩ | ⟨u', hu', h1⟩
        · rw [hn] at hu; cases hu
        rw [hu] at hu'
        cases hu'
        rcases h1 with ⟨g, hl, hg, h1⟩ | ⟨hl, d, hd', h1⟩
        · cases hg
          rw [h1]
          exact hl
        · have : direct lib w 1 u = some none := by unfold direct; rw [if_pos hk, hn]; rfl
          have := direct_same _ _ _ _ _ _ _ this hd'
          subst this
          rcases h1 with ⟨hn, _⟩ | ⟨y, g, hy, _⟩
          · cases hn
          · cases hy
    · obtain ⟨hp, hm⟩ := hp (by simpa using hk)
      cases hz : (w.net u.kmzUrl).bind w.openKmz with
      | none =>
        obtain ⟨_, h1⟩ := kml_direct _ _ _ _ _ _ _ hs _ _ hr
        rcases h1 with ⟨hn, _⟩ | ⟨u', hu', h1⟩
        · rw [hn] at hu; cases hu
        rw [hu] at hu'
        cases hu'
        rcases h1 with ⟨g, hl, hg, h1⟩ | ⟨hl, d, hd', h1⟩
        · cases hg
          rw [h1]
          exact hl
        · have : direct lib w 1 u = some none := by unfold direct; rw [if_neg hk, hz]
          have := direct_same _ _ _ _ _ _ _ this hd'
          subst this
          rcases h1 with ⟨hn, _⟩ | ⟨y, g, hy, _⟩
          · cases hn
          · cases hy
      | some z =>
        cases hread : readIn w z u with
        | none => exact absurd (missing_of hz hread) hm
        | some y =>
          have hy : y.2 = u := by
            unfold readIn at hread
            rw [if_pos hp] at hread
            obtain ⟨c, _, rfl⟩ := Option.map_eq_some_iff.1 hread
            rfl
          exact C93_again_direct hs hr hu (x := (y.1, y.2.url)) (by unfold direct; rw [if_neg hk, hz]; dsimp only; rw [hread])
            (by rw [hy])
  unfold Caches.kml fetchKmlRelative
  rw [hu']
  dsimp only
  rw [hsame, hl]
  rfl

/-- The conditions hold for a file named in an archive. -/
example : createRelative mergeLib "http://h/i.kml".toList "b.kmz/doc.kml".toList =
      some ⟨true, "b.kmz/doc.kml".toList, "http://h/b.kmz/doc.kml".toList, "http://h/b.kmz".toList, "doc.kml".toList⟩ ∧
    ((Caches.new 5).kml mergeLib linkWorld mkPair 3 "http://h/i.kml".toList "b.kmz/doc.kml".toList).map Prod.fst =
      some (some (['2'], "http://h/b.kmz/doc.kml".toList)) := by
  constructor <;> decide +kernel

/-- **C93 fails: again.** A KML file that was fetched by the URL of its archive alone is parsed again every time: here the second
request gives what the parser makes then. -/
theorem C93_again_violated :
    ((Caches.new 5).kml mergeLib linkWorld mkPair 3 "http://h/i.kml".toList "b.kmz".toList).map Prod.fst =
      some (some (['2'], "http://h/b.kmz/doc.kml".toList)) ∧
    (((Caches.new 5).kml mergeLib linkWorld mkPair 3 "http://h/i.kml".toList "b.kmz".toList).bind fun r =>
      r.2.kml mergeLib linkWorld (fun _ _ => some (['9'], [])) 3 "http://h/i.kml".toList "b.kmz".toList).map Prod.fst =
      some (some (['9'], [])) := by
  constructor <;> decide +kernel

/-- **C93 fails: archives beside archives.** Of an archive that is found beside another one the URL lacks the name of the file
in it. -/
theorem C93_beside_violated :
    ((Caches.new 5).kml mergeLib linkWorld mkPair 3 "http://h/i.kml".toList "b.kmz".toList).map Prod.fst =
      some (some (['2'], "http://h/b.kmz/doc.kml".toList)) ∧
    (((Caches.new 5).kml mergeLib linkWorld mkPair 3 "http://h/a.kmz/doc.kml".toList "b.kmz".toList).bind fun r =>
      r.2.kml mergeLib linkWorld mkPair 3 "http://h/i.kml".toList "b.kmz".toList).map Prod.fst =
      some (some (['2'], "http://h/b.kmz".toList)) := by
  constructor <;> decide +kernel

/-- Therefore the image in it is not found. -/
theorem C93_image_violated :
    ((Caches.new 5 : Caches Unit).data mergeLib linkWorld 3 "http://h/b.kmz/doc.kml".toList "x.png".toList).map Prod.fst =
      some (some ['3']) ∧
    ((Caches.new 5 : Caches Unit).data mergeLib linkWorld 3 "http://h/b.kmz".toList "x.png".toList).map Prod.fst =
      some none := by
  constructor <;> decide +kernel

/-- A library that takes fragments off. -/
def fragmentLib : UriLib where
  parse u := some ⟨[], [], [], u.takeWhile (· ≠ '#')⟩
  resolve _ t := some t

/-- An archive with the files `x` and `x#y.kml`. -/
def fragmentWorld : World where
  net := fun u => if u = "a.kmz".toList then some ['a'] else none
  openKmz := fun _ => some [("x#y.kml".toList, ['1']), ("x".toList, ['2'])]
  max := 100

/-- **C93 fails: names.** After the KML file `x#y.kml` of an archive was fetched it is also taken for the file `x` of the archive, if
the link to that one has the fragment `y.kml`. -/
theorem C93_name_violated :
    ((Caches.new 5).kml fragmentLib fragmentWorld mkPair 3 [] "a.kmz/x#y.kml".toList).map Prod.fst =
      some (some (['2'], "a.kmz/x#y.kml".toList)) ∧
    (((Caches.new 5).kml fragmentLib fragmentWorld mkPair 3 [] "a.kmz".toList).bind fun r =>
      r.2.kml fragmentLib fragmentWorld mkPair 3 [] "a.kmz/x#y.kml".toList).map Prod.fst =
      some (some (['1'], "a.kmz/x#y.kml".toList)) := by
  constructor <;> decide +kernel

/-! ### Links and icons -/

/-- **C93, links.** `FetchLink` fetches the KML file at the `href` of the `Link`, relative to the URL of the file; without a cache, a
`Link` or an `href` it gives NULL and fetches nothing. -/
theorem C93_link {F : Type} (lib : UriLib) (w : World) (mk : Str → Str → Option F) (fuel : Nat) (c : Caches F) (file : FileRef)
    (networkLink : Elem) :
    (∀ link t href, file.hasCache = true → networkLink.items M.«link» = [link] → link.items M.«href» = [.field t href] →
      fetchLink lib w mk fuel c file networkLink = c.kml lib w mk fuel file.url href) ∧
    (file.hasCache = false ∨ networkLink.items M.«link» = [] ∨
      (∃ link, networkLink.items M.«link» = [link] ∧ link.items M.«href» = []) →
      fetchLink lib w mk fuel c file networkLink = some (none, c)) := by
  have only_eq : ∀ l, networkLink.items M.«link» = l → networkLink.only M.«link» = l.head? := by
    rintro _ rfl
    cases networkLink <;> rfl
  unfold fetchLink getLinkParentHref getHref
  constructor
  · intro link t href hc hl hh
    rw [hc, if_pos rfl, only_eq _ hl, List.head?_cons, Option.bind_some, hh]
    rfl
  · rintro (h | h | ⟨link, h, hh⟩)
    · rw [h]; rfl
    · rw [only_eq _ h]
      cases file.hasCache <;> rfl
    · rw [only_eq _ h, List.head?_cons, Option.bind_some, hh]
      cases file.hasCache <;> rfl

/-- **C93, icons.** The same for `FetchIcon`: after any requests it gives what is at the `href` of the `Icon`. -/
theorem C93_icon {F : Type} (lib : UriLib) (w : World) (mk : Str → Str → Option F) (n fuel : Nat) (c : Caches F)
    (h : Reached lib w mk n (fun _ _ => True) c) (file : FileRef) (overlay : Elem) :
    (∀ icon t href, file.hasCache = true → overlay.items M.«icon» = [icon] → icon.items M.«href» = [.field t href] →
      (fetchIcon lib w fuel c file overlay).map Prod.fst =
        ((Caches.new n : Caches F).data lib w fuel file.url href).map Prod.fst) ∧
    (file.hasCache = false ∨ overlay.items M.«icon» = [] ∨ (∃ icon, overlay.items M.«icon» = [icon] ∧ icon.items M.«href» = []) →
      fetchIcon lib w fuel c file overlay = some (none, c)) := by
  have only_eq : ∀ l, overlay.items M.«icon» = l → overlay.only M.«icon» = l.head? := by
    rintro _ rfl
    cases overlay <;> rfl
  unfold fetchIcon getIconParentHref getHref
  constructor
  · intro icon t href hc hl hh
    rw [hc, if_pos rfl, only_eq _ hl, List.head?_cons, Option.bind_some, hh]
    exact C93_data lib w mk n c h fuel file.url href
  · rintro (h | h | ⟨icon, h, hh⟩)
    · rw [h]; rfl
    · rw [only_eq _ h]
      cases file.hasCache <;> rfl
    · rw [only_eq _ h, List.head?_cons, Option.bind_some, hh]
      cases file.hasCache <;> rfl

/-- An overlay with an icon. -/
def overlayOf (href : Str) : Elem :=
  .node Ty.«GroundOverlay» .empty (setSlot (fun _ => []) M.«icon» [.node Ty.«Icon» .empty
    (setSlot (fun _ => []) M.«href» [.field Ty.«href» href]) [] []]) [] []

example : (fetchIcon mergeLib linkWorld 3 (Caches.new 5 : Caches Unit) ⟨"http://h/b.kmz/doc.kml".toList, true⟩
    (overlayOf "x.png".toList)).map Prod.fst = some (some ['3']) := by decide +kernel

end Kml.Dom
