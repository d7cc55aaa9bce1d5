import Verif.Model.CacheLife
/-! C120: files and the caches they came from. -/
namespace Kml.CacheLife
open Kml

theorem bind_iff {α β : Type} {x : Outcome α} {f : α → Outcome β} {b : β} :
    (x >>= f) = .ok b ↔ ∃ a, x = .ok a ∧ f a = .ok b := by
  cases x with
  | ok a => exact ⟨fun h => ⟨a, rfl, h⟩, fun ⟨_, h, k⟩ => by injection h with h; subst h; exact k⟩
  | throws => exact ⟨(fun h => nomatch h), (fun ⟨_, h, _⟩ => nomatch h)⟩
  | ub => exact ⟨(fun h => nomatch h), (fun ⟨_, h, _⟩ => nomatch h)⟩

/-- What is so in every state. -/
structure Inv (s : State) : Prop where
  file : ∀ f x, s.files f = some x → f < s.next
  cache : ∀ c k, s.caches c = some k → c < s.next
  var : ∀ v f, s.vars v = some f → (s.files f).isSome
  entry : ∀ c k, s.caches c = some k → ∀ e ∈ k.entries, s.files e.2 = some ⟨e.1, some c⟩
  size : ∀ c k, s.caches c = some k → 0 < k.max → k.entries.length ≤ k.max

theorem inv_init : Inv .init :=
  ⟨(fun _ _ h => nomatch h), (fun _ _ h => nomatch h), (fun _ _ h => nomatch h), (fun _ _ h => nomatch h),
    (fun _ _ h => nomatch h)⟩

theorem Inv.put {s : State} (hi : Inv s) (v : Nat) (o : Option Nat) (h : ∀ f, o = some f → (s.files f).isSome) :
    Inv (s.put v o) := by
  refine ⟨hi.file, hi.cache, fun x f hf => ?_, hi.entry, hi.size⟩
  simp only [State.put] at hf
  split at hf
  · exact h f hf
  · exact hi.var x f hf

/-- Files stay as they are. -/
def Same (s s' : State) : Prop := s.next ≤ s'.next ∧ ∀ f x, s.files f = some x → s'.files f = some x

/-- `u` is the URL of what is found at the target: the resolved URL itself, or where fetching that led to. -/
def Found (w : World) (base target u : Str) : Prop := ∃ url, w.resolve base target = some url ∧ (u = url ∨ w.fetch url = some u)

theorem fetch_inv (w : World) (s s' : State) (c : Nat) (base target : Str) (o : Option Nat) (hi : Inv s)
    (h : fetchRelative w s c base target = .ok (o, s')) :
    Inv s' ∧ Same s s' ∧ s'.vars = s.vars ∧ (∀ f, o = some f → ∃ u, s'.files f = some ⟨u, some c⟩ ∧ Found w base target u) ∧
    ∀ d, d ≠ c → s'.caches d = s.caches d := by
  unfold fetchRelative at h
  split at h
  · exact nomatch h
  next k hk =>
  split at h
  · injection h with h; injection h with h1 h2; subst h1; subst h2
    exact ⟨hi, ⟨Nat.le_refl _, fun _ _ h => h⟩, rfl, (fun _ h => nomatch h), fun _ _ => rfl⟩
  next url hurl =>
  split at h
  · next f hf =>
    injection h with h; injection h with h1 h2; subst h1; subst h2
    refine ⟨hi, ⟨Nat.le_refl _, fun _ _ h => h⟩, rfl, fun g hg => ?_, fun _ _ => rfl⟩
    injection hg with hg; subst hg
    unfold Cache.lookUp at hf
    obtain ⟨e, he, rfl⟩ := Option.map_eq_some_iff.1 hf
    exact ⟨e.1, hi.entry c k hk e (List.mem_of_find?_eq_some he), url, hurl,
      .inl (of_decide_eq_true (List.find?_some (p := fun e : Str × Nat => decide (e.1 = url)) he))⟩
  split at h
  · injection h with h; injection h with h1 h2; subst h1; subst h2
    exact ⟨hi, ⟨Nat.le_refl _, fun _ _ h => h⟩, rfl, (fun _ h => nomatch h), fun _ _ => rfl⟩
  next url' hurl' =>
  injection h with h; injection h with h1 h2; subst h1; subst h2
  have keep : ∀ f x, s.files f = some x → (if f = s.next then some (⟨url', some c⟩ : File) else s.files f) = some x := by
    intro f x h
    have := hi.file f x h
    rw [if_neg (by omega)]
    exact h
  refine ⟨⟨fun f x h => ?_, fun d k' h => ?_, fun v f h => ?_, fun d k' h e he => ?_, fun d k' h h0 => ?_⟩,
    ⟨Nat.le_succ _, keep⟩, rfl, fun f hf => ⟨url', ?_, url, hurl, .inr hurl'⟩, fun d hd => if_neg hd⟩
  · dsimp only at h ⊢
    split at h
    · omega
    · exact Nat.lt_succ_of_lt (hi.file f x h)
  · dsimp only at h ⊢
    split at h
    · next e => rw [e]; exact Nat.lt_succ_of_lt (hi.cache c k hk)
    · exact Nat.lt_succ_of_lt (hi.cache d k' h)
  · obtain ⟨x, hx⟩ := Option.isSome_iff_exists.1 (hi.var v f h)
    exact Option.isSome_iff_exists.2 ⟨x, keep f x hx⟩
  · dsimp only at h ⊢
    split at h
    · next hd =>
      injection h with h
      subst h
      rw [hd]
      unfold Cache.save at he
      split at he
      · exact keep _ _ (hi.entry c k hk e he)
      · rcases List.mem_append.1 he with he | he
        · refine keep _ _ (hi.entry c k hk e ?_)
          split at he
          · exact List.mem_of_mem_drop he
          · exact he
        · rw [List.mem_singleton.1 he]
          exact if_pos rfl
    · exact keep _ _ (hi.entry d k' h e he)
  · dsimp only at h
    split at h
    · injection h with h
      subst h
      unfold Cache.save at h0 ⊢
      split at h0
      · exact hi.size c k hk h0
      · dsimp only at h0 ⊢
        have := hi.size c k hk h0
        rw [List.length_append, List.length_singleton]
        split
        · rw [List.length_drop]; omega
        · omega
    · exact hi.size d k' h h0
  · injection hf with hf
    rw [← hf]
    exact if_pos rfl

theorem step_inv (w : World) (s s' : State) (op : Op) (hi : Inv s) (h : step w s op = .ok s') : Inv s' ∧ Same s s' := by
  cases op with
  | openCache m =>
    injection h with h; subst h
    refine ⟨⟨fun f x h => Nat.lt_succ_of_lt (hi.file f x h), fun c k h => ?_, hi.var, fun c k h e he => ?_, fun c k h => ?_⟩,
      Nat.le_succ _, fun _ _ h => h⟩
    · dsimp only at h ⊢
      split at h
      · omega
      · exact Nat.lt_succ_of_lt (hi.cache c k h)
    · dsimp only at h
      split at h
      · injection h with h; subst h; exact nomatch he
      · exact hi.entry c k h e he
    · dsimp only at h
      split at h
      · injection h with h; subst h; exact fun _ => Nat.zero_le _
      · exact hi.size c k h
  | closeCache c =>
    injection h with h; subst h
    have old : ∀ d k, (if d = c then none else s.caches d) = some k → s.caches d = some k := by
      intro d k h
      split at h
      · exact nomatch h
      · exact h
    exact ⟨⟨hi.file, fun d k h => hi.cache d k (old d k h), hi.var, fun d k h => hi.entry d k (old d k h),
      fun d k h => hi.size d k (old d k h)⟩, Nat.le_refl _, fun _ _ h => h⟩
  | parse v =>
    injection h with h; subst h
    have keep : ∀ f x, s.files f = some x → (if f = s.next then some (⟨[], none⟩ : File) else s.files f) = some x := by
      intro f x h
      have := hi.file f x h
      rw [if_neg (by omega)]
      exact h
    refine ⟨Inv.put (s := { s with
        files := fun f => if f = s.next then some ⟨[], none⟩ else s.files f, next := s.next + 1 })
      ⟨fun f x h => ?_, fun c k h => Nat.lt_succ_of_lt (hi.cache c k h), fun v f h => ?_,
      fun c k h e he => keep _ _ (hi.entry c k h e he), hi.size⟩ _ _ fun f hf => ?_, Nat.le_succ _, keep⟩
    · dsimp only at h ⊢
      split at h
      · omega
      · exact Nat.lt_succ_of_lt (hi.file f x h)
    · obtain ⟨x, hx⟩ := Option.isSome_iff_exists.1 (hi.var v f h)
      exact Option.isSome_iff_exists.2 ⟨x, keep f x hx⟩
    · injection hf with hf
      dsimp only
      rw [if_pos hf.symm]
      rfl
  | fetch c url v =>
    obtain ⟨⟨o, s1⟩, h1, h⟩ := bind_iff.1 h
    injection h with h; subst h
    obtain ⟨i1, k1, _, f1, _⟩ := fetch_inv w s s1 c url url o hi h1
    refine ⟨i1.put _ _ fun f hf => ?_, k1⟩
    obtain ⟨u, hu, _⟩ := f1 f hf
    rw [hu]; rfl
  | link x href v =>
    simp only [step] at h
    split at h
    · exact nomatch h
    split at h
    · injection h with h; subst h
      exact ⟨hi.put _ _ (fun _ h => nomatch h), Nat.le_refl _, fun _ _ h => h⟩
    · obtain ⟨⟨o, s1⟩, h1, h⟩ := bind_iff.1 h
      injection h with h; subst h
      obtain ⟨i1, k1, _, f1, _⟩ := fetch_inv w s s1 _ _ href o hi h1
      refine ⟨i1.put _ _ fun f hf => ?_, k1⟩
      obtain ⟨u, hu, _⟩ := f1 f hf
      rw [hu]; rfl
  | forget v =>
    injection h with h; subst h
    exact ⟨hi.put _ _ (fun _ h => nomatch h), Nat.le_refl _, fun _ _ h => h⟩

theorem run_inv (w : World) : ∀ (ops : List Op) (s s' : State), Inv s → run w s ops = .ok s' → Inv s' ∧ Same s s'
  | [], s, s', hi, h => by
    injection h with h; subst h
    exact ⟨hi, Nat.le_refl _, fun _ _ h => h⟩
  | op :: ops, s, s', hi, h => by
    obtain ⟨s1, h1, h⟩ := bind_iff.1 h
    obtain ⟨i1, n1, k1⟩ := step_inv w s s1 op hi h1
    obtain ⟨i2, n2, k2⟩ := run_inv w ops s1 s' i1 h
    exact ⟨i2, Nat.le_trans n1 n2, fun f x hf => k2 f x (k1 f x hf)⟩

/-- A file that came from a cache is the one asked for and has a pointer to that cache, whatever was done before, and keeps its URL and that pointer
whatever is done afterwards. -/
theorem C120_marked (w : World) (before after : List Op) (s s1 s2 : State) (h0 : run w .init before = .ok s) (c : Nat)
    (url : Str) (v f : Nat) (h1 : step w s (.fetch c url v) = .ok s1) (hv : s1.vars v = some f)
    (h2 : run w s1 after = .ok s2) :
    ∃ u, s1.files f = some ⟨u, some c⟩ ∧ s2.files f = some ⟨u, some c⟩ ∧ Found w url url u := by
  have i0 := (run_inv w before _ s inv_init h0).1
  have i1 := (step_inv w s s1 _ i0 h1).1
  have k2 := (run_inv w after s1 s2 i1 h2).2.2
  obtain ⟨⟨o, t⟩, g1, h1⟩ := bind_iff.1 h1
  injection h1 with h1; subst h1
  obtain ⟨_, _, _, f1, _⟩ := fetch_inv w s t c url url o i0 g1
  simp only [State.put, if_true] at hv
  obtain ⟨u, hu, hw⟩ := f1 f hv
  exact ⟨u, hu, k2 f _ hu, hw⟩

/-- Following a link of a file the client has is defined exactly if the file came from no cache or its cache is still there;
what is found is what the link refers to and came from the same cache, and other caches are left alone. -/
theorem C120_link_partial (w : World) (ops : List Op) (s : State) (h : run w .init ops = .ok s) (x f : Nat)
    (hx : s.vars x = some f) (href : Str) (v : Nat) :
    ∃ file, s.files f = some file ∧
      ((step w s (.link x href v)).Safe ↔ ∀ c, file.cache = some c → (s.caches c).isSome) ∧
      ∀ s', step w s (.link x href v) = .ok s' →
        (∀ g, s'.vars v = some g → ∃ u, s'.files g = some ⟨u, file.cache⟩ ∧ file.cache.isSome ∧ Found w file.url href u) ∧
        ∀ d, file.cache ≠ some d → s'.caches d = s.caches d := by
  have hi := (run_inv w ops _ s inv_init h).1
  obtain ⟨file, hf⟩ := Option.isSome_iff_exists.1 (hi.var x f hx)
  have hb : (s.vars x).bind s.files = some file := by rw [hx]; exact hf
  refine ⟨file, hf, ?_, fun s' hs => ?_⟩
  · simp only [step]
    rw [hb]
    dsimp only
    cases hc : file.cache with
    | none => exact ⟨(fun _ _ h => nomatch h), fun _ => ⟨_, rfl⟩⟩
    | some c =>
      dsimp only
      constructor
      · rintro ⟨s', hs⟩ d hd
        injection hd with hd; subst hd
        obtain ⟨r, hr, _⟩ := bind_iff.1 hs
        unfold fetchRelative at hr
        split at hr
        · exact nomatch hr
        · next hk => rw [hk]; rfl
      · intro hall
        obtain ⟨k, hk⟩ := Option.isSome_iff_exists.1 (hall c rfl)
        have : (fetchRelative w s c file.url href).Safe := by
          unfold fetchRelative
          rw [hk]
          dsimp only
          split
          · exact ⟨_, rfl⟩
          · split
            · exact ⟨_, rfl⟩
            · split <;> exact ⟨_, rfl⟩
        obtain ⟨r, hr⟩ := this
        rw [hr]
        exact ⟨_, rfl⟩
  · simp only [step] at hs
    rw [hb] at hs
    dsimp only at hs
    split at hs
    · next hc =>
      injection hs with hs; subst hs
      refine ⟨fun g hg => ?_, fun _ _ => rfl⟩
      simp only [State.put, if_true] at hg
      exact nomatch hg
    · next c hc =>
      obtain ⟨⟨o, t⟩, g1, hs⟩ := bind_iff.1 hs
      injection hs with hs; subst hs
      obtain ⟨_, _, _, f1, d1⟩ := fetch_inv w s t c file.url href o hi g1
      refine ⟨fun g hg => ?_, fun d hd => d1 d fun e => hd (by rw [hc, e])⟩
      simp only [State.put, if_true] at hg
      obtain ⟨u, hu, hw⟩ := f1 g hg
      exact ⟨u, by rw [hc]; exact hu, by rw [hc]; rfl, hw⟩

/-- A file the client has stays there with its URL when its cache goes: only the links cannot be followed.  The
other caches stay as they are. -/
theorem C120_outlives (w : World) (ops : List Op) (s : State) (h : run w .init ops = .ok s) (x f c : Nat)
    (hx : s.vars x = some f) : ∃ s', step w s (.closeCache c) = .ok s' ∧ s'.vars x = some f ∧ s'.files f = s.files f ∧
      (s.files f).isSome ∧ s'.caches c = none ∧ ∀ d, d ≠ c → s'.caches d = s.caches d :=
  ⟨_, rfl, hx, rfl, (run_inv w ops _ s inv_init h).1.var x f hx, if_pos rfl, fun _ hd => if_neg hd⟩

/-- A client that closes no cache and asks only caches it has and files it has never uses freed memory. -/
theorem C120_kept_partial (w : World) (ops : List Op) (s : State) (h : run w .init ops = .ok s)
    (hn : ∀ op ∈ ops, ∀ c, op ≠ .closeCache c) (x f : Nat) (hx : s.vars x = some f) (href : Str) (v : Nat) :
    (step w s (.link x href v)).Safe := by
  have key : ∀ (ops : List Op) (s s' : State), Inv s →
      (∀ f file c, s.files f = some file → file.cache = some c → (s.caches c).isSome) → run w s ops = .ok s' →
      (∀ op ∈ ops, ∀ c, op ≠ .closeCache c) →
      ∀ f file c, s'.files f = some file → file.cache = some c → (s'.caches c).isSome := by
    intro ops
    induction ops with
    | nil => intro s s' _ hs h _; injection h with h; subst h; exact hs
    | cons op ops ih =>
      intro s s' hi hs h hn
      obtain ⟨s1, h1, h⟩ := bind_iff.1 h
      refine ih s1 s' (step_inv w s s1 op hi h1).1 ?_ h fun p hp => hn p (List.mem_cons_of_mem _ hp)
      have viaFetch : ∀ c base target o t v, fetchRelative w s c base target = .ok (o, t) →
          ∀ f file d, (t.put v o).files f = some file → file.cache = some d → ((t.put v o).caches d).isSome := by
        intro c base target o t v hf f file d hfile hd
        unfold fetchRelative at hf
        split at hf
        · exact nomatch hf
        split at hf
        · injection hf with hf; injection hf with _ hf; subst hf; exact hs f file d hfile hd
        split at hf
        · injection hf with hf; injection hf with _ hf; subst hf; exact hs f file d hfile hd
        split at hf
        · injection hf with hf; injection hf with _ hf; subst hf; exact hs f file d hfile hd
        · injection hf with hf; injection hf with _ hf; subst hf
          simp only [State.put] at hfile ⊢
          by_cases e : d = c
          · rw [if_pos e]; rfl
          · rw [if_neg e]
            split at hfile
            · injection hfile with hfile
              subst hfile
              injection hd with hd
              exact absurd hd.symm e
            · exact hs f file d hfile hd
      cases op with
      | openCache m =>
        injection h1 with h1; subst h1
        intro f file c hf hc
        dsimp only
        split
        · rfl
        · exact hs f file c hf hc
      | closeCache c => exact absurd rfl (hn _ List.mem_cons_self c)
      | parse v =>
        injection h1 with h1; subst h1
        intro f file c hf hc
        simp only [State.put] at hf ⊢
        split at hf
        · injection hf with hf; subst hf; exact nomatch hc
        · exact hs f file c hf hc
      | fetch c url v =>
        obtain ⟨⟨o, t⟩, g1, h1⟩ := bind_iff.1 h1
        injection h1 with h1; subst h1
        exact viaFetch c url url o t v g1
      | link y href v =>
        simp only [step] at h1
        split at h1
        · exact nomatch h1
        split at h1
        · injection h1 with h1; subst h1; exact hs
        · obtain ⟨⟨o, t⟩, g1, h1⟩ := bind_iff.1 h1
          injection h1 with h1; subst h1
          exact viaFetch _ _ _ o t v g1
      | forget v => injection h1 with h1; subst h1; exact hs
  obtain ⟨file, hf, hiff, _⟩ := C120_link_partial w ops s h x f hx href v
  exact hiff.2 fun c hc => key ops _ s inv_init (fun _ _ _ h => nomatch h) h hn f file c hf hc

/-- The caches are bounded and what is in them is theirs. -/
theorem C120_cache (w : World) (ops : List Op) (s : State) (h : run w .init ops = .ok s) (c : Nat) (k : Cache)
    (hk : s.caches c = some k) :
    (0 < k.max → k.entries.length ≤ k.max) ∧ ∀ e ∈ k.entries, s.files e.2 = some ⟨e.1, some c⟩ :=
  have hi := (run_inv w ops _ s inv_init h).1
  ⟨hi.size c k hk, hi.entry c k hk⟩

/-- A world where every URL is found. -/
def open_ : World := ⟨fun _ t => some t, fun u => some u⟩

/-- Violated: net_cache.h says that what came from a cache may be held beyond its lifetime, but following a link, or resolving a
style that is elsewhere, then uses the cache that is gone. -/
theorem C120_closed_violated : ∃ s, run open_ .init [.openCache 1, .fetch 0 ['a'] 0, .closeCache 0] = .ok s ∧
    s.vars 0 = some 1 ∧ step open_ s (.link 0 ['b'] 1) = .ub := ⟨_, rfl, rfl, rfl⟩

example : ∃ s, run open_ .init [.openCache 1, .fetch 0 ['a'] 0, .link 0 ['b'] 1, .link 1 ['b'] 2] = .ok s ∧
    s.vars 1 = some 2 ∧ s.vars 2 = some 2 ∧ (s.caches 0).map (·.entries) = some [(['b'], 2)] := ⟨_, rfl, rfl, rfl, rfl⟩

end Kml.CacheLife
