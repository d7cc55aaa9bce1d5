import Verif.Lemmas.Update
import Verif.Props.File
import Verif.Props.Merge

/-!
# C52 and C53: updates

An `Update` asks for actions (`actionsOf`, Spec/Update.lean), each with a source that names a target (`Names`).  What an
id refers to in a file is the place of the object in the tree; an object that was taken out of it has none.

`Sound` files are those in which the ids are in order.  A strict import gives one (`C52_opened_partial`), and updates keep
it so (`C52_history_partial`).
-/

namespace Kml.Dom

open Kml

set_option maxRecDepth 100000 in
theorem objects_plain : classes.all (fun p => !decide (Ty.«Object» ∈ p.2.isA) || !textual p.1) = true := by decide +kernel

/-! ### A file -/

/-- `<Placemark id="p"><name>b</name></Placemark>` -/
def uMark : Elem :=
  .node Ty.«Placemark» ⟨[(chars! "id", ['p'])], [], []⟩ (setSlot (fun _ => []) M.«name» [.field Ty.«name» ['b']]) [] []

/-- `<Folder id="f"><Placemark id="p"><name>b</name></Placemark></Folder>` -/
def uRoot : Elem :=
  .node Ty.«Folder» ⟨[(chars! "id", ['f'])], [], []⟩ (setSlot (fun _ => []) M.«feature_array» [uMark]) [] []

/-- `<Placemark targetId="p"><name>a</name></Placemark>` -/
def uSource : Elem :=
  .node Ty.«Placemark» ⟨[(chars! "targetId", ['p'])], [], []⟩
    (setSlot (fun _ => []) M.«name» [.field Ty.«name» ['a']]) [] []

set_option maxRecDepth 100000 in
theorem uRoot_held : Held NumLib.integers uRoot :=
  parse_held (os := ([] : List (Observer Unit))) (s := ()) (s' := ()) (evs :=
    [.start (chars! "Folder") [(chars! "id", ['f'])], .start (chars! "Placemark") [(chars! "id", ['p'])],
      .start (chars! "name") [], .chars ['b'], .stop (chars! "name"), .stop (chars! "Placemark"), .stop (chars! "Folder")]) rfl

set_option maxRecDepth 100000 in
theorem uSource_held : Held NumLib.integers uSource :=
  parse_held (os := ([] : List (Observer Unit))) (s := ()) (s' := ()) (evs :=
    [.start (chars! "Placemark") [(chars! "targetId", ['p'])], .start (chars! "name") [], .chars ['a'], .stop (chars! "name"),
      .stop (chars! "Placemark")]) rfl

/-- `<Folder targetId="f"><Placemark id="p"><name>b</name></Placemark></Folder>` -/
def uMore : Elem :=
  .node Ty.«Folder» ⟨[(chars! "targetId", ['f'])], [], []⟩ (setSlot (fun _ => []) M.«feature_array» [uMark]) [] []

set_option maxRecDepth 100000 in
theorem uMore_held : Held NumLib.integers uMore :=
  parse_held (os := ([] : List (Observer Unit))) (s := ()) (s' := ()) (evs :=
    [.start (chars! "Folder") [(chars! "targetId", ['f'])], .start (chars! "Placemark") [(chars! "id", ['p'])],
      .start (chars! "name") [], .chars ['b'], .stop (chars! "name"), .stop (chars! "Placemark"), .stop (chars! "Folder")]) rfl

attribute [local irreducible] kml22Elements Xsd.tagToId classes inc dec uintSize

/-! ## C52 -/

/-- **C52, in order.** Processing an update is to do what it asks for, one thing after the other. -/
theorem C52_order (n : NumLib) (idMap : Option (StdMap Str)) (update : Elem) (file file' : UpdateFile) :
    processUpdate n idMap update file = .ok file' ↔
      Steps (fun action s s' => s.perform n idMap action = .ok s') (actionsOf update) file file' := by
  rw [process_eq, steps_iff]

/-- **C52, unknown targets.** An action that names no id of the file leaves it as it is. -/
theorem C52_unknown (n : NumLib) (idMap : Option (StdMap Str)) (file : UpdateFile) (action : Action)
    (h : ∀ id, Names idMap action.source id → file.finds id = false) : file.perform n idMap action = .ok file := by
  have hnone : ∀ id, getTargetId idMap action.source = some id → file.ids.get id = none := by
    intro id hid
    have := h id ((names_iff ..).2 hid)
    unfold UpdateFile.finds at this
    rw [← Option.not_isSome_iff_eq_none, this]
    decide
  cases action with
  | change s => exact change_none fun id p h1 h2 => by rw [hnone id h1] at h2; cases h2
  | create s => exact create_none fun id p h1 h2 => by rw [hnone id h1] at h2; cases h2
  | delete s => exact delete_none fun id h1 => .inl (hnone id h1)

/-- **C52, unknown targets.** An update all of whose targets are unknown leaves the file as it is. -/
theorem C52_unknown_all (n : NumLib) (idMap : Option (StdMap Str)) (update : Elem) (file : UpdateFile)
    (h : ∀ action ∈ actionsOf update, ∀ id, Names idMap action.source id → file.finds id = false) :
    processUpdate n idMap update file = .ok file := by
  rw [process_eq]
  revert h
  generalize actionsOf update = l
  intro h
  induction l with
  | nil => rfl
  | cons a l ih =>
    show (file.perform n idMap a).bind _ = _
    rw [C52_unknown n idMap file a (h a (by simp))]
    exact ih fun b hb => h b (List.mem_cons_of_mem _ hb)

theorem cleared {n : NumLib} {y : Elem} (h : Held n y) : Cleared y y.clearTargetId := by
  cases y with
  | field => exact ⟨rfl, rfl, fun _ _ => rfl, fun _ => rfl⟩
  | node t a slots mis unk =>
    have ha := held_attrs h
    refine ⟨rfl, ?_, ?_, fun _ => rfl⟩
    · show (a.known.erase _).get _ = none
      rw [StdMap.get_erase ha.known_sorted, if_pos rfl]
    · intro k hk
      show (serializeAttributes (classAt t) _).get k = (serializeAttributes (classAt t) a).get k
      have h1 := serializeAttributes_get (classAt t) (a := { a with known := a.known.erase (chars! "targetId") }) ha.unknown_sorted k
      have h2 := serializeAttributes_get (classAt t) ha.unknown_sorted k
      rw [h2]
      refine h1.trans ?_
      dsimp only
      rw [StdMap.get_erase ha.known_sorted, show (if (chars! "targetId") = k then none else a.known.get k) = a.known.get k from
        if_neg (fun hh => hk hh.symm)]
      rfl

theorem object_plain {n : NumLib} {x : Elem} {id : Str} (h : Held n x) (hid : x.objectId = some id) : textual x.ty = false := by
  have ho := objectId_isA hid
  cases x with
  | field => cases hid
  | node t a slots mis unk =>
    obtain ⟨c, hcl⟩ := class_of_held h
    rw [isA_node hcl] at ho
    have := List.all_eq_true.1 objects_plain _ (classOf_pair hcl)
    simp only [ho, Bool.not_true, Bool.false_or, Bool.not_eq_true'] at this
    exact this

/-- **C52, a change.** What has the id is merged with what is given (see C36), and has no `targetId`; nothing else in the
tree is changed.

The file must be sound, the source clonable (C35) without ids in it and of the type of its target. -/
theorem C52_change_partial (n : NumLib) (idMap : Option (StdMap Str)) (file : UpdateFile) (s : Elem) (id : Str)
    (p : List Step) (x : Elem) (h : Sound n file) (hf : Fit n idMap file (.change s)) (hn : Names idMap s id)
    (hp : file.ids.get id = some (.place p)) (hx : file.root.at p = some x) :
    ∃ file' y z, file.perform n idMap (.change s) = .ok file' ∧ Only p file.root file'.root ∧
      mergeElements n s x = .ok y ∧ Overrides s x y ∧ Cleared y z ∧ file'.root.at p = some z ∧
      file'.lookup id = some z ∧ z.objectId = some id := by
  obtain ⟨x', hx', hxi⟩ := h.ids id p hp
  rw [hx] at hx'
  cases hx'
  have hty := hf.target s rfl id p x hn hp hx
  have hxc := complex_of_id hxi
  have hxo := ok_at h.ok hx hxc
  have hs : Source n s := hf.source
  obtain ⟨h1, h2⟩ := change_eq ((names_iff ..).1 hn) hp hx h.ok hs hxc hty
  have h3 := change_sound h hp hx hs hf.unmarked (hf.noId s rfl) hxi hty h2
  have hm := merge_main hs.held hs.clonable hs.lossless hs.tidy hs.complex x hxo hxc hty
  obtain ⟨y, hy, ho⟩ := C36_overrides_partial n s x hs.held hxo.1 hs.clonable hs.lossless hs.tidy hxo.2 hs.complex hxc hty
    (by rw [← hty]; exact object_plain hxo.1 hxi)
  rw [hm.1] at hy
  cases hy
  have hat := put_here (merged s x).clearTargetId hx
  have hget : (relocate (Ref.afterMerge (Elem.put (merged s x.mark) p file.root.mark)) file.ids).get id = some (.place p) := by
    rw [relocate_get, hp, Option.map_some, Ref.afterMerge, if_pos (stays_target hx hxc hs.complex)]
  refine ⟨_, _, _, h1, put_only .., hm.1, ho, cleared h2.1, hat, ?_, ?_⟩
  · unfold UpdateFile.lookup
    dsimp only
    rw [hget]
    exact hat
  · obtain ⟨z, hz, hzi⟩ := h3.ids id p hget
    dsimp only at hz
    rw [hat] at hz
    cases hz
    exact hzi

/-- **C52, a creation.** A container with the id has the features of what is given after its own, and nothing else in the
tree is changed.  If it is no container the file stays as it is.

The file must be sound and the source clonable (C35). -/
theorem C52_create_partial (n : NumLib) (idMap : Option (StdMap Str)) (file : UpdateFile) (s : Elem) (id : Str)
    (p : List Step) (x : Elem) (h : Sound n file) (hf : Fit n idMap file (.create s)) (hn : Names idMap s id)
    (hp : file.ids.get id = some (.place p)) (hx : file.root.at p = some x) :
    (x.isA Ty.«Container» = true → ∃ file', file.perform n idMap (.create s) = .ok file' ∧ file'.ids = file.ids ∧
      Only p file.root file'.root ∧ file'.root.at p =
        some (x.withItems M.«feature_array» (x.inside M.«feature_array» ++ s.inside M.«feature_array»))) ∧
    (x.isA Ty.«Container» = false → file.perform n idMap (.create s) = .ok file) := by
  obtain ⟨x', hx', hxi⟩ := h.ids id p hp
  rw [hx] at hx'
  cases hx'
  have hn := (names_iff ..).1 hn
  constructor
  · intro hk
    obtain ⟨h1, _⟩ := create_eq hn hp hx h.ok hf.source (hf.container s rfl) (complex_of_id hxi) hk
    exact ⟨_, h1, rfl, put_only .., put_here _ hx⟩
  · intro hk
    have := create_other (n := n) hn hp hx hk
    rw [put_self hx] at this
    exact this

/-- **C52, a deletion.** A feature with the id is taken out of the container or `kml` it is in, and nothing else in the tree
is changed.  Any other object stays where it is.

The file must be sound. -/
theorem C52_delete_partial (n : NumLib) (idMap : Option (StdMap Str)) (file : UpdateFile) (s : Elem) (id : Str)
    (p : List Step) (x : Elem) (h : Sound n file) (hn : Names idMap s id)
    (hp : file.ids.get id = some (.place p)) (hx : file.root.at p = some x) :
    (∀ q m i e, p = q ++ [.slot m i] → x.isA Ty.«Feature» = true → file.root.at q = some e →
      e.isA Ty.«Container» = true ∨ e.isA Ty.«kml» = true →
      ∃ file', file.perform n idMap (.delete s) = .ok file' ∧ Only q file.root file'.root ∧ (e.inside m)[i]? = some x ∧
        file'.root.at q = some (e.withItems m ((e.inside m).eraseIdx i)) ∧ file'.lookup id = none) ∧
    ((∀ q m i e, p = q ++ [.slot m i] → x.isA Ty.«Feature» = true → file.root.at q = some e →
      e.isA Ty.«Container» = false ∧ e.isA Ty.«kml» = false) → file.perform n idMap (.delete s) = .ok file) := by
  have hn := (names_iff ..).1 hn
  have hd : file.perform n idMap (.delete s) = file.deleteById id := by
    show file.delete idMap s = _
    unfold UpdateFile.delete
    rw [hn]
  rw [hd]
  constructor
  · rintro q m i e rfl hff he hck
    obtain ⟨h1, _⟩ := delete_place h hp hx hff he hck
    refine ⟨_, h1, put_only .., item_at he hx, ?_, ?_⟩
    · dsimp only
      rw [put_here _ he, without_items]
    · unfold UpdateFile.lookup
      dsimp only
      rw [relocate_get, hp]
      show (match some (Ref.afterErase _ _ _ _ _ (.place _)) with | some (.place p) => _ | _ => _) = none
      unfold Ref.afterErase
      dsimp only
      rw [erase_inr]
  · intro hn
    exact delete_elsewhere hp hx fun q m i e h1 h2 h3 => hn q m i e h1 h3 h2

/-- **C52, only the target.** An id whose object is not in the target refers to the same object afterwards, and if the
target is not in that either, nothing has changed in it.  What holds the target is the same but for what it holds.

The file must be sound and the action fit for it. -/
theorem C52_others_partial (n : NumLib) (idMap : Option (StdMap Str)) (file : UpdateFile) (action : Action) (id : Str)
    (p : List Step) (h : Sound n file) (hf : Fit n idMap file action) (hn : Names idMap action.source id)
    (hp : file.ids.get id = some (.place p)) :
    ∃ file', file.perform n idMap action = .ok file' ∧ ∀ id' p', file.ids.get id' = some (.place p') → ¬ p <+: p' →
      (file'.lookup id').isSome = true ∧
      (file'.lookup id').map Elem.shell = (file.lookup id').map Elem.shell ∧
      (¬ p' <+: p → file'.lookup id' = file.lookup id') := by
  obtain ⟨x, hx, hxi⟩ := h.ids id p hp
  have hn := (names_iff ..).1 hn
  have hxc := complex_of_id hxi
  have self : ∀ id' p', file.ids.get id' = some (.place p') → ¬ p <+: p' →
      (file.lookup id').isSome = true ∧
      (file.lookup id').map Elem.shell = (file.lookup id').map Elem.shell ∧
      (¬ p' <+: p → file.lookup id' = file.lookup id') := by
    intro id' p' h1 _
    refine ⟨?_, rfl, fun _ => rfl⟩
    obtain ⟨z, hz, _⟩ := h.ids id' p' h1
    unfold UpdateFile.lookup
    rw [h1]
    dsimp only
    rw [hz]
    rfl
  have moved : ∀ (root : Elem) (ids : StdMap Ref) id' p', file.ids.get id' = some (.place p') →
      ids.get id' = some (.place p') → ¬ p <+: p' → Only p file.root root →
      (UpdateFile.lookup ⟨root, ids⟩ id').isSome = true ∧
      (UpdateFile.lookup ⟨root, ids⟩ id').map Elem.shell = (file.lookup id').map Elem.shell ∧
      (¬ p' <+: p → UpdateFile.lookup ⟨root, ids⟩ id' = file.lookup id') := by
    intro root ids id' p' h1 h2 h3 ho
    obtain ⟨z, hz, _⟩ := h.ids id' p' h1
    unfold UpdateFile.lookup
    rw [h1, h2]
    dsimp only
    by_cases hpp : p' <+: p
    · have := ho.above p' hpp (fun hh => h3 (hh ▸ List.prefix_rfl))
      refine ⟨?_, this, fun hh => absurd hpp hh⟩
      rw [hz] at this
      rcases Option.eq_none_or_eq_some (root.at p') with h0 | ⟨w, h0⟩
      · rw [h0] at this; cases this
      · rw [h0]; rfl
    · have := ho.outside p' h3 hpp
      rw [this]
      exact ⟨by rw [hz]; rfl, rfl, fun _ => rfl⟩
  cases action with
  | change s =>
    have hty := hf.target s rfl id p x ((names_iff ..).2 hn) hp hx
    obtain ⟨h1, h2⟩ := change_eq hn hp hx h.ok hf.source hxc hty
    refine ⟨_, h1, ?_⟩
    intro id' p' k1 k2
    obtain ⟨z, hz, hzi⟩ := h.ids id' p' k1
    refine moved _ _ id' p' k1 ?_ k2 (put_only ..)
    rw [relocate_get, k1, Option.map_some, Ref.afterMerge, if_pos (stays_other hz (complex_of_id hzi) k2)]
  | create s =>
    by_cases hk : x.isA Ty.«Container» = true
    · obtain ⟨h1, _⟩ := create_eq hn hp hx h.ok hf.source (hf.container s rfl) hxc hk
      exact ⟨_, h1, fun id' p' k1 k2 => moved _ _ id' p' k1 k1 k2 (put_only ..)⟩
    · rw [Bool.not_eq_true] at hk
      have := create_other (n := n) hn hp hx hk
      rw [put_self hx] at this
      exact ⟨_, this, self⟩
  | delete s =>
    have hd : file.perform n idMap (.delete s) = file.deleteById id := by
      show file.delete idMap s = _
      unfold UpdateFile.delete
      rw [show getTargetId idMap s = some id from hn]
    rw [hd]
    by_cases hh : ∃ q m i e, p = q ++ [.slot m i] ∧ file.root.at q = some e ∧ x.isA Ty.«Feature» = true ∧
        (e.isA Ty.«Container» = true ∨ e.isA Ty.«kml» = true)
    · obtain ⟨q, m, i, e, rfl, he, hff, hck⟩ := hh
      obtain ⟨h1, _⟩ := delete_place h hp hx hff he hck
      refine ⟨_, h1, ?_⟩
      intro id' p' k1 k2
      obtain ⟨z, hz, _⟩ := h.ids id' p' k1
      rcases erase_cases q m i p' with ⟨r, rfl⟩ | ⟨j, r, hj, rfl⟩ | hs
      · exact absurd (by simp) k2
      · have hl : UpdateFile.lookup ⟨Elem.put (e.without m i) q file.root,
            relocate (Ref.afterErase file.root file.ids q m i) file.ids⟩ id' = file.lookup id' := by
          unfold UpdateFile.lookup
          dsimp only
          rw [relocate_get, k1]
          show (match some (Ref.afterErase _ _ _ _ _ (.place _)) with | some (.place p) => _ | _ => _) = _
          unfold Ref.afterErase
          dsimp only
          rw [erase_later hj]
          exact erased_later he hj r
        rw [hl]
        exact self id' _ k1 k2
      · have hl : UpdateFile.lookup ⟨Elem.put (e.without m i) q file.root,
            relocate (Ref.afterErase file.root file.ids q m i) file.ids⟩ id' =
            (Elem.put (e.without m i) q file.root).at p' := by
          unfold UpdateFile.lookup
          dsimp only
          rw [relocate_get, k1]
          show (match some (Ref.afterErase _ _ _ _ _ (.place _)) with | some (.place p) => _ | _ => _) = _
          unfold Ref.afterErase
          dsimp only
          rw [erase_same hs]
        have hl2 : file.lookup id' = file.root.at p' := by unfold UpdateFile.lookup; rw [k1]
        rw [hl, hl2]
        have := erased_same he hs
        refine ⟨?_, this.1, fun hn => this.2 fun hq => hn (hq.trans (List.prefix_append ..))⟩
        rw [← Option.isSome_map (f := Elem.shell), this.1, hz]
        rfl
    · refine ⟨file, delete_elsewhere hp hx ?_, self⟩
      intro q m i e hp he hff
      constructor
      · rw [← Bool.not_eq_true]
        exact fun hc => hh ⟨q, m, i, e, hp, he, hff, .inl hc⟩
      · rw [← Bool.not_eq_true]
        exact fun hc => hh ⟨q, m, i, e, hp, he, hff, .inr hc⟩

/-- **C52, updates end.** In a sound file every update that is fit for it ends without an error, and the file is sound
afterwards: so the next update can be processed, and all of the above holds for each action of it. -/
theorem C52_history_partial (n : NumLib) (idMap : Option (StdMap Str)) (update : Elem) (file : UpdateFile) (h : Sound n file)
    (hf : ∀ action ∈ actionsOf update, Fit n idMap file action) :
    ∃ file', processUpdate n idMap update file = .ok file' ∧ Sound n file' := by
  rw [process_eq]
  exact all_sound _ h hf

theorem placed_get (m : StdMap (List Step)) (id : Str) :
    StdMap.get (m.map fun e => (e.1, Ref.place e.2)) id = (m.get id).map .place := by
  induction m with
  | nil => rfl
  | cons e m ih =>
    rw [List.map_cons, StdMap.get, StdMap.get, ih]
    split <;> rfl

/-- **C52, the start.** A strict import of a tree as the parser leaves it, with nothing but simple elements misplaced, gives
a sound file. -/
theorem C52_opened_partial (n : NumLib) (root : Elem) (file : UpdateFile) (h : Held n root) (ht : Everywhere Tidy root)
    (hc : root.complex = true) (ho : openFile root true = some file) : Sound n file ∧ file.root = root := by
  unfold openFile at ho
  obtain ⟨m, hm, hfile⟩ := map_inv ho
  obtain ⟨hiff, hget⟩ := C37_import_partial n root h ht
  have hd : DistinctIds root := hiff.1 (by rw [hm]; rfl)
  have hget := hget m hm
  have hsorted : StdMap.Sorted m.1 := by
    unfold importFile at hm
    split at hm
    · cases hm
    · cases hm
      exact idMapper_sorted StdMap.sorted_nil
  subst hfile
  refine ⟨⟨h, ht, hc, ?_, ?_, ?_, ?_, ?_, ?_, ?_⟩, rfl⟩
  · unfold StdMap.Sorted at *
    dsimp only
    rw [List.pairwise_map]
    exact hsorted
  · intro id p hp
    dsimp only at hp
    rw [placed_get] at hp
    obtain ⟨q, hq, hqp⟩ := map_inv hp
    cases hqp
    exact (hget id p).1 hq
  · intro id q m' i hp j hj y hy hyi
    dsimp only at hp hy
    rw [placed_get] at hp
    obtain ⟨q', hq, hqp⟩ := map_inv hp
    cases hqp
    obtain ⟨x, hx, hxi⟩ := (hget id _).1 hq
    have := hd _ _ y x id hy hx hyi hxi
    have := List.append_cancel_left this
    simp only [List.cons.injEq, Step.slot.injEq, and_true, true_and] at this
    omega
  · intro id p _ q _ y id' hy hyi
    dsimp only at hy ⊢
    rw [placed_get, (hget id' q).2 ⟨y, hy, hyi⟩]
    rfl
  · intro id p hp
    dsimp only at hp
    rw [placed_get] at hp
    obtain ⟨q, hq, hqp⟩ := map_inv hp
    cases hqp
  · intro id hp
    dsimp only at hp
    rw [placed_get] at hp
    obtain ⟨q, hq, hqp⟩ := map_inv hp
    cases hqp
  · intro id hp
    dsimp only at hp
    rw [placed_get] at hp
    obtain ⟨q, hq, hqp⟩ := map_inv hp
    cases hqp

/-! ## C53 -/

/-- **C53: the ids.** `GetObjectById` finds something for the same ids before and after an update, whatever was created or
deleted.  So the property does not hold: see `C53_deleted_violated` and `C53_created_violated`. -/
theorem C53_found (n : NumLib) (idMap : Option (StdMap Str)) (update : Elem) (file file' : UpdateFile)
    (h : processUpdate n idMap update file = .ok file') (id : Str) : file'.finds id = file.finds id := by
  have erased : ∀ {f f' : UpdateFile} {q : List Step} {m : Mem} {i : Nat}, f.erase q m i = .ok f' → f'.finds id = f.finds id := by
    intro f f' q m i hf
    unfold UpdateFile.erase at hf
    cases hr : modifyAt (fun e => .ok (e.without m i)) q f.root with
    | throws => rw [hr] at hf; cases hf
    | ub => rw [hr] at hf; cases hf
    | ok r => rw [hr] at hf; cases hf; exact found_relocate ..
  have deleted : ∀ {f f' : UpdateFile} {q : List Step} {id' : Str}, f.deleteIn q id' = .ok f' → f'.finds id = f.finds id := by
    intro f f' q id' hf
    unfold UpdateFile.deleteIn at hf
    split at hf
    · cases hf; rfl
    · split at hf
      · split at hf
        · exact erased hf
        · cases hf; rfl
      · split at hf
        · split at hf
          · cases hf; rfl
          · exact erased hf
        · cases hf; rfl
  have step : ∀ {f f' : UpdateFile} {a : Action}, f.perform n idMap a = .ok f' → f'.finds id = f.finds id := by
    intro f f' a hf
    cases a with
    | change s =>
      have hf : f.change n idMap s = .ok f' := hf
      unfold UpdateFile.change at hf
      split at hf
      · obtain ⟨r, hr, hf⟩ := bind_eq_ok hf
        obtain ⟨r', hr', hf⟩ := bind_eq_ok hf
        cases hf
        exact found_relocate ..
      · cases hf; rfl
    | create s =>
      have hf : f.create n idMap s = .ok f' := hf
      unfold UpdateFile.create at hf
      split at hf
      · obtain ⟨r, hr, hf⟩ := bind_eq_ok hf
        cases hf
        rfl
      · cases hf; rfl
    | delete s =>
      have hf : f.delete idMap s = .ok f' := hf
      unfold UpdateFile.delete at hf
      split at hf
      · unfold UpdateFile.deleteById at hf
        split at hf
        · split at hf
          · cases hf; rfl
          · split at hf
            · split at hf
              · exact deleted hf
              · cases hf; rfl
            · cases hf; rfl
        · exact deleted hf
        · cases hf
        · cases hf; rfl
      · cases hf; rfl
  rw [C52_order] at h
  revert h
  generalize actionsOf update = l
  intro h
  induction h with
  | nil => rfl
  | cons h1 _ ih => rw [ih, step h1]

/-- **C53, changes.** After a change the id of its target refers to the changed object. -/
theorem C53_changed_partial (n : NumLib) (idMap : Option (StdMap Str)) (file : UpdateFile) (s : Elem) (id : Str) (x : Elem)
    (h : Sound n file) (hf : Fit n idMap file (.change s)) (hn : Names idMap s id) (hx : file.lookup id = some x) :
    ∃ file' y z, file.perform n idMap (.change s) = .ok file' ∧ Overrides s x y ∧ Cleared y z ∧ file'.lookup id = some z := by
  unfold UpdateFile.lookup at hx
  split at hx
  · rename_i p hp
    obtain ⟨file', y, z, h1, _, _, h2, h3, _, h4, _⟩ := C52_change_partial n idMap file s id p x h hf hn hp hx
    exact ⟨file', y, z, h1, h2, h3, h4⟩
  · cases hx

/-! ### A file and its updates -/

/-- The file with that root. -/
def uFile : UpdateFile := ⟨uRoot, [(['f'], .place []), (['p'], .place [.slot M.«feature_array» 0])]⟩

theorem uRoot_tidy : Everywhere Tidy uRoot := by
  refine .node (by intro x hx; cases hx) ?_ (by intro x hx; cases hx)
  intro m x hx
  unfold setSlot at hx
  split at hx
  · rw [List.mem_singleton.1 hx]
    refine .node (by intro x hx; cases hx) ?_ (by intro x hx; cases hx)
    intro m x hx
    unfold setSlot at hx
    split at hx
    · rw [List.mem_singleton.1 hx]; exact .field trivial
    · cases hx
  · cases hx

theorem uFile_opened : openFile uRoot true = some uFile := by
  have h : (importFile uRoot true).map (·.1) = some [(['f'], []), (['p'], [.slot M.«feature_array» 0])] := by decide +kernel
  obtain ⟨m, h1, h2⟩ := map_inv h
  unfold openFile
  rw [h1]
  show some (UpdateFile.mk uRoot (m.1.map _)) = _
  rw [h2]
  rfl

theorem uFile_sound : Sound NumLib.integers uFile :=
  (C52_opened_partial _ uRoot uFile uRoot_held uRoot_tidy rfl uFile_opened).1

theorem uSource_all {P : Elem → Prop} (h : P uSource) (hf : ∀ t s, P (.field t s)) : Everywhere P uSource := by
  refine .node h ?_ (by intro x hx; cases hx)
  intro m x hx
  unfold setSlot at hx
  split at hx
  · rw [List.mem_singleton.1 hx]; exact .field (hf _ _)
  · cases hx

theorem uSource_clonable : Clonable uSource := by
  refine ⟨?_, fun h => absurd h (by decide)⟩
  intro m x hx act t' s ht hc he
  unfold setSlot at hx
  split at hx
  · rw [List.mem_singleton.1 hx] at ht
    have : taker Ty.«Placemark» (.field Ty.«name» ['a']) = some (.field M.«name» .str) := by decide +kernel
    rw [this] at ht
    cases ht
    cases hc
  · cases hx

theorem uSource_source : Source NumLib.integers uSource :=
  ⟨uSource_held, uSource_all uSource_clonable fun _ _ => trivial,
    uSource_all ⟨fun h => absurd h (by decide), fun h => absurd h (by decide), fun h => absurd h (by decide)⟩ fun _ _ => trivial,
    uSource_all (by intro x hx; cases hx) fun _ _ => trivial, rfl⟩

theorem uSource_noId : uSource.objectId = none := by decide +kernel

theorem uSource_fit : Fit NumLib.integers none uFile (.change uSource) := by
  refine ⟨uSource_source, uSource_all rfl fun _ _ => rfl, ?_, ?_, ?_⟩
  · intro s hs
    cases hs
    exact uSource_all uSource_noId fun _ _ => rfl
  · intro s hs; cases hs
  · intro s hs id p x hn hp hx
    cases hs
    obtain ⟨t, h1, rfl⟩ := hn
    cases h1
    have : uFile.ids.get ['p'] = some (.place [.slot M.«feature_array» 0]) := by decide +kernel
    rw [this] at hp
    cases hp
    have : uRoot.at [.slot M.«feature_array» 0] = some uMark := rfl
    rw [show uFile.root.at _ = _ from this] at hx
    cases hx
    rfl

theorem uSource_names : Names none uSource ['p'] := ⟨['p'], rfl, rfl⟩

example : ∃ file' y z, uFile.perform NumLib.integers none (.change uSource) = .ok file' ∧
    Only [.slot M.«feature_array» 0] uFile.root file'.root ∧ mergeElements NumLib.integers uSource uMark = .ok y ∧
    Overrides uSource uMark y ∧ Cleared y z ∧ file'.root.at [.slot M.«feature_array» 0] = some z ∧
    file'.lookup ['p'] = some z ∧ z.objectId = some ['p'] :=
  C52_change_partial _ _ _ _ _ _ _ uFile_sound uSource_fit uSource_names (by decide +kernel) rfl

example : ∃ file', uFile.perform NumLib.integers none (.delete uSource) = .ok file' ∧ Only [] uFile.root file'.root ∧
    (uRoot.inside M.«feature_array»)[0]? = some uMark ∧
    file'.root.at [] = some (uRoot.withItems M.«feature_array» ((uRoot.inside M.«feature_array»).eraseIdx 0)) ∧
    file'.lookup ['p'] = none :=
  (C52_delete_partial NumLib.integers none uFile uSource ['p'] [.slot M.«feature_array» 0] uMark uFile_sound uSource_names
    (by decide +kernel) rfl).1 [] _ 0 uRoot rfl (by decide +kernel) rfl (.inl (by decide +kernel))

example : ∃ file', uFile.perform NumLib.integers none (.change uSource) = .ok file' ∧
    (file'.lookup ['f']).map Elem.shell = (uFile.lookup ['f']).map Elem.shell := by
  obtain ⟨file', h1, h2⟩ := C52_others_partial _ _ _ _ ['p'] [.slot M.«feature_array» 0] uFile_sound uSource_fit uSource_names (by decide +kernel)
  exact ⟨file', h1, (h2 ['f'] [] (by decide +kernel) (by simp)).2.1⟩

theorem uMore_all {P : Elem → Prop} (h : P uMore) (hm : P uMark) (hf : ∀ t s, P (.field t s)) : Everywhere P uMore := by
  refine .node h ?_ (by intro x hx; cases hx)
  intro m x hx
  unfold setSlot at hx
  split at hx
  · rw [List.mem_singleton.1 hx]
    refine .node hm ?_ (by intro x hx; cases hx)
    intro m x hx
    unfold setSlot at hx
    split at hx
    · rw [List.mem_singleton.1 hx]; exact .field (hf _ _)
    · cases hx
  · cases hx

theorem uMark_clonable : Clonable uMark := by
  refine ⟨?_, fun h => absurd h (by decide)⟩
  intro m x hx act t' s ht hc he
  unfold setSlot at hx
  split at hx
  · rw [List.mem_singleton.1 hx] at ht
    have : taker Ty.«Placemark» (.field Ty.«name» ['b']) = some (.field M.«name» .str) := by decide +kernel
    rw [this] at ht
    cases ht
    cases hc
  · cases hx

theorem uMore_clonable : Clonable uMore := by
  refine ⟨?_, fun h => absurd h (by decide)⟩
  intro m x hx act t' s ht hc he
  unfold setSlot at hx
  split at hx
  · rw [List.mem_singleton.1 hx] at he
    cases he
  · cases hx

theorem uMore_fit : Fit NumLib.integers none uFile (.create uMore) := by
  refine ⟨⟨uMore_held, uMore_all uMore_clonable uMark_clonable fun _ _ => trivial, ?_, ?_, rfl⟩,
    uMore_all rfl rfl fun _ _ => rfl, ?_, ?_, ?_⟩
  · exact uMore_all ⟨fun h => absurd h (by decide), fun h => absurd h (by decide), fun h => absurd h (by decide)⟩
      ⟨fun h => absurd h (by decide), fun h => absurd h (by decide), fun h => absurd h (by decide)⟩ fun _ _ => trivial
  · exact uMore_all (by intro x hx; cases hx) (by intro x hx; cases hx) fun _ _ => trivial
  · intro s hs; cases hs
  · intro s hs; cases hs; decide +kernel
  · intro s hs; cases hs

example : ∃ file', uFile.perform NumLib.integers none (.create uMore) = .ok file' ∧ file'.ids = uFile.ids ∧
    Only [] uFile.root file'.root ∧ file'.root.at [] = some (uRoot.withItems M.«feature_array»
      (uRoot.inside M.«feature_array» ++ uMore.inside M.«feature_array»)) :=
  (C52_create_partial NumLib.integers none uFile uMore ['f'] [] uRoot uFile_sound uMore_fit ⟨['f'], rfl, rfl⟩
    (by decide +kernel) rfl).1 (by decide +kernel)

/-- An `Update` with these operations. -/
def updateOf (operations : List Elem) : Elem :=
  .node Ty.«Update» .empty (setSlot (fun _ => []) M.«updateoperation_array» operations) [] []

/-- `<Change>`, `<Create>` and `<Delete>` with these objects. -/
def changeOf (l : List Elem) : Elem := .node Ty.«Change» .empty (setSlot (fun _ => []) M.«object_array» l) [] []
@[inherit_doc changeOf]
def createOf (l : List Elem) : Elem := .node Ty.«Create» .empty (setSlot (fun _ => []) M.«container_array» l) [] []
@[inherit_doc changeOf]
def deleteOf (l : List Elem) : Elem := .node Ty.«Delete» .empty (setSlot (fun _ => []) M.«feature_array» l) [] []

example : actionsOf (updateOf [changeOf [uSource], createOf [uMore]]) = [.change uSource, .create uMore] := rfl

example : ∃ file', processUpdate NumLib.integers none (updateOf [changeOf [uSource], createOf [uMore]]) uFile = .ok file' ∧
    Sound NumLib.integers file' :=
  C52_history_partial _ _ _ _ uFile_sound (by
    intro a ha
    have ha : a ∈ [Action.change uSource, .create uMore] := ha
    simp only [List.mem_cons, List.not_mem_nil, or_false] at ha
    rcases ha with rfl | rfl
    · exact uSource_fit
    · exact uMore_fit)

/-- An element with attributes, empty but for features. -/
def uNode (t : Ty) (attrs : StdMap Str) (features : List Elem) : Elem :=
  .node t ⟨attrs, [], []⟩ (setSlot (fun _ => []) M.«feature_array» features) [] []

/-- The text of the file after an update, and for some ids whether they are found; the text is empty if there is no such
outcome. -/
def updatedText (strict : Bool) (root update : Elem) (ids : List Str) : Outcome (Str × List Bool) :=
  match openFile root strict with
  | none => .throws
  | some file => do
    let file ← processUpdate NumLib.integers none update file
    let text ← serializeRaw file.root
    .ok (text, ids.map file.finds)

/-- An update in order: a feature is created, one is changed and one deleted. -/
example : updatedText true uRoot (updateOf [createOf [uNode Ty.«Folder» [(chars! "targetId", ['f'])]
      [uNode Ty.«Placemark» [(chars! "id", ['q'])] []]], changeOf [uSource],
      deleteOf [uNode Ty.«Placemark» [(chars! "targetId", ['p'])] []]]) [['f']] =
    .ok (chars! "<Folder id=\"f\"><Placemark id=\"q\"/></Folder>", [true]) := by decide +kernel

/-- **C52 fails for duplicate ids.** In a file with two features `p` in one folder, the id refers to the second, but the
first is deleted. -/
theorem C52_duplicate_violated :
    (openFile (uNode Ty.«Folder» [] [uMark, uNode Ty.«Placemark» [(chars! "id", ['p'])] []]) false).map (·.ids) =
      some [(['p'], .place [.slot M.«feature_array» 1])] ∧
    updatedText false (uNode Ty.«Folder» [] [uMark, uNode Ty.«Placemark» [(chars! "id", ['p'])] []])
      (updateOf [deleteOf [uNode Ty.«Placemark» [(chars! "targetId", ['p'])] []]]) [] =
    .ok (chars! "<Folder><Placemark id=\"p\"/></Folder>", []) := by decide +kernel

/-- **C52 fails for duplicate ids: a freed parent is used.** Two features have the id `x`, the first a folder with a
placemark `p`.  To delete `x` deletes and frees the folder, and to delete `p` then asks it for its type. -/
theorem C52_freed_violated :
    updatedText false (uNode Ty.«Folder» [] [uNode Ty.«Folder» [(chars! "id", ['x'])] [uMark],
        uNode Ty.«Placemark» [(chars! "id", ['x'])] []])
      (updateOf [deleteOf [uNode Ty.«Placemark» [(chars! "targetId", ['x'])] [],
        uNode Ty.«Placemark» [(chars! "targetId", ['p'])] []]]) [] = .ub := by decide +kernel

/-- **C53 fails for deletions.** The deleted placemark is no longer in the tree, and is still found. -/
theorem C53_deleted_violated :
    updatedText true uRoot (updateOf [deleteOf [uNode Ty.«Placemark» [(chars! "targetId", ['p'])] []]]) [['p']] =
    .ok (chars! "<Folder id=\"f\"/>", [true]) := by decide +kernel

/-- **C53 fails for creations.** The created placemark `q` is in the tree and is not found, so that a second operation of
the same update cannot delete it. -/
theorem C53_created_violated :
    updatedText true uRoot (updateOf [createOf [uNode Ty.«Folder» [(chars! "targetId", ['f'])]
        [uNode Ty.«Placemark» [(chars! "id", ['q'])] []]], deleteOf [uNode Ty.«Placemark» [(chars! "targetId", ['q'])] []]])
      [['q']] =
    .ok (chars! "<Folder id=\"f\"><Placemark id=\"p\"><name>b</name></Placemark><Placemark id=\"q\"/></Folder>",
      [false]) := by decide +kernel

/-- **C53 fails for changed ids.** A change may give its target another id, under which it is not found. -/
theorem C53_renamed_violated :
    updatedText true uRoot (updateOf [changeOf [uNode Ty.«Placemark» [(chars! "id", ['q']), (chars! "targetId", ['p'])] []]])
      [['p'], ['q']] =
    .ok (chars! "<Folder id=\"f\"><Placemark id=\"q\"><name>b</name></Placemark></Folder>", [true, false]) := by
  decide +kernel

end Kml.Dom
