import Verif.Model.Basic
/-! Model of the reference counting of `src/kml/base/referent.h` and `src/kml/base/referent.cc`, as used by
`boost::intrusive_ptr`.  `ref_count_` is an unbounded integer (the code has an `int`). -/
namespace Kml.Referent

/-- Where a smart pointer lives: in a variable of the client, or in a member of another object. -/
inductive Owner where
  | client (name : Nat)
  | member (obj : Nat)
  deriving DecidableEq

structure State where
  /-- Objects are numbered in the order they are made; this is the number of the next one. -/
  next : Nat := 0
  /-- The object's storage is live. -/
  alive : Nat → Bool := fun _ => false
  /-- referent.h 64 `ref_count_`. -/
  count : Nat → Int := fun _ => 0
  /-- The smart pointers that exist: where each lives and what it points to. -/
  ptrs : List (Owner × Nat) := []
  /-- The objects that were deleted, latest first. -/
  freed : List Nat := []
  /-- A dead object was touched. -/
  ub : Bool := false

/-- referent.h 48-50 `add_ref`, called by referent.cc 35-37 `intrusive_ptr_add_ref`. -/
def addRef (s : State) (o : Nat) : State :=
  { s with ub := s.ub || !s.alive o, count := fun x => if x = o then s.count o + 1 else s.count x }

/-- referent.h 54-56 `release`, the decrement. -/
def release (s : State) (o : Nat) : State :=
  { s with ub := s.ub || !s.alive o, count := fun x => if x = o then s.count o - 1 else s.count x }

/-- `delete r` (referent.cc 52): the storage goes, and the smart pointers among the members go with it. -/
def delete (s : State) (o : Nat) : State :=
  { s with
    ub := s.ub || !s.alive o
    alive := fun x => if x = o then false else s.alive x
    freed := o :: s.freed
    ptrs := s.ptrs.filter fun p => decide (p.1 ≠ .member o) }

/-- The targets of the smart pointers that are members of `o`; its destructor releases each. -/
def members (s : State) (o : Nat) : List Nat :=
  (s.ptrs.filter fun p => decide (p.1 = .member o)).map Prod.snd

/-- referent.cc 43-54 `intrusive_ptr_release` on each object of a list, with the releases done by the destructors
of deleted objects. -/
def releaseAll (s : State) : List Nat → State
  | [] => s
  | o :: todo =>
    if (release s o).count o ≤ 0 then
      releaseAll (delete (release s o) o) (members s o ++ todo)
    else releaseAll (release s o) todo
  termination_by todo => 2 * s.ptrs.length + todo.length
  decreasing_by
  · have h : ∀ l : List (Owner × Nat),
        (l.filter fun p => decide (p.1 ≠ .member o)).length + (l.filter fun p => decide (p.1 = .member o)).length
          = l.length := by
      intro l
      induction l with
      | nil => rfl
      | cons a l ih =>
        by_cases h : a.1 = .member o <;> simp [h] at ih ⊢ <;> omega
    have := h s.ptrs
    simp only [delete, release, members, List.length_append, List.length_map, List.length_cons]
    omega
  · simp [release]

/-- What client code can do with smart pointers.  (An assignment is a copy and a drop.) -/
inductive Op where
  /-- `boost::intrusive_ptr<T> p(new T)`: a new object, with its first pointer at `at`. -/
  | new (at_ : Owner)
  /-- A copy, at `at_`, of the pointer to `target` found at `src`. -/
  | copy (src : Owner) (target : Nat) (at_ : Owner)
  /-- The pointer to `target` at `at_` is reset or goes out of scope. -/
  | drop (at_ : Owner) (target : Nat)

/-- A pointer can be put into a variable, and into a member of a live object that somebody points to. -/
def usable (s : State) : Owner → Bool
  | .client _ => true
  | .member o => s.alive o

/-- One operation; one that the client could not write (no such pointer, no such member) changes nothing. -/
def step (s : State) : Op → State
  | .new a =>
    if usable s a then
      addRef { s with next := s.next + 1
                      alive := fun x => if x = s.next then true else s.alive x
                      count := fun x => if x = s.next then 0 else s.count x
                      ptrs := (a, s.next) :: s.ptrs } s.next
    else s
  | .copy src t a =>
    if (src, t) ∈ s.ptrs ∧ usable s a then addRef { s with ptrs := (a, t) :: s.ptrs } t else s
  | .drop a t =>
    if (a, t) ∈ s.ptrs then releaseAll { s with ptrs := s.ptrs.erase (a, t) } [t] else s

def run (ops : List Op) : State := ops.foldl step {}

end Kml.Referent
