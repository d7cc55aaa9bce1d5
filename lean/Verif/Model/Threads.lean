import Verif.Model.Unzip
/-! Threads.  libkml has no locks; this is what its shared variables do when several threads run.  A schedule says
which thread makes the next step.  A step is one reading or one writing of a shared variable, and steps happen one
after the other: the C++ standard promises even less (a race is undefined behaviour), so what goes wrong here may go
wrong there, but not the other way round. -/
namespace Kml.Threads

/-- A function with one value changed. -/
def upd {α : Type} (f : Nat → α) (i : Nat) (v : α) : Nat → α := fun j => if j = i then v else f j

/-- A thread in the loop of zip_file.cc 100-106: the names that are still to come, whether a name has been put into
the buffer but not yet read from it, and its table of contents. -/
structure Opening where
  rest : List Str
  filled : Bool
  toc : List Str

/-- The threads that open archives, and the buffer they share: zip_file.cc 101 `static char buf[1024]`. -/
structure Archives where
  buf : Str
  thread : Nat → Opening

/-- zip_file.cc 102-103 `unzGetCurrentFileInfo` puts a name into the buffer, 104 `push_back` reads it from there. -/
def Archives.step (s : Archives) (i : Nat) : Archives :=
  if (s.thread i).filled then
    { buf := s.buf,
      thread := upd s.thread i ⟨(s.thread i).rest, false, (s.thread i).toc ++ [s.buf]⟩ }
  else match (s.thread i).rest with
    | [] => s
    | n :: r => { buf := n, thread := upd s.thread i { rest := r, filled := true, toc := (s.thread i).toc } }

/-- Threads each of which opens an archive with these names. -/
def Archives.start (names : Nat → List Str) : Archives :=
  { buf := [], thread := fun i => { rest := names i, filled := false, toc := [] } }

def Archives.run (names : Nat → List Str) (schedule : List Nat) : Archives :=
  schedule.foldl Archives.step (.start names)

/-- What a thread does with its smart pointers to an object that it shares with others: referent.h 48-50 `add_ref`
and 54-56 `release` read the count and write it back. -/
inductive Act where
  | readToCopy
  | readToDrop
  | write
  deriving DecidableEq

/-- A shared object: its count (referent.h 64), how often it was deleted, how many pointers each thread has, and what
each has read: the count, and whether a pointer is copied (else dropped). -/
structure Shared where
  count : Int
  deleted : Nat
  held : Nat → Nat
  reg : Nat → Option (Int × Bool)

/-- referent.h 48-56 and referent.cc 39-54, a step of thread `i`.  What it could not do (copy or drop a pointer it
does not have, write before it has read) changes nothing. -/
def Shared.step (s : Shared) (e : Nat × Act) : Shared :=
  match e.2, s.reg e.1 with
  | .readToCopy, none => if 0 < s.held e.1 then { s with reg := upd s.reg e.1 (some (s.count, true)) } else s
  | .readToDrop, none => if 0 < s.held e.1 then { s with reg := upd s.reg e.1 (some (s.count, false)) } else s
  | .write, some (v, true) =>
      { count := v + 1, deleted := s.deleted, held := upd s.held e.1 (s.held e.1 + 1), reg := upd s.reg e.1 none }
  | .write, some (v, false) =>
      { count := v - 1, deleted := if v - 1 ≤ 0 then s.deleted + 1 else s.deleted,
        held := upd s.held e.1 (s.held e.1 - 1), reg := upd s.reg e.1 none }
  | _, _ => s

/-- `n` threads, each with a pointer to the object. -/
def Shared.start (n : Nat) : Shared :=
  { count := n, deleted := 0, held := fun i => if i < n then 1 else 0, reg := fun _ => none }

def Shared.run (n : Nat) (schedule : List (Nat × Act)) : Shared := schedule.foldl Shared.step (.start n)

/-- Where a thread is in kml_factory.cc 37-42 `GetFactory` or xsd.cc 36-41 `GetSchema`. -/
inductive Place where
  | before
  | make
  | store (made : Nat)
  | give
  | done (given : Option Nat)
  deriving DecidableEq

/-- The static variable that holds the object, how many objects were made, and the threads. -/
structure Single where
  ptr : Option Nat
  made : Nat
  thread : Nat → Place

/-- kml_factory.cc 38-41 and xsd.cc 37-40: look, make an object, store it, give what is there. -/
def Single.step (s : Single) (i : Nat) : Single :=
  match s.thread i with
  | .before => { s with thread := upd s.thread i (if s.ptr = none then .make else .give) }
  | .make => { s with made := s.made + 1, thread := upd s.thread i (.store s.made) }
  | .store o => { s with ptr := some o, thread := upd s.thread i .give }
  | .give => { s with thread := upd s.thread i (.done s.ptr) }
  | .done _ => s

def Single.run (schedule : List Nat) : Single :=
  schedule.foldl Single.step { ptr := none, made := 0, thread := fun _ => .before }

end Kml.Threads
