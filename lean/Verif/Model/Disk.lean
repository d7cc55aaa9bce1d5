import Verif.Model.UriFile
import Verif.Model.Unzip
/-! Model of `src/kml/base/file.cc` 40-75, `src/kml/base/file_posix.cc` and `src/kml/base/tempfile.h`, on a disk on which things go wrong:
files that may not be opened, places that cannot be read, a disk that is full, and a crash at any moment.  There are no links, and nobody
else changes the disk in the middle of a call. -/
namespace Kml.Disk
open Kml.UriFile

/-- What is at a path. -/
inductive Node where
  | file (data : Str)
  | dir
  deriving DecidableEq

/-- The disk: what is at each path, which paths may be opened for reading, which may be made, emptied or removed, how many more bytes can be
written, and where in a file reading fails, if it does. -/
structure Disk where
  node : Str → Option Node
  readable : Str → Bool
  writable : Str → Bool
  space : Nat
  bad : Str → Option Nat

/-- The disk with something else at a path. -/
def Disk.put (d : Disk) (path : Str) (n : Option Node) : Disk :=
  { d with node := fun p => if p = path then n else d.node p }

/-- A `std::ifstream`: what can still be read, and whether an error comes after that (else the end of the file). -/
structure Stream where
  rest : Str
  fails : Bool
  eof : Bool
  good : Bool

/-- file.cc 44-48: opening a file for reading.  A directory can be opened, and then reading fails. -/
def openRead (d : Disk) (path : Str) : Option Stream :=
  if path = [] ∨ d.readable path = false then none
  else match d.node path with
    | none => none
    | some .dir => some ⟨[], true, false, true⟩
    | some (.file data) =>
        match d.bad path with
        | none => some ⟨data, false, false, true⟩
        | some k => if k < data.length then some ⟨data.take k, true, false, true⟩ else some ⟨data, false, false, true⟩

/-- `istream::read` of `n` bytes and `gcount`: a reading that fails gives nothing. -/
def Stream.read (s : Stream) (n : Nat) : Str × Stream :=
  if n ≤ s.rest.length then (s.rest.take n, { s with rest := s.rest.drop n })
  else if s.fails then ([], { s with rest := [], good := false })
  else (s.rest, { s with rest := [], eof := true, good := false })

/-- file.cc 52-58: the loop.  `turns` bounds it. -/
def readLoop : Nat → Stream → Str → Str
  | 0, _, output => output
  | turns + 1, s, output =>
      if s.eof = false ∧ s.good = true then
        readLoop turns (s.read 1024).2 (if 0 < (s.read 1024).1.length then output ++ (s.read 1024).1 else output)
      else output

/-- file.cc 40-60 `ReadFileToString`: the result and the output afterwards; no output is NULL. -/
def readFileToString (d : Disk) (filename : Str) (output : Option Str) : Bool × Option Str :=
  if filename = [] ∨ output = none then (false, output)
  else match openRead d (cstr filename) with
    | none => (false, output)
    | some s => (true, some (readLoop (s.rest.length + 2) s []))

/-- file.cc 67-68: opening a file for writing makes it, or empties it. -/
def openWrite (d : Disk) (path : Str) : Option Disk :=
  if path = [] ∨ d.writable path = false then none
  else match d.node path with
    | some .dir => none
    | some (.file old) => some { d.put path (some (.file [])) with space := d.space + old.length }
    | none => some (d.put path (some (.file [])))

/-- file.cc 72-73: `write` and `close`, of which as much is done as there is space for. -/
def writeData (d : Disk) (path data : Str) : Disk :=
  { d.put path (some (.file (data.take d.space))) with space := d.space - (data.take d.space).length }

/-- file.cc 62-75 `WriteStringToFile`. -/
def writeStringToFile (d : Disk) (data filename : Str) : Bool × Disk :=
  if filename = [] then (false, d)
  else match openWrite d (cstr filename) with
    | none => (false, d)
    | some d' => (true, writeData d' (cstr filename) data)

/-- The disks a crash during `WriteStringToFile` can leave: before, or with as much written as there was time for. -/
def crashes (d : Disk) (data filename : Str) : List Disk :=
  d :: (if filename = [] then []
    else match openWrite d (cstr filename) with
      | none => []
      | some d' => (List.range (data.length + 1)).map fun k => writeData d' (cstr filename) (data.take k))

/-- file_posix.cc 41-56 `Exists`. -/
def fileExists (d : Disk) (path : Str) : Bool :=
  match d.node (cstr path) with
  | some (.file _) => true
  | _ => false

/-- file_posix.cc 58-60 `Delete`: `unlink` removes no directories. -/
def delete (d : Disk) (path : Str) : Bool × Disk :=
  match d.node (cstr path) with
  | some (.file _) => if d.writable (cstr path) then (true, d.put (cstr path) none) else (false, d)
  | _ => (false, d)

/-- file_posix.cc 62-77 `CreateNewTempFile` with an output: the path and the disk.  `six` are the letters that `mkstemp` tries last; it
makes a file only where there is nothing. -/
def createNewTempFile (d : Disk) (six : Str) : Option (Str × Disk) :=
  if d.node (chars! "/tmp/libkml" ++ six) = none ∧ d.writable (chars! "/tmp/libkml" ++ six) = true then
    some (chars! "/tmp/libkml" ++ six, d.put (chars! "/tmp/libkml" ++ six) (some (.file [])))
  else none

/-- The `TempFile` objects that are alive, each with its name (tempfile.h 64), and how many were made. -/
structure Temps where
  disk : Disk
  made : Nat
  live : List (Nat × Str)

/-- What a program does with temporary files. -/
inductive Op where
  /-- tempfile.h 47-53 `CreateTempFile`. -/
  | make (six : Str)
  /-- The last pointer to the object goes. -/
  | drop (object : Nat)
  /-- `WriteStringToFile`. -/
  | write (data path : Str)
  /-- `File::Delete`. -/
  | remove (path : Str)

/-- tempfile.h 54-58, the destructor, on the disk. -/
def destroy (d : Disk) (name : Str) : Disk := if fileExists d name then (delete d name).2 else d

/-- One operation. -/
def Temps.step (t : Temps) : Op → Temps
  | .make six =>
      match createNewTempFile t.disk six with
      | none => t
      | some (path, d) => { disk := d, made := t.made + 1, live := (t.made, path) :: t.live }
  | .drop o =>
      match t.live.find? fun x => x.1 = o with
      | none => t
      | some x => { disk := destroy t.disk x.2, made := t.made, live := t.live.filter fun y => y.1 ≠ o }
  | .write data path => { t with disk := (writeStringToFile t.disk data path).2 }
  | .remove path => { t with disk := (delete t.disk path).2 }

/-- zip_file.cc 64-73 `OpenFromFile`: the data and the table of contents of the object made, `none` for NULL. -/
def openFromFile (d : Disk) (path : Str) : Outcome (Option (Str × List Str)) :=
  if fileExists d path then
    match readFileToString d path (some []) with
    | (true, some data) => Unzip.openFromString data >>= fun t => .ok (t.map fun t => (data, t))
    | _ => .ok none
  else .ok none

end Kml.Disk
