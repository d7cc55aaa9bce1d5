import Verif.Model.Disk
/-! Model of `src/kml/base/file_win32.cc`.  A string is a list of bytes, and a name on the disk one of 16-bit characters.  Names are
taken to be different if their characters are: that letter case and the kind of slash make no difference there is left out. -/
namespace Kml.DiskWin
open Kml.Disk (Node)

/-- A string of `wchar_t`. -/
abbrev Wide := List UInt16

/-- A code page of the system (`CP_ACP`): what bytes mean to the functions of the C library, and what `WideCharToMultiByte` makes of
characters. -/
structure CodePage where
  decode : List UInt8 → Wide
  encode : Wide → List UInt8

/-- The disk: what is at each path, and which may be removed. -/
structure Disk where
  node : Wide → Option Node
  writable : Wide → Bool

/-- The disk with something else at a path. -/
def Disk.put (d : Disk) (path : Wide) (n : Option Node) : Disk :=
  { d with node := fun p => if p = path then n else d.node p }

/-- file_win32.cc 45-50 `Str2Wstr`, for one byte: `std::copy` from `char`, which has a sign, to `wchar_t`, which has none. -/
def widen (b : UInt8) : UInt16 := if b < 0x80 then b.toUInt16 else 0xff00 + b.toUInt16

/-- file_win32.cc 45-50 `Str2Wstr`. -/
def str2wstr (s : List UInt8) : Wide := s.map widen

/-- `c_str()` of a `std::wstring`, as the system reads it. -/
def cstrW (s : Wide) : Wide := s.takeWhile (· ≠ 0)

/-- `c_str()` of a string with `strlen`. -/
def cstrB (s : List UInt8) : List UInt8 := s.takeWhile (· ≠ 0)

/-- file_win32.cc 54-60 `Wstr2Str`: the buffer has a byte for each character, and one zero more.  If that is too small
`WideCharToMultiByte` fails, and `junk` is in the buffer. -/
def wstr2str (cp : CodePage) (junk : Wide → List UInt8) (w : Wide) : List UInt8 :=
  (if (cp.encode w).length ≤ w.length then cp.encode w ++ List.replicate (w.length - (cp.encode w).length) 0 else junk w) ++ [0]

/-- file_win32.cc 62-70 `Exists`. -/
def fileExists (d : Disk) (path : List UInt8) : Bool :=
  if path = [] then false
  else match d.node (cstrW (str2wstr path)) with
    | some (.file _) => true
    | _ => false

/-- file_win32.cc 72-78 `Delete`: `DeleteFile` removes no directories. -/
def delete (d : Disk) (path : List UInt8) : Bool × Disk :=
  if path = [] then (false, d)
  else match d.node (cstrW (str2wstr path)) with
    | some (.file _) =>
        if d.writable (cstrW (str2wstr path)) then (true, d.put (cstrW (str2wstr path)) none) else (false, d)
    | _ => (false, d)

/-- file_win32.cc 88-106 `CreateNewTempFile` with an output: the path and the disk.  `dir` is what `GetTempPath` gives, `none` where
it fails or needs more space; `choose` is the name `GetTempFileName` chooses in it, if any: it makes an empty file where there is nothing. -/
def createNewTempFile (cp : CodePage) (junk : Wide → List UInt8) (d : Disk) (dir : Option Wide) (choose : Wide → Option Wide) :
    Option (List UInt8 × Disk) :=
  match dir.bind choose with
  | none => none
  | some w => if d.node w = none then some (cstrB (wstr2str cp junk w), d.put w (some (.file []))) else none

/-- tempfile.h 54-58, the destructor, on the disk. -/
def destroy (d : Disk) (path : List UInt8) : Disk := if fileExists d path then (delete d path).2 else d

end Kml.DiskWin
