import Verif.Model.Unzip
/-! Model of a `KmzFile` as an object one calls functions of, `src/kml/engine/kmz_file.cc` over
`src/kml/base/zip_file.cc`.  One class has both the archives opened and the archives being made.  What the writer of
archives (zlib's minizip) puts on the disk is not here: see `Model/KmzWrite.lean` and `Model/Disk.lean`. -/
namespace Kml.KmzObject
open Kml.StringUtil

/-- zip_file.h 113-116: the members of a `ZipFile`, which are those of a `KmzFile` (kmz_file.h 171).  `writer` is
what has been written through `minizip_file_`, `none` when that is NULL. -/
structure Obj where
  data : Str
  toc : List Str
  max : Nat
  writer : Option (List ZipFile.Entry)
deriving DecidableEq

/-- contrib/minizip/unzip.h 60 and zip_file.cc 41: the largest size read if none is set. -/
def defaultMax : Nat := 2147483647

/-- kmz_file.cc 67-72 `OpenFromString`, zip_file.cc 59-61 and 89-112. -/
def openFromString (d : Str) : Outcome (Option Obj) :=
  Unzip.openFromString d >>= fun t => .ok (t.map fun t => ⟨d, t, defaultMax, none⟩)

/-- kmz_file.cc 133-139 `Create`, zip_file.cc 76-86 and 113-115, when the file could be made. -/
def created : Obj := ⟨[], [], defaultMax, some []⟩

/-- zip_file.cc 171-205 `GetEntry` with an `output` that is NULL: nothing is uncompressed. -/
def hasEntry (caseCounts : Bool) (max : Nat) (d : Str) (toc : List Str) (path : Str) : Outcome Bool :=
  if path ∈ toc then
    Unzip.attach d >>= fun u =>
      match u with
      | none => .ok false
      | some u =>
        Unzip.locate caseCounts d u (path.takeWhile fun c => c ≠ '\x00') >>= fun l =>
          match l with
          | none => .ok false
          | some u =>
            match u.cur with
            | none => .ok false
            | some c =>
              Unzip.localHeader d u.before c >>= fun p =>
                match p with
                | none => .ok false
                | some _ =>
                  Unzip.fileInfo d (u.pos + u.before) none >>= fun i =>
                    match i with
                    | none => .ok false
                    | some i => .ok (!(i.1.usize = 0 ∨ i.1.usize > max))
  else .ok false

/-- The functions of a `KmzFile` (kmz_file.h 69-119), with pointers to results that are not NULL except in `has`. -/
inductive Call where
  /-- `ReadKmlAndGetPath` -/
  | readKml
  /-- `ReadFile`; the path is the characters before the NUL, `none` is NULL -/
  | readFile (path : Option Str)
  /-- `ReadFile` with NULL for the result -/
  | has (path : Str)
  /-- `List` into a vector that has these names -/
  | list (vector : List Str)
  /-- `SaveToString` -/
  | save
  /-- `AddFile` -/
  | add (data path : Str)
  /-- `set_max_uncompressed_file_size` -/
  | setMax (n : UInt32)
  /-- `get_max_uncompressed_file_size` -/
  | getMax

/-- What a call gives. -/
inductive Ans where
  /-- false, or the content -/
  | text (t : Option Str)
  /-- false, or the content and the name -/
  | named (t : Option (Str × Str))
  /-- the names in the vector afterwards -/
  | names (l : List Str)
  | flag (b : Bool)
  | number (n : UInt32)
  | nothing
deriving DecidableEq

/-- kmz_file.cc 78-143, each function as it calls zip_file.cc 126-239. -/
def call (inf : Unzip.Inflate) (caseCounts : Bool) (o : Obj) : Call → Outcome (Ans × Obj)
  | .readKml =>
      match o.toc.find? fun n => stringEndsWith n ".kml".toList with
      | none => .ok (.named none, o)
      | some name =>
        Unzip.getEntry inf caseCounts o.max o.data o.toc name >>= fun t => .ok (.named (t.map fun t => (t, name)), o)
  | .readFile none => .ub
  | .readFile (some path) =>
      Unzip.getEntry inf caseCounts o.max o.data o.toc path >>= fun t => .ok (.text t, o)
  | .has path => hasEntry caseCounts o.max o.data o.toc path >>= fun b => .ok (.flag b, o)
  | .list _ => .ok (.names o.toc, o)
  | .save => .ok (.text (some o.data), o)
  | .add data path =>
      let r := ZipFile.addEntry o.writer data path
      .ok (.flag r.1, { o with writer := r.2 })
  | .setMax n => .ok (.nothing, { o with max := n.toNat })
  | .getMax => .ok (.number (UInt32.ofNat o.max), o)

/-- A history of calls: what each gave, and the object afterwards.  Not in the code: the caller. -/
def run (inf : Unzip.Inflate) (caseCounts : Bool) (o : Obj) : List Call → Outcome (List Ans × Obj)
  | [] => .ok ([], o)
  | c :: cs => call inf caseCounts o c >>= fun a => run inf caseCounts a.2 cs >>= fun r => .ok (a.1 :: r.1, r.2)

end Kml.KmzObject
