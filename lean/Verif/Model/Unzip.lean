import Verif.Model.ZipFile
/-! Model of the reading of archives, byte by byte: `src/kml/base/contrib/minizip/iomem_simple.c` (the memory
stream), `src/kml/base/contrib/minizip/unzip.c` (the reader of archives, which libkml keeps a copy of) and the two
functions of `src/kml/base/zip_file.cc` that use it.

A `Char` stands for a byte.  `int` has 32 bits and `long` 64.  `malloc` and `new` never fail.  zlib's `inflate` is a
parameter.  A position past the end of the data may be held, though the standard does not let a pointer be formed
from it; only reading or writing outside a buffer counts as undefined behaviour here. -/
namespace Kml.Unzip

/-- The number a byte stands for. -/
def val (c : Char) : Nat := c.toNat % 256

/-- `memcpy` of `n` bytes at `pos` of the data into a buffer that has room for `room` bytes. -/
def memcpy (d : Str) (pos n room : Nat) : Outcome Str :=
  if n = 0 then .ok []
  else if pos + n ≤ d.length ∧ n ≤ room then .ok ((d.drop pos).take n) else .ub

/-- iomem_simple.c 124-155 `mem_read`: what is read and the position afterwards.  Positions are never negative: they
come from unsigned fields. -/
def read (d : Str) (pos n room : Nat) : Outcome (Str × Nat) :=
  if pos ≥ 2147483647 then .ok ([], pos)
  else
    let n' := if pos + n > d.length then d.length - pos else n
    memcpy d pos n' room >>= fun s => .ok (s, pos + n')

/-- unzip.c 202-221 `unzlocal_getByte`. -/
def getByte (d : Str) (pos : Nat) : Outcome (Option Nat × Nat) :=
  read d pos 1 1 >>= fun r => .ok (match r.1 with | [c] => some (val c) | _ => none, r.2)

/-- unzip.c 232-253 `unzlocal_getShort` (2 bytes) and 260-289 `unzlocal_getLong` (4 bytes): little-endian, stopping
at the first byte that cannot be read; `none` is the error, for which the value is set to 0. -/
def getLE (d : Str) : Nat → Nat → Outcome (Option Nat × Nat)
  | 0, pos => .ok (some 0, pos)
  | k + 1, pos => getByte d pos >>= fun r =>
      match r.1 with
      | none => .ok (none, r.2)
      | some b => getLE d k r.2 >>= fun r' => .ok (r'.1.map (fun x => b + 256 * x), r'.2)

/-- A row of fields of the given widths, each read even when an earlier one failed (unzip.c 653-698, 1034-1077,
1709-1744): the values, whether all were read, and the position. -/
def fields (d : Str) : List Nat → Nat → Outcome (List Nat × Bool × Nat)
  | [], pos => .ok ([], true, pos)
  | k :: ks, pos => getLE d k pos >>= fun r => fields d ks r.2 >>= fun r' =>
      .ok (r.1.getD 0 :: r'.1, r.1.isSome && r'.2.1, r'.2.2)

/-- A byte of a buffer of which only the bytes of `b` have been written. -/
def byteAt (b : Str) (i : Nat) : Outcome Nat :=
  match b[i]? with
  | some c => .ok (val c)
  | none => .ub

/-- unzip.c 405-406: the four bytes of the signature of the end record, compared one after the other. -/
def signature (b : Str) (i : Nat) : Outcome Bool :=
  byteAt b i >>= fun x => if x ≠ 0x50 then .ok false else
  byteAt b (i + 1) >>= fun x => if x ≠ 0x4b then .ok false else
  byteAt b (i + 2) >>= fun x => if x ≠ 0x05 then .ok false else
  byteAt b (i + 3) >>= fun x => .ok (x = 0x06)

/-- unzip.c 404-410: the last place in the buffer, searched backwards. -/
def scan (b : Str) : Nat → Outcome (Option Nat)
  | 0 => .ok none
  | i + 1 => signature b i >>= fun s => if s then .ok (some i) else scan b i

/-- unzip.c 386-414: the loop over the pieces of 0x400 bytes, from the end.  `fuel` bounds the turns. -/
def searchLoop (d : Str) (maxBack : Nat) : Nat → Nat → Outcome Nat
  | 0, _ => .ok 0
  | fuel + 1, back =>
      if back < maxBack then
        let back' := if back + 0x400 > maxBack then maxBack else back + 0x400
        let pos := d.length - back'
        let n := if 0x404 < d.length - pos then 0x404 else d.length - pos
        read d pos n 0x404 >>= fun r =>
          if r.1.length ≠ n then .ok 0
          else scan r.1 (n - 3) >>= fun i =>
            match i with
            | some i => if pos + i ≠ 0 then .ok (pos + i) else searchLoop d maxBack fuel back'
            | none => searchLoop d maxBack fuel back'
      else .ok 0

/-- unzip.c 362-417 `unzlocal_SearchCentralDir`; 0 stands for "not found". -/
def search (d : Str) : Outcome Nat :=
  let maxBack := if 0xffff > d.length then d.length else 0xffff
  searchLoop d maxBack maxBack 4

/-- unzip.h `unz_file_info` and unzip.c 98-101 `unz_file_info_internal`: what the directory says of a file, as far
as it is used. -/
structure Info where
  flag : Nat
  method : Nat
  crc : Nat
  csize : Nat
  usize : Nat
  nameLen : Nat
  extraLen : Nat
  commentLen : Nat
  offset : Nat
  deriving DecidableEq, Repr

/-- unzip.c 653-698: which of the fields are which. -/
def infoOf (f : List Nat) : Info :=
  { flag := f.getD 2 0, method := f.getD 3 0, crc := f.getD 5 0, csize := f.getD 6 0, usize := f.getD 7 0,
    nameLen := f.getD 8 0, extraLen := f.getD 9 0, commentLen := f.getD 10 0, offset := f.getD 14 0 }

/-- unzip.c 701-718: the name, into a buffer of `room` bytes: what was written into that buffer, or `none` if the
data end before.  The NUL is written only if there is room for it. -/
def readName (d : Str) (nameLen pos room : Nat) : Outcome (Option Str) :=
  let n := if nameLen < room then nameLen else room
  if 0 < nameLen ∧ 0 < room then
    read d pos n room >>= fun r =>
      if r.1.length ≠ n then .ok none
      else .ok (some (if nameLen < room then r.1 ++ ['\x00'] else r.1))
  else .ok (some (if nameLen < room then ['\x00'] else []))

/-- unzip.c 611-785 `unzlocal_GetCurrentFileInfoInternal` at a place of the data.  `room` is the size of the buffer
for the name, if there is one; the answer has what was written into that buffer.  Nobody asks for the extra field or
the comment (721-777), and the date (668) is not used. -/
def fileInfo (d : Str) (pos : Nat) (room : Option Nat) : Outcome (Option (Info × Str)) :=
  getLE d 4 pos >>= fun m => fields d [2, 2, 2, 2, 4, 4, 4, 4, 2, 2, 2, 2, 2, 4, 4] m.2 >>= fun f =>
    if m.1 = some 0x02014b50 ∧ f.2.1 = true then
      match room with
      | none => .ok (some (infoOf f.1, []))
      | some room => readName d (infoOf f.1).nameLen f.2.2 room >>= fun b =>
          .ok (b.map fun b => (infoOf f.1, b))
    else .ok none

/-- unzip.c 130-159 `unz_s`: the reader.  `cur` is the current file, `none` when `current_file_ok` is 0. -/
structure Unz where
  entries : Nat
  before : Nat
  offsetDir : Nat
  pos : Nat
  num : Nat
  cur : Option Info
  deriving DecidableEq, Repr

/-- unzip.c 818-833 `unzGoToFirstFile`. -/
def goToFirst (d : Str) (u : Unz) : Outcome (Bool × Unz) :=
  fileInfo d (u.offsetDir + u.before) none >>= fun r =>
    .ok (r.isSome, { u with pos := u.offsetDir, num := 0, cur := r.map Prod.fst })

/-- unzip.c 840-863 `unzGoToNextFile`; `false` at the end of the list and on an error. -/
def goToNext (d : Str) (u : Unz) : Outcome (Bool × Unz) :=
  match u.cur with
  | none => .ok (false, u)
  | some c =>
      if u.entries ≠ 0xffff ∧ u.num + 1 = u.entries then .ok (false, u)
      else
        let pos := u.pos + 0x2e + c.nameLen + c.extraLen + c.commentLen
        fileInfo d (pos + u.before) none >>= fun r =>
          .ok (r.isSome, { u with pos := pos, num := u.num + 1, cur := r.map Prod.fst })

/-- unzip.c 1664-1766 `unzAttach`. -/
def attach (d : Str) : Outcome (Option Unz) :=
  search d >>= fun c => getLE d 4 c >>= fun m => fields d [2, 2, 2, 2, 4, 4, 2] m.2 >>= fun f =>
    if c ≠ 0 ∧ m.1.isSome = true ∧ f.2.1 = true ∧ f.1.getD 3 0 = f.1.getD 2 0 ∧ f.1.getD 1 0 = 0 ∧
        f.1.getD 0 0 = 0 ∧ ¬ c < f.1.getD 5 0 + f.1.getD 4 0 then
      goToFirst d
        { entries := f.1.getD 2 0, before := c - (f.1.getD 5 0 + f.1.getD 4 0), offsetDir := f.1.getD 5 0,
          pos := 0, num := 0, cur := none } >>= fun r => .ok (some r.2)
    else .ok none

/-- The C string in a buffer whose written part is `b`: reading goes past what was written if there is no NUL. -/
def cstring (b : Str) : Outcome Str :=
  if '\x00' ∈ b then .ok (b.takeWhile fun c => c ≠ '\x00') else .ub

/-- zip_file.cc 100-106: the loop of the constructor, with its buffer of 1024 bytes.  `fuel` bounds the turns. -/
def tocLoop (d : Str) : Nat → Unz → Outcome (List Str)
  | 0, _ => .ok []
  | fuel + 1, u =>
      fileInfo d (u.pos + u.before) (some 1024) >>= fun r =>
        (match r with
         | some x => cstring x.2 >>= fun n => .ok [n]
         | none => .ok []) >>= fun names =>
        goToNext d u >>= fun g =>
          if g.1 then tocLoop d fuel g.2 >>= fun rest => .ok (names ++ rest) else .ok names

/-- zip_file.cc 89-110, the constructor: the table of contents of the data. -/
def contents (d : Str) : Outcome (List Str) :=
  attach d >>= fun u =>
    match u with
    | none => .ok []
    | some u => tocLoop d (d.length + 1) u

/-- zip_file.cc 122-124 `IsZipData`. -/
def isZipData (d : Str) : Bool := d.take 4 = ['P', 'K', '\x03', '\x04']

/-- zip_file.cc 59-61 `OpenFromString`: the table of contents of the object made, `none` for NULL. -/
def openFromString (d : Str) : Outcome (Option (List Str)) :=
  if isZipData d then contents d >>= fun t => .ok (some t) else .ok none

/-- unzip.c 301-304: the upper case of an ASCII letter. -/
def upper (c : Char) : Char := if 'a' ≤ c ∧ c ≤ 'z' then Char.ofNat (c.toNat - 0x20) else c

/-- unzip.c 301-312 and `strcmp`: whether two characters count as the same. -/
def sameChar (caseCounts : Bool) (c p : Char) : Bool :=
  if caseCounts then decide (c = p) else decide (upper c = upper p)

/-- unzip.c 336-348 `unzStringFileNameCompare`: whether the C string in a buffer whose written part is the first
argument equals the second, a C string without its NUL.  `strcmp` and 293-314 read on while the bytes agree. -/
def sameName (caseCounts : Bool) : Str → Str → Outcome Bool
  | [], _ => .ub
  | c :: _, [] => .ok (c = '\x00')
  | c :: b, p :: ps =>
      if sameChar caseCounts c p then
        if c = '\x00' then .ok true else sameName caseCounts b ps
      else .ok false

/-- unzip.c 909-922: the loop of `unzLocateFile`, with its buffer of 257 bytes of which 256 are offered. -/
def locateLoop (caseCounts : Bool) (d path : Str) : Nat → Unz → Outcome (Option Unz)
  | 0, _ => .ok none
  | fuel + 1, u =>
      fileInfo d (u.pos + u.before) (some 256) >>= fun r =>
        match r with
        | none => .ok none
        | some x => sameName caseCounts x.2 path >>= fun same =>
            if same then .ok (some u)
            else goToNext d u >>= fun g => if g.1 then locateLoop caseCounts d path fuel g.2 else .ok none

/-- unzip.c 874-932 `unzLocateFile`; `none` for any answer but `UNZ_OK`, after which the reader is not used. -/
def locate (caseCounts : Bool) (d : Str) (u : Unz) (path : Str) : Outcome (Option Unz) :=
  if path.length ≥ 256 then .ok none
  else if u.cur.isNone then .ok none
  else goToFirst d u >>= fun g =>
    if g.1 then locateLoop caseCounts d path (d.length + 1) g.2 else .ok none

/-- unzip.c 1007-1086 `unzlocal_CheckCurrentFileCoherencyHeader`: `none` for an error, else where in the data the
bytes of the file begin (1203-1205 and 1318-1319). -/
def localHeader (d : Str) (before : Nat) (c : Info) : Outcome (Option Nat) :=
  getLE d 4 (c.offset + before) >>= fun m => fields d [2, 2, 2, 4, 4, 4, 4, 2, 2] m.2 >>= fun f =>
    if m.1 = some 0x04034b50 ∧ f.2.1 = true ∧ f.1.getD 2 0 = c.method ∧ (c.method = 0 ∨ c.method = 8) ∧
        (f.1.getD 4 0 = c.crc ∨ (f.1.getD 1 0).testBit 3 = true) ∧
        (f.1.getD 5 0 = c.csize ∨ (f.1.getD 1 0).testBit 3 = true) ∧
        (f.1.getD 6 0 = c.usize ∨ (f.1.getD 1 0).testBit 3 = true) ∧ f.1.getD 7 0 = c.nameLen then
      .ok (some (c.offset + 0x1e + (f.1.getD 7 0 + f.1.getD 8 0) + before))
    else .ok none

/-- zlib's `inflate` on a raw stream: from a state, the bytes on offer and the room there is, the return code (0 is
`Z_OK`, 1 `Z_STREAM_END`), how many bytes were taken, what was written, and the state afterwards. -/
structure Inflate where
  State : Type
  init : State
  step : State → Str → Nat → Int × Nat × Str × State

/-- The conversion of an `unsigned int` to `int`. -/
def toInt (n : Nat) : Int :=
  if n % 4294967296 < 2147483648 then ((n % 4294967296 : Nat) : Int) else ((n % 4294967296 : Nat) : Int) - 4294967296

/-- unzip.c 1306-1421: the loop of `unzReadCurrentFile`.  `pos` is where the next bytes are read, `rest` the
compressed bytes not yet read, `inp` those read and not yet used, `room` the free part of the caller's buffer and
`out` what has been written to it.  The answer has the return value.  The CRC computed on the way (1368, 1403) is
compared only by `unzCloseCurrentFile` (1551), whose answer nobody looks at.  The data are never taken for encrypted:
there is no password (1211-1231). -/
def readLoop (inf : Inflate) (d : Str) (method : Nat) :
    Nat → Nat → Nat → Str → Nat → Str → inf.State → Outcome (Int × Str)
  | 0, _, _, _, _, out, _ => .ok (0, out)
  | fuel + 1, pos, rest, inp, room, out, st =>
      if room = 0 then .ok (toInt out.length, out)
      else
        (if inp = [] ∧ 0 < rest then
          let n := if rest < 16384 then rest else 16384
          read d pos n 16384 >>= fun r =>
            if r.1.length ≠ n then .ok none else .ok (some (pos + n, rest - n, r.1))
         else .ok (some (pos, rest, inp))) >>= fun x =>
        match x with
        | none => .ok (-1, out)
        | some (pos, rest, inp) =>
            if method = 0 then
              if inp = [] ∧ rest = 0 then .ok (toInt out.length, out)
              else
                let n := if room < inp.length then room else inp.length
                readLoop inf d method fuel pos rest (inp.drop n) (room - n) (out ++ inp.take n) st
            else
              let s := inf.step st inp room
              if s.2.1 ≤ inp.length ∧ s.2.2.1.length ≤ room then
                if s.1 = 1 then .ok (toInt (out ++ s.2.2.1).length, out ++ s.2.2.1)
                else if s.1 ≠ 0 then .ok (s.1, out ++ s.2.2.1)
                else readLoop inf d method fuel pos rest (inp.drop s.2.1) (room - s.2.2.1.length)
                  (out ++ s.2.2.1) s.2.2.2
              else .ub

/-- zip_file.cc 171-218 `GetEntry` on an object with this data and table of contents, with an `output` that is not
NULL.  `path_in_zip.c_str()` ends at the first NUL.  The bytes of `filedata` that were never written are not to be
read. -/
def getEntry (inf : Inflate) (caseCounts : Bool) (max : Nat) (d : Str) (toc : List Str) (path : Str) :
    Outcome (Option Str) :=
  if path ∈ toc then
    attach d >>= fun u =>
      match u with
      | none => .ok none
      | some u =>
        locate caseCounts d u (path.takeWhile fun c => c ≠ '\x00') >>= fun l =>
          match l with
          | none => .ok none
          | some u =>
            match u.cur with
            | none => .ok none
            | some c =>
              localHeader d u.before c >>= fun p =>
                match p with
                | none => .ok none
                | some p =>
                  fileInfo d (u.pos + u.before) none >>= fun i =>
                    match i with
                    | none => .ok none
                    | some i =>
                      if i.1.usize = 0 ∨ i.1.usize > max then .ok none
                      else
                        readLoop inf d c.method (c.usize + c.csize + 1) p c.csize []
                            (if i.1.usize > c.usize then c.usize else i.1.usize) [] inf.init >>= fun r =>
                          if r.1 = toInt i.1.usize then
                            if i.1.usize ≤ r.2.length then .ok (some (r.2.take i.1.usize)) else .ub
                          else .ok none
  else .ok none

end Kml.Unzip
