import Verif.Model.Lit
import Verif.Model.Basic
/-! The layout of ZIP archives (APPNOTE.TXT of PKWARE), written from that document and not from the code. -/
namespace Kml.Zip

/-- The number written in bytes, the lowest first. -/
def number : Str → Nat
  | [] => 0
  | c :: s => c.toNat % 256 + 256 * number s

/-- The bytes at a place. -/
def bytes (d : Str) (pos n : Nat) : Str := (d.drop pos).take n

/-- The number in `k` bytes, the lowest first. -/
def le : Nat → Nat → Str
  | 0, _ => []
  | k + 1, v => Char.ofNat (v % 256) :: le k (v / 256)

/-- A row of numbers, each with its width in bytes. -/
def row (fs : List (Nat × Nat)) : Str := fs.flatMap fun f => le f.1 f.2

/-- A file of an archive. -/
structure Member where
  name : Str
  /-- the bytes as they are in the archive, compressed or not -/
  packed : Str
  /-- 0 stored, 8 deflated -/
  method : Nat
  /-- length of the file itself -/
  size : Nat
  crc : Nat
  flags : Nat
  time : Nat
  version : Nat
  needed : Nat
  internal : Nat
  external : Nat
  /-- extra fields of the local header and of the directory, and the comment -/
  extra : Str
  dirExtra : Str
  comment : Str
  /-- CRC and sizes as the local header has them -/
  localCrc : Nat
  localPacked : Nat
  localSize : Nat
  /-- what follows the bytes (a data descriptor) -/
  after : Str

/-- 4.3.7 local file header, 4.3.8 file data, 4.3.9 data descriptor. -/
def record (m : Member) : Str :=
  row [(4, 0x04034b50), (2, m.needed), (2, m.flags), (2, m.method), (4, m.time), (4, m.localCrc),
    (4, m.localPacked), (4, m.localSize), (2, m.name.length), (2, m.extra.length)] ++
  (m.name ++ (m.extra ++ (m.packed ++ m.after)))

/-- 4.3.12 the entry of the central directory for a file whose local header is at `offset`. -/
def dirEntry (m : Member) (offset : Nat) : Str :=
  row [(4, 0x02014b50), (2, m.version), (2, m.needed), (2, m.flags), (2, m.method), (4, m.time), (4, m.crc),
    (4, m.packed.length), (4, m.size), (2, m.name.length), (2, m.dirExtra.length), (2, m.comment.length), (2, 0),
    (2, m.internal), (4, m.external), (4, offset)] ++
  (m.name ++ (m.dirExtra ++ m.comment))

/-- The files one after the other. -/
def body (ms : List Member) : Str := ms.flatMap record

/-- The central directory, for files that begin at `offset`. -/
def directory : Nat → List Member → Str
  | _, [] => []
  | offset, m :: ms => dirEntry m offset ++ directory (offset + (record m).length) ms

/-- 4.3.16 end of central directory record, with the comment of the archive. -/
def endRecord (ms : List Member) (comment : Str) : Str :=
  row [(4, 0x06054b50), (2, 0), (2, 0), (2, ms.length), (2, ms.length), (4, (directory 0 ms).length),
    (4, (body ms).length), (2, comment.length)] ++ comment

/-- 4.3.6 the whole archive. -/
def archive (ms : List Member) (comment : Str) : Str :=
  body ms ++ (directory 0 ms ++ endRecord ms comment)

/-- The numbers of a file fit their fields, and the local header agrees with the directory (unless bit 3 of the
flags says that the sizes come after the bytes). -/
structure Member.Fits (m : Member) : Prop where
  name : m.name.length < 65536
  extra : m.extra.length < 65536
  dirExtra : m.dirExtra.length < 65536
  comment : m.comment.length < 65536
  method : m.method < 65536
  size : m.size < 4294967296
  crc : m.crc < 4294967296
  flags : m.flags < 65536
  time : m.time < 4294967296
  version : m.version < 65536
  needed : m.needed < 65536
  internal : m.internal < 65536
  external : m.external < 4294967296
  localCrc : m.localCrc < 4294967296
  localPacked : m.localPacked < 4294967296
  localSize : m.localSize < 4294967296
  agrees : m.flags.testBit 3 = false → m.localCrc = m.crc ∧ m.localPacked = m.packed.length ∧ m.localSize = m.size

/-- The four bytes that begin an end record. -/
def endMark : Str := ['P', 'K', '\x05', '\x06']

/-- `p` is a place of the data with the mark of an end record. -/
def MarkAt (d : Str) (p : Nat) : Prop := number (bytes d p 4) = 0x06054b50 ∧ p + 4 ≤ d.length

/-- An archive of less than 2 GB whose numbers fit, with a comment short enough that its end record is in the last
65535 bytes, and in which no later four bytes look like the mark of an end record. -/
structure Sound (ms : List Member) (comment : Str) : Prop where
  members : ∀ m ∈ ms, m.Fits
  count : ms.length < 65535
  size : (archive ms comment).length < 2147483647
  tail : comment.length + 22 ≤ 65535
  mark : ∀ p, (body ms ++ directory 0 ms).length < p → ¬ MarkAt (archive ms comment) p

end Kml.Zip
