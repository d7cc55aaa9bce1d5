import Verif.Model.Unzip
import Verif.Spec.Zip
/-! What it is for packed bytes to hold a file, and the CRC-32 of PKWARE's APPNOTE.TXT (4.4.7). -/
namespace Kml.Zip
open Kml.Unzip

/-- The decompressor makes `content` of `packed`, however the packed bytes are handed to it: there is a relation
between its state, the packed bytes still to come and the content still to come, which holds at the start and in
which each call, given at least one byte if any are left and room for all the content still to come, writes the
beginning of that content and either goes on or says that it is at the end with all of it written. -/
def Inflates (inf : Inflate) (packed content : Str) : Prop :=
  ∃ P : inf.State → Str → Str → Prop, P inf.init packed content ∧
    ∀ st inp out, P st inp out → out ≠ [] → ∀ k, k ≤ inp.length → (0 < k ∨ inp = []) →
      (inf.step st (inp.take k) out.length).2.1 ≤ k ∧
      ∃ rest, out = (inf.step st (inp.take k) out.length).2.2.1 ++ rest ∧
        (((inf.step st (inp.take k) out.length).1 = 1 ∧ rest = []) ∨
         ((inf.step st (inp.take k) out.length).1 = 0 ∧
          0 < (inf.step st (inp.take k) out.length).2.1 + (inf.step st (inp.take k) out.length).2.2.1.length ∧
          P (inf.step st (inp.take k) out.length).2.2.2 (inp.drop (inf.step st (inp.take k) out.length).2.1) rest))

/-- A member of an archive holds `content`: stored as it is, or deflated. -/
def Member.Holds (inf : Inflate) (m : Member) (content : Str) : Prop :=
  m.size = content.length ∧
  ((m.method = 0 ∧ m.packed = content) ∨ (m.method = 8 ∧ Inflates inf m.packed content))

/-- One bit of the CRC register. -/
def crcBit (r : Nat) : Nat := if r % 2 = 1 then (r / 2) ^^^ 0xedb88320 else r / 2

/-- One byte of the CRC register. -/
def crcByte (r : Nat) (c : Char) : Nat :=
  crcBit (crcBit (crcBit (crcBit (crcBit (crcBit (crcBit (crcBit (r ^^^ (c.toNat % 256)))))))))

/-- CRC-32. -/
def crc32 (s : Str) : Nat := (s.foldl crcByte 0xffffffff) ^^^ 0xffffffff

end Kml.Zip
