import Verif.Model.Ieee
import Verif.Model.Regionator
import Verif.Model.Lit

/-!
# Locales

How a C++ stream writes and reads numbers in its locale ([facet.num.put.virtuals], [facet.num.get.virtuals]), which
functions of the library give their streams the classic locale, and the class `LocaleC`.
-/

namespace Kml.Locale
open Kml.Ieee

/-- What a locale says of numbers, and the name of its other categories. -/
structure Loc where
  /-- the decimal point -/
  point : Char
  /-- what stands between groups of digits -/
  sep : Char
  /-- the sizes of the groups from the right; the last one is repeated, 0 ends the grouping, and none means no groups -/
  groups : List Nat
  /-- the other categories -/
  others : Str
  deriving DecidableEq

/-- `std::locale::classic()`, the locale "C". -/
def classic : Loc := ⟨'.', ',', [], ['C']⟩

/-- Digits from the right, put in groups: `g` is the size of this group, `k` the number of its digits so far. -/
def groupRev (sep : Char) : Nat → List Nat → Nat → Str → Str
  | _, _, _, [] => []
  | g, gs, k, c :: r =>
    if g ≠ 0 ∧ k = g then sep :: c :: groupRev sep (gs.headD g) gs.tail 1 r
    else c :: groupRev sep g gs (k + 1) r

/-- A row of digits put in groups. -/
def grouped (l : Loc) (ds : Str) : Str :=
  match l.groups with
  | [] => ds
  | g :: gs => (groupRev l.sep g gs 0 ds.reverse).reverse

/-- `stream << n` for a number without sign. -/
def putNat (l : Loc) (n : Nat) : Str := grouped l (Nat.toDigits 10 n)

/-- Digits before the point are put in groups, and the point is that of the locale; `t` is what the classic locale
writes. -/
def localized (l : Loc) (t : Str) : Str :=
  grouped l (t.takeWhile isDigit) ++ (t.dropWhile isDigit).map fun c => if c = '.' then l.point else c

/-- The same for a text that may have a sign. -/
def localizedSigned (l : Loc) : Str → Str
  | '-' :: t => '-' :: localized l t
  | t => localized l t

/-- `stream << x` for a double, with 15 digits. -/
def putDouble (l : Loc) (d : Bool × ℚ) : Str := localizedSigned l (writeDouble d)

/-- `stream << i` for an int. -/
def putInt (l : Loc) (i : ℤ) : Str := localizedSigned l (writeInt i)

/-- What is converted of the characters of the stream: the point of the locale counts as the point, separators are left
out.  (That groups of a wrong size set the failure bit is left out: the value is stored all the same, and nobody looks at
the bit.) -/
def collected (l : Loc) : Str → Str
  | [] => []
  | c :: r =>
    if c = l.point then '.' :: collected l r
    else if l.groups ≠ [] ∧ c = l.sep then collected l r
    else if c = '.' then []
    else c :: collected l r

/-- `stream >> x` for a double. -/
def getDouble (l : Loc) (s : Str) : Bool × ℚ := readDouble (collected l s)

/-- `stream >> i` for an int. -/
def getInt (l : Loc) (s : Str) : ℤ := readInt (collected l s)

/-- A stream has the global locale when it is made. -/
structure Stream where
  loc : Loc

/-- `std::stringstream ss;` -/
def Stream.new (global : Loc) : Stream := ⟨global⟩

/-- `ss.imbue(loc)` -/
def Stream.imbue (_ : Stream) (l : Loc) : Stream := ⟨l⟩

/-- src/kml/base/string_util.cc 84-91 `FromString` for doubles. -/
def fromStringDouble (global : Loc) (s : Str) : Bool × ℚ := getDouble ((Stream.new global).imbue classic).loc s

/-- src/kml/base/string_util.cc 93-106 `FromString` for ints. -/
def fromStringInt (global : Loc) (s : Str) : ℤ :=
  if s = [] then 0 else getInt ((Stream.new global).imbue classic).loc s

/-- src/kml/base/string_util.cc 129-135 `ToString` for doubles. -/
def toStringDouble (global : Loc) (d : Bool × ℚ) : Str := putDouble ((Stream.new global).imbue classic).loc d

/-- src/kml/base/string_util.h 90-97 `ToString` for ints. -/
def toStringInt (global : Loc) (i : ℤ) : Str := putInt ((Stream.new global).imbue classic).loc i

/-- src/kml/regionator/regionator_qid.h 55-59 `Qid::CreateChild`: `ss << quadrant`, the number of the enumerator. -/
def childQidIn (global : Loc) (qid : Str) (q : Geo.Quadrant) : Str :=
  qid ++ putNat (Stream.new global).loc (match q with | .nw => 0 | .ne => 1 | .sw => 2 | .se => 3)

/-- src/kml/regionator/regionator.cc 67-75 `RegionFilename` for a region that is not the root with a given name. -/
def fileNameIn (global : Loc) (n : Nat) : Str := putNat (Stream.new global).loc n ++ ['.', 'k', 'm', 'l']

/-- src/kml/base/expat_parser.cc 160-171 `ReportError`; `what` is `XML_ErrorString`. -/
def reportError (global : Loc) (what : Str) (line column : Nat) : Str :=
  what ++ (chars! " on line ") ++ putNat (Stream.new global).loc line ++ (chars! " at offset ") ++
    putNat (Stream.new global).loc column

/-! ## `LocaleC` -/

/-- A `locale_t`: `LC_GLOBAL_LOCALE`, or an object made by `newlocale`. -/
inductive Handle where
  | global
  | object (i : Nat)
  deriving DecidableEq

/-- The locales of a process, and the one of the thread. -/
structure World where
  global : Loc
  /-- the objects not freed yet -/
  live : List (Nat × Loc)
  next : Nat
  current : Handle

/-- What a function of the C library finds: `none` for an object that was freed. -/
def World.seen (w : World) : Option Loc :=
  match w.current with
  | .global => some w.global
  | .object i => w.live.lookup i

/-- src/kml/base/localec.cc 31-51: `newlocale(LC_NUMERIC_MASK, "C", 0)` gives "C" for all other categories too, since
there is no base; it may fail, and then `uselocale(0)` only tells the current locale.  For
Windows see `constructWin`. -/
def construct (w : World) (ok : Bool) : World × Handle :=
  if ok then
    ({ w with live := (w.next, classic) :: w.live, next := w.next + 1, current := .object w.next }, w.current)
  else (w, w.current)

/-- `freelocale`: undefined for the global locale and for an object that is not there. -/
def freelocale (w : World) : Handle → Outcome World
  | .global => .ub
  | .object i => if (w.live.lookup i).isSome then .ok { w with live := w.live.filter fun e => e.1 != i } else .ub

/-- src/kml/base/localec.cc 53-66.  `uselocale` never gave 0, so `previous_locale` is not null. -/
def destroy (w : World) (previous : Handle) : Outcome World := freelocale { w with current := previous } w.current

/-- A program with `LocaleC` objects in blocks. -/
inductive Prog where
  | skip
  /-- a call that looks at the locale -/
  | look
  | seq (p q : Prog)
  /-- `{ LocaleC c; p }`; `ok` says whether `newlocale` succeeds -/
  | block (ok : Bool) (p : Prog)

/-- Run it: what was seen. -/
def Prog.run : Prog → World → Outcome (World × List Loc)
  | .skip, w => .ok (w, [])
  | .look, w =>
    match w.seen with
    | some l => .ok (w, [l])
    | none => .ub
  | .seq p q, w =>
    (p.run w).bind fun a => (q.run a.1).bind fun b => .ok (b.1, a.2 ++ b.2)
  | .block ok p, w =>
    (p.run (construct w ok).1).bind fun a => (destroy a.1 (construct w ok).2).bind fun w' => .ok (w', a.2)

/-! ## `LocaleC` on Windows -/

/-- A `char*` that is not null: to a text of the C library, or to memory of `malloc` that is not freed yet. -/
inductive TextPtr where
  | library
  | allocated
  deriving DecidableEq

/-- `free`: undefined for what `malloc` did not give. -/
def free : TextPtr → Outcome Unit
  | .library => .ub
  | .allocated => .ok ()

/-- src/kml/base/localec.cc 34-41, Windows: the locale of the thread afterwards, and `previous_locale`, which is what
`setlocale(LC_NUMERIC, NULL)` returns: a text of the library.  Only the category of numbers is set. -/
def constructWin (l : Loc) : Loc × TextPtr :=
  ({ l with point := classic.point, sep := classic.sep, groups := classic.groups }, .library)

/-- src/kml/base/localec.cc 53-61, Windows; `named` is the locale the text names by then. -/
def destroyWin (l named : Loc) (previous : TextPtr) : Outcome Loc :=
  free previous >>= fun _ => .ok { l with point := named.point, sep := named.sep, groups := named.groups }

end Kml.Locale
