import Verif.Model.Classes
import Verif.Model.Xsd
import Verif.Model.Attributes
import Verif.Model.Coordinates
import Verif.Model.Color32
import Verif.Model.StringUtil

/-!
# Elements: attributes, children, `AddElement`

An element is either a simple one (`Field`, element.h 289-330: a type and character data) or an
instance of one of the classes of `Verif/Model/Classes.lean`.  An instance is its type, its
attributes, the contents of its data members, and the two lists every element has for misplaced and
for unknown children (element.h 236-240).

Every data member is a list: empty when it is not set, one item when it is a single value that is set,
all items when it is an array.  A simple value is kept as the `Field` that would be written for it, its
text being the one the serializer writes for the value: a number as `ToString` prints it, a boolean as
0 or 1, an enumeration value by name, a colour in hexadecimal.

Not kept: the character data of elements that are not text elements, and children and attributes of
simple elements; none of them is ever written or looked at again.  The value of a member that is not
set is not kept either.
-/

namespace Kml.Dom

open Kml
open Kml.Attributes (Attributes)

/-- The attributes of an element: those its class knows (object.h, vec2.h, ... `id_`, `has_id_`, ...),
as text; `unknown_attributes_` and `xmlns_` (element.h 244-246), empty when NULL. -/
structure Attrs where
  known : StdMap Str
  unknown : Attributes
  xmlns : Attributes
  deriving DecidableEq, Repr

/-- No attributes. -/
def Attrs.empty : Attrs := ⟨[], [], []⟩

/-- An element (see the head of this file). -/
inductive Elem where
  | field (ty : Ty) (text : Str)
  | node (ty : Ty) (attrs : Attrs) (slots : Mem → List Elem) (misplaced : List Elem)
      (unknown : List Str)

/-- element.h 61 `Type()`. -/
def Elem.ty : Elem → Ty
  | .field t _ => t
  | .node t _ _ _ _ => t

/-- kml_factory.cc 46-138 `CreateElementById`: the class that is instantiated; `none` is NULL. -/
def classOf (t : Ty) : Option Class := (classes.find? fun e => e.1 = t).map (·.2)

/-- The class of an instance; every type that is instantiated has one. -/
def classAt (t : Ty) : Class := (classOf t).getD ⟨t, [], [], [], [], []⟩

/-- A newly created instance: no member is set. -/
def newNode (t : Ty) : Elem := .node t .empty (fun _ => []) [] []

/-- `IsA` of an element: element.h 62-64 for a `Field`, the class's own otherwise. -/
def Elem.isA (e : Elem) (t : Ty) : Bool :=
  match e with
  | .field t' _ => t' = t
  | .node t' _ _ _ _ =>
    match classOf t' with
    | some c => t ∈ c.isA
    | none => t' = t

/-! ## Values -/

/-- A text on which `>>` finds nothing to read: the target keeps its value. -/
def blank (s : Str) : Bool := s.all isSpace

/-- string_util.cc 84-90 `FromString(const string&, double*)`: `old` is the text of the value before. -/
def readDouble (n : NumLib) (old text : Str) : Str := if blank text then old else n.num text

/-- string_util.cc 92-104 `FromString(const string&, int*)`. -/
def readInt (n : NumLib) (old text : Str) : Str :=
  if text = [] then ['0'] else if blank text then old else n.int text

/-- link.cc 46-58 `SetStringInsideCdata`: a text that starts with a CDATA mark loses it and its last
three characters.  (For a text of fewer than 12 characters the length passed to `substr` wraps around,
which keeps everything.) -/
def insideCdata (text : Str) : Str :=
  if (chars! "<![CDATA[").isPrefixOf text then
    if text.length < 12 then text.drop 9 else (text.drop 9).take (text.length - 12)
  else text

/-- `SplitStringUsing(s, " ", ...)` (string_util.cc 63-72): the pieces between blanks. -/
def splitBlank : Str → List Str
  | [] => [[]]
  | c :: s =>
    if c = ' ' then [] :: splitBlank s
    else
      match splitBlank s with
      | [] => [[c]]
      | p :: ps => (c :: p) :: ps

/-- Pieces joined by blanks. -/
def joinBlank : List Str → Str
  | [] => []
  | [p] => p
  | p :: ps => p ++ ' ' :: joinBlank ps

/-- liststyle.cc 52-66 (`ItemIcon::AddElement`, `Type_state`) and 79-90 (`Serialize`): the pieces that
are values of `Type_state`, joined by blanks.  The array holds numbers; the text written for them is the
names again. -/
def readStates (text : Str) : Str :=
  joinBlank ((splitBlank text).filter fun s => (Xsd.enumId Ty.«state» s).isSome)

/-- geometry.cc 554-570 `GxTrack::Parse`, and serializer.cc 103-109 `SaveSimpleVec3` with " ": the first
three numbers; missing ones are 0.  A blank piece leaves the number uninitialised.  (The loop ends after
the fourth piece, which is read but ignored by `Vec3::set`.) -/
def readTriple (n : NumLib) (text : Str) : Outcome Str :=
  let pieces := (splitBlank text).take 4
  if pieces.any blank then .ub
  else .ok (joinBlank (((pieces.take 3).map n.num ++ [['0'], ['0'], ['0']]).take 3))

/-- color32.h 50-52, 127-154 and 106-118: the text written for the colour read from a text.  (The
constructor leaves the old value unset before each of its four bytes is overwritten; 0 stands for it.) -/
def readColor (text : Str) : Outcome Str := do
  let c ← Color32.setFromString 0 text
  .ok (Color32.toStringAbgr c)

/-- The text a simple member of the given kind is written with after it was set from a `Field` of type
`t` with the given text; `none` when the member is then not set.  `old` is the text of the value before,
if the member was set.
 * `str`, `bool`, `dbl`, `int`: element.cc 178-224 `SetString`, `SetBool`, `SetDouble`, `SetInt`;
 * `enum`: element.cc 205-214 `SetEnum`: a text that is not a value leaves the member not set;
 * the others: see above. -/
def readValue (n : NumLib) (k : Kind) (t : Ty) (old : Option Str) (text : Str) :
    Outcome (Option Str) :=
  match k with
  | .str => .ok (some text)
  | .bool => .ok (some (StringUtil.boolToString (StringUtil.boolFromString text)))
  | .enum => .ok (if (Xsd.enumId t text).isSome then some text else none)
  | .color => do
    let s ← readColor text
    .ok (some s)
  | .cdata => .ok (some (insideCdata text))
  | .states => .ok (some (readStates text))
  | .vec3 => do
    let s ← readTriple n text
    .ok (some s)
  | .dbl d => .ok (some (readDouble n (old.getD d) text))
  | .int d => .ok (some (readInt n (old.getD d) text))

/-- The text of a simple member that holds one value. -/
def single : List Elem → Option Str
  | [.field _ s] => some s
  | _ => none

/-! ## `AddElement` -/

/-- The tests of the branches of `AddElement`. -/
def Test.matches (e : Elem) : Test → Bool
  | .ty t => e.ty = t
  | .isA t => e.isA t
  | .any => true

/-- The first branch that takes the child. -/
def findRule (rules : List Rule) (e : Elem) : Option Act :=
  (rules.find? fun r => r.1.matches e).map (·.2)

/-- Replace one member. -/
def setSlot (slots : Mem → List Elem) (m : Mem) (v : List Elem) : Mem → List Elem :=
  fun i => if i = m then v else slots i

/-- The points of a coordinates element, as they are written (xml_serializer.h 160-172). -/
def pointText (v : Coords.Vec3) : Str := v.lon ++ ',' :: v.lat ++ ',' :: v.alt

/-- geometry.cc 166-176 `Coordinates::Parse` with as many rounds as it can need: each round that
succeeds consumes a character and a round that fails is repeated for ever.  An endless loop is
undefined behaviour in C++. -/
def readPoints (n : NumLib) (text : Str) : Outcome (List Elem) :=
  match Coords.parse n text.length text [] with
  | some r => do
    let pts ← r
    .ok (pts.map fun v => .field Ty.Unknown (pointText v))
  | none => .ub

/-- One branch of `AddElement`, on the members of the element.  `charData` is the element's own
character data (element.h 67-71), which is empty until the element ends. -/
def Act.apply (n : NumLib) (charData : Str) (slots : Mem → List Elem) (child : Elem) :
    Act → Outcome (Mem → List Elem)
  | .field m k =>
    match child with
    | .field t text => do
      let v ← readValue n k t (single (slots m)) text
      .ok (setSlot slots m (v.map (Elem.field t)).toList)
    | .node .. => .ok (setSlot slots m [])
  | .fields m k =>
    match child with
    | .field t text => do
      let v ← readValue n k t none text
      .ok (setSlot slots m (slots m ++ (v.map (Elem.field t)).toList))
    | .node .. => .ok slots
  | .one m => .ok (setSlot slots m [child])
  | .many m => .ok (setSlot slots m (slots m ++ [child]))
  | .selfText m => .ok (setSlot slots m [.field Ty.Unknown charData])
  | .selfPoints m => do
    let pts ← readPoints n charData
    .ok (setSlot slots m (slots m ++ pts))

/-- `AddElement` of any element.  A child that no branch takes goes to the misplaced ones
(element.cc 54-56).  A child of a simple element goes there too, but a simple element never writes its
misplaced children, so they are dropped here.  Setting a complex member replaces the element that was
there (element.h 186-197); the child is always one that has no parent yet, so `SetParent` succeeds. -/
def addElement (n : NumLib) (charData : Str) (parent child : Elem) : Outcome Elem :=
  match parent with
  | .field t s => .ok (.field t s)
  | .node t a slots mis unk =>
    match classOf t with
    | none => .ok (.node t a slots (mis ++ [child]) unk)
    | some c =>
      match findRule c.rules child with
      | none => .ok (.node t a slots (mis ++ [child]) unk)
      | some act => do
        let s ← act.apply n charData slots child
        .ok (.node t a s mis unk)

/-- element.cc 60-62 `AddUnknownElement`. -/
def addUnknownElement (e : Elem) (s : Str) : Elem :=
  match e with
  | .field t x => .field t x
  | .node t a slots mis unk => .node t a slots mis (unk ++ [s])

/-! ## Attributes -/

/-- The value of one attribute a class takes out: attributes.h 71-90 `CutValue` with `FromString`, or
vec2.cc 58-70 `CutEnumAttr`, which keeps nothing when the text is not a value of `Type_units`. -/
def readAttr (n : NumLib) (k : AttrKind) (text : Str) : Option Str :=
  match k with
  | .str => some text
  | .units => if (Xsd.enumId Ty.«units» text).isSome then some text else none
  | .dbl d => some (readDouble n d text)
  | .int d => some (readInt n d text)

/-- Take the attributes a class knows out of the list, one after the other: the known attributes and what
is left. -/
def cutKnown (n : NumLib) : List (Str × AttrKind) → StdMap Str → Attributes → StdMap Str × Attributes
  | [], known, m => (known, m)
  | (k, kind) :: r, known, m =>
    match Attributes.cutValue m k with
    | (some text, m') =>
      match readAttr n kind text with
      | some v => cutKnown n r (known.set k v) m'
      | none => cutKnown n r known m'
    | (none, m') => cutKnown n r known m'

/-- element.cc 89-116 `AddUnknownAttributes` on an element that has none yet: attributes `xmlns:P` are
kept under `P`, `xmlns` itself under `xmlns`, and the rest as unknown. -/
def addUnknownAttributes (m : Attributes) : Attributes × Attributes :=
  let split := Attributes.splitByPrefix m (chars! "xmlns")
  let xmlns := split.1.getD []
  match Attributes.cutValue split.2 (chars! "xmlns") with
  | (some v, rest) => (rest, xmlns.set (chars! "xmlns") v)
  | (none, rest) => (rest, xmlns)

/-- `ParseAttributes` of a class, called on a new instance. -/
def parseAttributes (n : NumLib) (c : Class) (m : Attributes) : Attrs :=
  let known := cutKnown n c.reads [] m
  let rest := addUnknownAttributes known.2
  ⟨known.1, rest.1, rest.2⟩

/-- element.cc 126-140 `Element::SerializeAttributes`. -/
def serializeBase (a : Attrs) : Attributes :=
  a.xmlns.foldl (fun (m : Attributes) e =>
    m.set (if e.1 = chars! "xmlns" then e.1 else chars! "xmlns:" ++ e.1) e.2)
    (Attributes.mergeAttributes [] a.unknown)

/-- `SerializeAttributes` of a class: the base class's attributes first, then the known ones that are
set, each overwriting an attribute of the same name. -/
def serializeAttributes (c : Class) (a : Attrs) : Attributes :=
  c.sets.foldl (fun (m : Attributes) k =>
    match a.known.get k with
    | some v => m.set k v
    | none => m) (serializeBase a)

end Kml.Dom
