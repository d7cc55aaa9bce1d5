import Verif.Model.StringUtil
/-! Model of the memory behind `UriParser` objects, `src/kml/base/uri_parser.cc`.

The library uriparser is not in the repository.  What is taken from it: a parsed URI has text ranges that point into the
text given (`uriParseUriA` copies nothing but makes the nodes of the list of path segments); `uriAddBaseUriA` gives text
ranges that are those of its operands, or constants; `uriNormalizeSyntaxA` leaves all text in memory of the URI itself;
`uriFreeUriMembersA` frees what the URI owns; and `uriParseUriA` begins by zeroing the structure.  How texts are split,
normalised and resolved is a parameter.  `malloc` does not fail. -/
namespace Kml.UriMem
open Kml

/-- The parts of a `UriUriA` that uri_parser.cc 228-275 reads. -/
inductive Part where
  | scheme | host | port | query | fragment | segment
deriving DecidableEq

/-- Where a `UriTextRangeA` points, with the characters there when it was set: a constant, a text of the caller, or
memory that uriparser allocated. -/
inductive Ref where
  | const (t : Str)
  | text (b : Nat) (t : Str)
  | heap (h : Nat) (t : Str)
deriving DecidableEq

/-- uri_parser.cc 34-69 `UriParserPrivate`, the members of its `uri_`: the text ranges, and the allocations it frees. -/
structure Obj where
  parts : List (Part × Ref)
  mem : List Nat
deriving DecidableEq

/-- What uriparser does with the texts; not in the repository. -/
structure Lib where
  split : Str → Option (List (Part × Str))
  norm : List (Part × Str) → List (Part × Str)
  add : List (Part × Ref) → List (Part × Ref) → Option (List (Part × Ref))

/-- The memory: the texts of the caller, the allocations and the objects that live, and the next id.  Ids are never used
again. -/
structure State where
  texts : Nat → Option Str
  heaps : Nat → Bool
  objs : Nat → Option Obj
  next : Nat

def State.init : State := ⟨fun _ => none, fun _ => false, fun _ => none, 0⟩

/-- Reading the characters of a text range: undefined if what it points to is gone. -/
def readRef (s : State) : Ref → Outcome Str
  | .const t => .ok t
  | .text b t => if (s.texts b).isSome then .ok t else .ub
  | .heap h t => if s.heaps h then .ok t else .ub

/-- Reading several. -/
def readAll (s : State) : List (Part × Ref) → Outcome (List (Part × Str))
  | [] => .ok []
  | e :: es => readRef s e.2 >>= fun t => readAll s es >>= fun r => .ok ((e.1, t) :: r)

/-- uri_parser.cc 56-65 and 228-251: `GetScheme`, `GetHost`, `GetPort`, `GetQuery`, `GetFragment`: `none` for false. -/
def get (s : State) (o : Nat) (p : Part) : Outcome (Option Str) :=
  match s.objs o with
  | none => .ub
  | some x =>
    match x.parts.find? fun e => e.1 = p with
    | none => .ok none
    | some e => readRef s e.2 >>= fun t => .ok (some t)

/-- The segments with a separator between. -/
def joined : List Str → Str
  | [] => []
  | [t] => t
  | t :: ts => t ++ '/' :: joined ts

/-- uri_parser.cc 253-275 `GetPath`. -/
def getPath (s : State) (o : Nat) : Outcome (Option Str) :=
  match s.objs o with
  | none => .ub
  | some x =>
    if (x.parts.filter fun e => e.1 = .segment) = [] then .ok none
    else readAll s (x.parts.filter fun e => e.1 = .segment) >>= fun l => .ok (some (joined (l.map (·.2))))

/-- uri_parser.cc 123-145 `ToString` with an output; `none` for false.  `needed` is `uriToStringCharsRequiredA`, and `write` is
what `uriToStringA` writes, which is an error if it and its zero are longer than the buffer of `chars_required+1`. -/
def toText (needed : List (Part × Str) → Nat) (write : List (Part × Str) → Str) (s : State) (o : Nat) : Outcome (Option Str) :=
  match s.objs o with
  | none => .ub
  | some x => readAll s x.parts >>= fun l =>
      if (write l).length + 1 ≤ needed l + 1 then .ok (some (write l)) else .ok none

/-- What a caller does. -/
inductive Op where
  /-- make a text, whose id is the next one -/
  | hold (t : Str)
  /-- free or change a text -/
  | drop (b : Nat)
  /-- `CreateFromParse` of a text; the object has the next id -/
  | parse (b : Nat)
  /-- `Parse` of a text into an object there is -/
  | reparse (o b : Nat)
  /-- `Normalize` -/
  | normalize (o : Nat)
  /-- a new object, and `Resolve` with a base and a relative URI -/
  | resolve (base rel : Nat)
  /-- the destructor -/
  | destroy (o : Nat)

/-- uri_parser.cc 41-43 `~UriParserPrivate`: the allocations of an object are freed. -/
def freeAll (heaps : Nat → Bool) (mem : List Nat) : Nat → Bool := fun h => heaps h && !mem.contains h

/-- One step: uri_parser.cc 71-78 and 102-110 (`parse`, `reparse`), 112-115, 117-121, 41-43. -/
def step (lib : Lib) (s : State) : Op → Outcome State
  | .hold t => .ok { s with texts := fun b => if b = s.next then some t else s.texts b, next := s.next + 1 }
  | .drop b => .ok { s with texts := fun c => if c = b then none else s.texts c }
  | .parse b =>
      match s.texts b with
      | none => .ub
      | some t =>
        match lib.split t with
        | none => .ok s
        | some ps => .ok { s with
            heaps := fun h => if h = s.next + 1 then true else s.heaps h
            objs := fun o => if o = s.next then some ⟨ps.map fun e => (e.1, .text b e.2), [s.next + 1]⟩ else s.objs o
            next := s.next + 2 }
  | .reparse o b =>
      match s.texts b, s.objs o with
      | some t, some _ =>
        match lib.split t with
        | none => .ok { s with objs := fun c => if c = o then some ⟨[], []⟩ else s.objs c }
        | some ps => .ok { s with
            heaps := fun h => if h = s.next then true else s.heaps h
            objs := fun c => if c = o then some ⟨ps.map fun e => (e.1, .text b e.2), [s.next]⟩ else s.objs c
            next := s.next + 1 }
      | _, _ => .ub
  | .normalize o =>
      match s.objs o with
      | none => .ub
      | some x => readAll s x.parts >>= fun l => .ok { s with
          heaps := fun h => if h = s.next then true else freeAll s.heaps x.mem h
          objs := fun c => if c = o then some ⟨(lib.norm l).map fun e => (e.1, .heap s.next e.2), [s.next]⟩ else s.objs c
          next := s.next + 1 }
  | .resolve base rel =>
      match s.objs base, s.objs rel with
      | some x, some y =>
        readAll s x.parts >>= fun _ => readAll s y.parts >>= fun _ =>
          match lib.add y.parts x.parts with
          | none => .ok s
          | some ps => .ok { s with
              heaps := fun h => if h = s.next + 1 then true else s.heaps h
              objs := fun o => if o = s.next then some ⟨ps, [s.next + 1]⟩ else s.objs o
              next := s.next + 2 }
      | _, _ => .ub
  | .destroy o =>
      match s.objs o with
      | none => .ub
      | some x => .ok { s with heaps := freeAll s.heaps x.mem, objs := fun c => if c = o then none else s.objs c }

/-- A history.  Not in the code: the caller. -/
def run (lib : Lib) (s : State) : List Op → Outcome State
  | [] => .ok s
  | op :: ops => step lib s op >>= fun s => run lib s ops

end Kml.UriMem
