import Verif.Spec.XmlTree

/-!
# A reference reader for XML text

Reads a text character by character and delivers the events an XML parser delivers (XML 1.0, sections 2.1 to
2.4, 2.11, 3.1, 3.3.3 and 4.6).  It is cautious: what it accepts, every XML parser accepts and reads the same
way; it rejects some things XML allows and the library never writes: comments, processing instructions,
declarations, character references by number, attribute values in single quotes, and white space in end tags
or around `=`.
-/

namespace Kml.Dom

open Kml

/-- A character XML 1.0 allows in a document (section 2.2), carriage return excepted: it never gets past
`lineEnds` below. -/
def legalChar (c : Char) : Bool :=
  c = '\t' || c = '\n' || (0x20 ≤ c.toNat && c.toNat ≠ 0xFFFE && c.toNat ≠ 0xFFFF)

/-- A character a name may start with (section 2.3; without the rarer characters beyond ASCII). -/
def nameStart (c : Char) : Bool := c.isAlpha || c = '_' || c = ':'

/-- A character a name may contain. -/
def nameChar (c : Char) : Bool := c.isAlphanum || c = '_' || c = ':' || c = '-' || c = '.'

/-- An XML name. -/
def XmlName (s : Str) : Prop := ∃ c r, s = c :: r ∧ nameStart c = true ∧ r.all nameChar = true

/-- The predefined entities (section 4.6). -/
def entity (name : Str) : Option Char :=
  if name = chars! "amp" then some '&'
  else if name = chars! "lt" then some '<'
  else if name = chars! "gt" then some '>'
  else if name = chars! "quot" then some '"'
  else if name = chars! "apos" then some '\''
  else none

/-- Where the reader is. -/
inductive Lex where
  /-- in character data, after `brackets` (at most 2) closing brackets -/
  | content (brackets : Nat)
  /-- after `&` and some characters in character data -/
  | ref (name : Str)
  /-- after `<` -/
  | lt
  /-- after `<!` and some characters -/
  | bang (acc : Str)
  /-- in a CDATA section, after `brackets` (at most 2) closing brackets not yet delivered -/
  | cdata (brackets : Nat)
  /-- in the name of a start tag -/
  | openName (name : Str)
  /-- after white space in a start tag -/
  | gap (name : Str) (attrs : List (Str × Str))
  /-- in the name of an attribute -/
  | attrName (name : Str) (attrs : List (Str × Str)) (key : Str)
  /-- after the `=` of an attribute -/
  | attrEq (name : Str) (attrs : List (Str × Str)) (key : Str)
  /-- in the value of an attribute -/
  | attrVal (name : Str) (attrs : List (Str × Str)) (key val : Str)
  /-- after `&` and some characters in the value of an attribute -/
  | attrRef (name : Str) (attrs : List (Str × Str)) (key val ref : Str)
  /-- after the value of an attribute -/
  | afterVal (name : Str) (attrs : List (Str × Str))
  /-- after the `/` of an empty-element tag -/
  | slash (name : Str) (attrs : List (Str × Str))
  /-- in the name of an end tag -/
  | closeName (name : Str)
  deriving DecidableEq, Repr

/-- A blank, tab or line break. -/
def xmlSpace (c : Char) : Bool := c = ' ' || c = '\t' || c = '\n'

/-- Read one character: the new place and the events delivered. -/
def Lex.step : Lex → Char → Option (Lex × List Ev)
  | .content k, c =>
    if c = '<' then some (.lt, [])
    else if c = '&' then some (.ref [], [])
    else if c = '>' then if k = 2 then none else some (.content 0, charEvents [c])
    else if c = ']' then some (.content (min (k + 1) 2), charEvents [c])
    else some (.content 0, charEvents [c])
  | .ref n, c =>
    if c = ';' then (entity n).map fun e => (.content 0, charEvents [e])
    else some (.ref (n ++ [c]), [])
  | .lt, c =>
    if c = '/' then some (.closeName [], [])
    else if c = '!' then some (.bang [], [])
    else if nameStart c then some (.openName [c], [])
    else none
  | .bang acc, c =>
    if acc ++ [c] = chars! "[CDATA[" then some (.cdata 0, [])
    else if (acc ++ [c]).isPrefixOf (chars! "[CDATA[") then some (.bang (acc ++ [c]), [])
    else none
  | .cdata k, c =>
    if c = ']' then
      if k = 2 then some (.cdata 2, charEvents [']']) else some (.cdata (k + 1), [])
    else if c = '>' ∧ k = 2 then some (.content 0, [])
    else some (.cdata 0, charEvents (List.replicate k ']' ++ [c]))
  | .openName n, c =>
    if c = '>' then some (.content 0, [.start n []])
    else if c = '/' then some (.slash n [], [])
    else if xmlSpace c then some (.gap n [], [])
    else if nameChar c then some (.openName (n ++ [c]), [])
    else none
  | .gap n a, c =>
    if c = '>' then some (.content 0, [.start n a])
    else if c = '/' then some (.slash n a, [])
    else if xmlSpace c then some (.gap n a, [])
    else if nameStart c then some (.attrName n a [c], [])
    else none
  | .attrName n a k, c =>
    if c = '=' then if k ∈ a.map (·.1) then none else some (.attrEq n a k, [])
    else if nameChar c then some (.attrName n a (k ++ [c]), [])
    else none
  | .attrEq n a k, c =>
    if c = '"' then some (.attrVal n a k [], []) else none
  | .attrVal n a k v, c =>
    if c = '"' then some (.afterVal n (a ++ [(k, v)]), [])
    else if c = '<' then none
    else if c = '&' then some (.attrRef n a k v [], [])
    else if xmlSpace c then some (.attrVal n a k (v ++ [' ']), [])
    else some (.attrVal n a k (v ++ [c]), [])
  | .attrRef n a k v r, c =>
    if c = ';' then (entity r).map fun e => (.attrVal n a k (v ++ [e]), [])
    else some (.attrRef n a k v (r ++ [c]), [])
  | .afterVal n a, c =>
    if c = '>' then some (.content 0, [.start n a])
    else if c = '/' then some (.slash n a, [])
    else if xmlSpace c then some (.gap n a, [])
    else none
  | .slash n a, c =>
    if c = '>' then some (.content 0, [.empty n a]) else none
  | .closeName n, c =>
    if c = '>' then some (.content 0, [.stop n])
    else if nameChar c then some (.closeName (n ++ [c]), [])
    else none

/-- Read a text: the last place and all events; `none` if it is not well-formed. -/
def Lex.run : Lex → Str → Option (Lex × List Ev)
  | st, [] => some (st, [])
  | st, c :: s =>
    if legalChar c then
      match st.step c with
      | none => none
      | some (st', evs) =>
        match Lex.run st' s with
        | none => none
        | some (st'', evs') => some (st'', evs ++ evs')
    else none

/-- Line ends (section 2.11): `\r\n` and a lone `\r` are read as `\n`. -/
def lineEnds : Str → Str
  | [] => []
  | '\r' :: '\n' :: s => '\n' :: lineEnds s
  | '\r' :: s => '\n' :: lineEnds s
  | c :: s => c :: lineEnds s

/-- Read the content of an element or a whole document: it must end in character data.  That tags are
properly nested is not asked here; it is expressed by the events being those of a tree. -/
def readXml (s : Str) : Option (List Ev) :=
  match Lex.run (.content 0) (lineEnds s) with
  | some (.content _, evs) => some evs
  | _ => none

/-- Every end tag matches the last start tag that is still open, and no element is left open.  The first argument is the
names of the open elements, innermost first. -/
def balanced : List Str → List Ev → Bool
  | [], [] => true
  | _ :: _, [] => false
  | ns, .start n _ :: evs => balanced (n :: ns) evs
  | [], .stop _ :: _ => false
  | n' :: ns, .stop n :: evs => n' = n && balanced ns evs
  | ns, .empty _ _ :: evs => balanced ns evs
  | ns, .chars _ :: evs => balanced ns evs

/-- An attribute value that is written and read as it is. -/
def PlainAttr (v : Str) : Prop :=
  ∀ c ∈ v, legalChar c = true ∧ c ≠ '"' ∧ c ≠ '<' ∧ c ≠ '&' ∧ c ≠ '\t' ∧ c ≠ '\n'

/-- Attributes that are written and read as they are. -/
def PlainAttrs (a : List (Str × Str)) : Prop :=
  (a.map (·.1)).Nodup ∧ ∀ e ∈ a, XmlName e.1 ∧ PlainAttr e.2

example : readXml (chars! "<a b=\"1&lt;\" c=\"\"><![CDATA[<]]]]><d/>x&amp;</a>") =
    some ((Xml.elem (chars! "a") [(chars! "b", chars! "1<"), (chars! "c", [])]
      [.text (chars! "<]]"), .empty (chars! "d") [], .text (chars! "x&")]).events) := by decide

end Kml.Dom
