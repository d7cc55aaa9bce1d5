import Verif.Model.Basic
/-! A reference reader for the fragments of XML that the library writes: character data and attribute
lists (XML 1.0, sections 2.4, 3.1, 3.3.3 and 4.6).  Nothing here refers to the model of the code. -/
namespace Kml.Xml
open Kml

/-- Decode character data: the five predefined entities; a bare `&` or a `<` is an error. -/
def decodeText : Str → Option Str
  | [] => some []
  | '&' :: 'a' :: 'm' :: 'p' :: ';' :: s => (decodeText s).map ('&' :: ·)
  | '&' :: 'l' :: 't' :: ';' :: s => (decodeText s).map ('<' :: ·)
  | '&' :: 'g' :: 't' :: ';' :: s => (decodeText s).map ('>' :: ·)
  | '&' :: 'q' :: 'u' :: 'o' :: 't' :: ';' :: s => (decodeText s).map ('"' :: ·)
  | '&' :: 'a' :: 'p' :: 'o' :: 's' :: ';' :: s => (decodeText s).map ('\'' :: ·)
  | '&' :: _ => none
  | '<' :: _ => none
  | c :: s => (decodeText s).map (c :: ·)

/-- White space inside an attribute value is read as a space. -/
def normalizeSpace (c : Char) : Char := if c = '\t' ∨ c = '\n' ∨ c = '\r' then ' ' else c

/-- Decode the text between the quotes of an attribute. -/
def decodeAttr (raw : Str) : Option Str := decodeText (raw.map normalizeSpace)

/-- Read ` name="value"` repeatedly, to the end of the text. -/
def readAttrs : (fuel : Nat) → Str → Option (List (Str × Str))
  | _, [] => some []
  | 0, _ => none
  | fuel + 1, c :: s =>
    if c ≠ ' ' then none
    else
      match s.dropWhile (· ≠ '=') with
      | '=' :: '"' :: r =>
        match r.dropWhile (· ≠ '"') with
        | '"' :: r' =>
          match decodeAttr (r.takeWhile (· ≠ '"')), readAttrs fuel r' with
          | some v, some rest => some ((s.takeWhile (· ≠ '='), v) :: rest)
          | _, _ => none
        | _ => none
      | _ => none

/-- Read a whole attribute list. -/
def attrs (s : Str) : Option (List (Str × Str)) := readAttrs s.length s

end Kml.Xml
