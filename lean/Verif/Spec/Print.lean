import Verif.Spec.Lexer
import Verif.Model.Serializer

/-!
# What the serializer writes

The content of an element as a tree, the text written for it by recursion over that tree, and the XML tree this
text stands for.  No stack of open tags and no pending start tag.
-/

namespace Kml.Dom

open Kml
open Kml.Attributes (Attributes)

/-- What is written for an element: a simple element, a colour, text, a point, raw text for an unknown
element, or an element with content. -/
inductive Doc where
  | field (t : Ty) (s : Str)
  | color (t : Ty) (s : Str)
  | text (s : Str)
  | point (s : Str)
  | raw (s : Str)
  | elem (t : Ty) (attrs : Attributes) (kids : List Doc)

/-- What is written by a single call. -/
def Call.doc : Call → Doc
  | .field t s => .field t s
  | .color t s => .color t s
  | .content s _ => .text s
  | .vec3 s => .point s
  | .beginElem _ _ | .endElem | .indent => .text []

mutual

/-- What is written for an element. -/
def docOf : Elem → Doc
  | .field t s => .field t s
  | .node t a slots mis unk =>
    if t = Ty.«coordinates» then
      .elem t [] ((classAt t).writes.flatMap fun w =>
        match w.valueCalls slots with
        | some cs => cs.map Call.doc
        | none => docsEach (slots w.mem))
    else
      .elem t (serializeAttributes (classAt t) a)
        (((classAt t).writes.flatMap fun w =>
          match w.valueCalls slots with
          | some cs => cs.map Call.doc
          | none => docsEach (slots w.mem)) ++ docsEach mis ++ unk.map Doc.raw)

/-- What is written for each element of a list. -/
def docsEach : List Elem → List Doc
  | [] => []
  | e :: es => docOf e :: docsEach es

end

/-- Indentation. -/
def pad (ind : Str) (d : Nat) : Str := (List.replicate d ind).flatten

/-- A simple element. -/
def fieldText (t : Ty) (s : Str) : Str :=
  if s = [] then '<' :: Xsd.elementName t ++ chars! "/>"
  else '<' :: Xsd.elementName t ++ '>' :: maybeQuote s ++ chars! "</" ++ Xsd.elementName t ++ ['>']

/-- The indentation of raw text right after a start tag is written before that start tag. -/
def lead (ind : Str) (d : Nat) : List Doc → Str
  | .raw _ :: _ => pad ind d
  | _ => []

mutual

/-- The text written at depth `d`; `first` is whether it comes right after the start tag of its parent. -/
def Doc.print (nl ind : Str) (d : Nat) (first : Bool) : Doc → Str
  | .field t s => pad ind d ++ fieldText t s ++ nl
  | .color t s => pad ind d ++ fieldText t s ++ nl
  | .text s => maybeQuote s
  | .point s => pad ind d ++ s ++ (if nl = [] then ['\n'] else nl)
  | .raw s => (if first then [] else pad ind d) ++ s
  | .elem t a ks =>
    pad ind d ++ lead ind (d + 1) ks ++
      (if ks.isEmpty then '<' :: Xsd.elementName t ++ attrsText a ++ chars! "/>"
       else '<' :: Xsd.elementName t ++ attrsText a ++ '>' :: nl ++ printAll nl ind (d + 1) true ks ++
        pad ind d ++ chars! "</" ++ Xsd.elementName t ++ ['>']) ++ nl

/-- The text written for a sequence. -/
def printAll (nl ind : Str) (d : Nat) (first : Bool) : List Doc → Str
  | [] => []
  | k :: ks => k.print nl ind d first ++ printAll nl ind d false ks

end

/-- A text `b` that is the text `a` with white space put in. -/
inductive Spaced : Str → Str → Prop
  | nil : Spaced [] []
  | same (c : Char) {a b : Str} : Spaced a b → Spaced (c :: a) (c :: b)
  | space (c : Char) {a b : Str} : xmlSpace c = true → Spaced a b → Spaced a (c :: b)

/-- A text the serializer quotes correctly: characters XML allows; without CDATA start mark no CDATA end
mark; with one, no `"` and no `&`, or one `&` that comes before every `"`. -/
def Quotable (s : Str) : Prop :=
  (∀ c ∈ s, legalChar c = true) ∧
  (¬ (chars! "<![CDATA[") <:+: s → ¬ (chars! "]]>") <:+: s) ∧
  ((chars! "<![CDATA[") <:+: s → ('"' ∉ s ∧ '&' ∉ s) ∨
    ∃ a b, s = a ++ '&' :: b ∧ '"' ∉ a ∧ '&' ∉ a ∧ '&' ∉ b)

/-- A well-formed piece of content that starts with a tag: the reader accepts it and its events are those of
these pieces. -/
def ReadsAs (s : Str) (xs : List Xml) : Prop :=
  s.head? = some '<' ∧ '\r' ∉ s ∧ readXml s = some (eventsOf xs)

mutual

/-- The XML tree a written text stands for, white space included; `f` gives the pieces raw text stands for. -/
def Doc.xml (f : Str → List Xml) (nl ind : Str) (d : Nat) (first : Bool) : Doc → List Xml
  | .field t s => [.text (pad ind d),
      if s = [] then .empty (Xsd.elementName t) [] else .elem (Xsd.elementName t) [] [.text s], .text nl]
  | .color t s => [.text (pad ind d),
      if s = [] then .empty (Xsd.elementName t) [] else .elem (Xsd.elementName t) [] [.text s], .text nl]
  | .text s => [.text s]
  | .point s => [.text (pad ind d ++ s ++ (if nl = [] then ['\n'] else nl))]
  | .raw s => .text (if first then [] else pad ind d) :: f s
  | .elem t a ks => [.text (pad ind d ++ lead ind (d + 1) ks),
      if ks.isEmpty then .empty (Xsd.elementName t) a
      else .elem (Xsd.elementName t) a (.text nl :: docsXml f nl ind (d + 1) true ks ++ [.text (pad ind d)]),
      .text nl]

/-- The XML trees of a sequence. -/
def docsXml (f : Str → List Xml) (nl ind : Str) (d : Nat) (first : Bool) : List Doc → List Xml
  | [] => []
  | k :: ks => k.xml f nl ind d first ++ docsXml f nl ind d false ks

end

/-- A call whose content is well-formed: an element type with a name, plain attributes, quotable text, a point
without markup, well-formed raw text. -/
def Call.Fine : Call → Prop
  | .beginElem t a => Xsd.isValid t = true ∧ PlainAttrs a
  | .field t s | .color t s => Xsd.isValid t = true ∧ Quotable s
  | .content s quote => if quote then Quotable s else ∃ xs, ReadsAs s xs
  | .vec3 s => ∀ c ∈ s, legalChar c = true ∧ c ≠ '<' ∧ c ≠ '&' ∧ c ≠ '>'
  | .endElem | .indent => True

/-- The pieces raw text stands for, if it is well-formed. -/
noncomputable def rawPieces (s : Str) : List Xml :=
  open Classical in if h : ∃ xs, ReadsAs s xs then h.choose else []

mutual

/-- Written content that is well-formed: element types with a name, plain attributes, quotable texts, points
without markup, and well-formed raw text. -/
def Doc.Ok (f : Str → List Xml) : Doc → Prop
  | .field t s => Xsd.isValid t = true ∧ Quotable s
  | .color t s => Xsd.isValid t = true ∧ Quotable s
  | .text s => Quotable s
  | .point s => ∀ c ∈ s, legalChar c = true ∧ c ≠ '<' ∧ c ≠ '&' ∧ c ≠ '>'
  | .raw s => ReadsAs s (f s)
  | .elem t a ks => Xsd.isValid t = true ∧ PlainAttrs a ∧ OkAll f ks

/-- Well-formed content of a sequence. -/
def OkAll (f : Str → List Xml) : List Doc → Prop
  | [] => True
  | k :: ks => k.Ok f ∧ OkAll f ks

end

end Kml.Dom
