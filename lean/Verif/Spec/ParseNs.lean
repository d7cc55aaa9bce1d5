import Verif.Model.ParseNs
import Verif.Spec.XmlTree

/-!
# Namespaces in XML

What the names of a document mean: a declaration `xmlns="…"` or `xmlns:p="…"` holds for the element it is on and for
everything inside.
-/

namespace Kml.Dom

open Kml

/-- The prefix of a name, if it has one: what comes before the first colon. -/
def namePrefix (name : Str) : Option Str := if ':' ∈ name then some (name.takeWhile (· ≠ ':')) else none

/-- The name without its prefix. -/
def localOf (name : Str) : Str := if ':' ∈ name then (name.dropWhile (· ≠ ':')).drop 1 else name

/-- Which namespace a prefix stands for; `none` is no prefix. -/
abbrev Scope := Option Str → Option Str

/-- The prefix an attribute declares: `some none` for `xmlns`, `some (some p)` for `xmlns:p`. -/
def declares (attr : Str) : Option (Option Str) :=
  if attr = chars! "xmlns" then some none
  else if namePrefix attr = some (chars! "xmlns") then some (some (localOf attr)) else none

/-- The scope inside an element with the given attributes. -/
def Scope.inside (b : Scope) (attrs : List (Str × Str)) : Scope := fun p =>
  match attrs.find? fun a => declares a.1 = some p with
  | some a => if a.2 = [] then none else some a.2
  | none => b p

/-- The namespace a name is in. -/
def Scope.uriOf (b : Scope) (name : Str) : Option Str := b (namePrefix name)

mutual

/-- A document with other names and attributes; what they become depends on the scope. -/
def Xml.restyle (f : Scope → Str → Str) (g : Scope → List (Str × Str) → List (Str × Str)) (b : Scope) : Xml → Xml
  | .text s => .text s
  | .empty n a => .empty (f (b.inside a) n) (g (b.inside a) a)
  | .elem n a ks => .elem (f (b.inside a) n) (g (b.inside a) a) (restyleAll f g (b.inside a) ks)

/-- The same for a list. -/
def restyleAll (f : Scope → Str → Str) (g : Scope → List (Str × Str) → List (Str × Str)) (b : Scope) : List Xml → List Xml
  | [] => []
  | x :: xs => x.restyle f g b :: restyleAll f g b xs

end

/-- A name as the XML parser delivers it: the namespace, a bar and the local name. -/
def Scope.expand (b : Scope) (name : Str) : Str :=
  match b.uriOf name with
  | some uri => uri ++ '|' :: localOf name
  | none => localOf name

/-- The attributes as the XML parser delivers them: without the declarations; a name without a prefix is in no
namespace. -/
def Scope.attrs (b : Scope) (attrs : List (Str × Str)) : List (Str × Str) :=
  (attrs.filter fun a => declares a.1 = none).map fun a => (if (namePrefix a.1).isSome then b.expand a.1 else a.1, a.2)

/-- A document as the XML parser delivers it. -/
def Xml.expanded (x : Xml) (b : Scope) : Xml := x.restyle Scope.expand Scope.attrs b

mutual

/-- Something holds of the name of every element, in its scope. -/
def Xml.Names (P : Scope → Str → Prop) (b : Scope) : Xml → Prop
  | .text _ => True
  | .empty n a => P (b.inside a) n
  | .elem n a ks => P (b.inside a) n ∧ NamesAll P (b.inside a) ks

/-- The same for a list. -/
def NamesAll (P : Scope → Str → Prop) (b : Scope) : List Xml → Prop
  | [] => True
  | x :: xs => x.Names P b ∧ NamesAll P b xs

end

/-- The namespace of KML. -/
def kmlUri : Str := chars! "http://www.opengis.net/kml/2.2"

/-- The namespace of Atom. -/
def atomUri : Str := chars! "http://www.w3.org/2005/Atom"

/-- The name by which the library knows an element: an element of KML by its local name, one of Atom by its local name
after `atom:`.  One of another namespace is not known, whatever it is called: it has the address of its namespace in
front. -/
def Scope.known (b : Scope) (name : Str) : Str :=
  match b.uriOf name with
  | none => localOf name
  | some uri =>
    if uri = kmlUri then localOf name
    else if uri = atomUri then chars! "atom:" ++ localOf name
    else uri ++ '|' :: localOf name

end Kml.Dom
