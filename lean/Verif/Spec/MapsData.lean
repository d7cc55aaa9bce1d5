import Verif.Model.MapsData
import Verif.Lemmas.Clone
import Verif.Spec.Canonical

/-!
# What is posted to a map
-/

namespace Kml.Dom

open Kml
open Kml.Http (Client Request)

/-- The placemarks below an element that have a geometry, in the order of the document. -/
def marksBelow (root : Elem) : List Elem :=
  (getChildElements root true).filterMap fun r =>
    if r.2.isA Ty.«Placemark» && (r.2.only M.«geometry»).isSome then some r.2 else none

/-- No two objects below an element have the same id. -/
def IdsBelow (x : Elem) : Prop := ((getChildElements x true).filterMap fun r => r.2.objectId).Nodup

/-- A `POST` of Atom to an address. -/
def IsAtomPost (uri : Str) (r : Request) : Prop :=
  r.method = .post ∧ r.uri = uri ∧ r.headers = some [(chars! "Content-Type", chars! "application/atom+xml")]

/-- The request has an XML document that is read as an entry with this feature, whose title is the name and whose summary is
the description of the feature. -/
def Carries (n : NumLib) (x : Elem) (r : Request) : Prop :=
  ∃ text evs entry, r.data = some (chars! "<?xml version=\"1.0\" encoding=\"utf-8\"?>\n" ++ text) ∧ readXml text = some evs ∧
    parseEvents n [] () (rootEvents evs) = .ok (some entry, ()) ∧ entry.ty = Ty.«AtomEntry» ∧
    getEntryFeature (some entry) = some x ∧ entry.text M.«title» = x.text M.«name» ∧
    entry.text M.«summary» = x.text M.«description» ∧
    ((entry.only M.«content»).bind fun c => c.attribute (chars! "type")) = some (chars! "application/vnd.google-earth.kml+xml")

/-- How many of the requests the other end accepts, after those before. -/
def accepted (server : Server) (client : Client) : List Request → List Request → Nat
  | _, [] => 0
  | before, r :: rs =>
    (if (server before client r).isSome then 1 else 0) + accepted server client (before ++ [r]) rs

end Kml.Dom
