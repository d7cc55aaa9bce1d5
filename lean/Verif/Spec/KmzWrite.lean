import Verif.Model.KmzWrite
import Verif.Spec.Links
import Verif.Spec.Canonical
/-! What archives made from KML are to have. -/
namespace Kml.Dom
open Kml Kml.ZipFile

/-- The XML parser: the reading rules of Spec/Lexer.lean, up to the end of the root element. -/
def xmlReader (text : Str) : Option (List Ev) := (readXml text).map rootEvents

/-- A file is archived under this name for one of these links: the link has no scheme, its file is below the base, and the
file of that name, below the base, has this content. -/
def ArchivedFor (m : Maker) (base : Str) (links : List Str) (name content : Str) : Prop :=
  (∃ l ∈ links, NoScheme l ∧ filePart l ≠ [] ∧ m.norm (filePart l) = some name ∧ ¬ ['.', '.'] <+: name) ∧
  m.disk (StringUtil.joinPaths base name) = some content ∧ pathRefused name = false

end Kml.Dom
