import Verif.Model.XsdFile
/-! Model of the two functions of `XsdFile` that say what the target namespace is. -/
namespace Kml.XsdDoc
open Kml

/-- xsd_file.h 83-85 `get_target_namespace`: the schema is not checked. -/
def File.getTargetNamespace (f : File) : Outcome Str :=
  match f.schema with
  | none => .ub
  | some s => .ok s.targetNamespace

/-- xsd_file.h 86-88 `get_target_namespace_prefix`: the schema is not checked. -/
def File.getTargetNamespacePrefix (f : File) : Outcome Str :=
  match f.schema with
  | none => .ub
  | some s => .ok s.pre

end Kml.XsdDoc
