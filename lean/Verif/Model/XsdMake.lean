import Verif.Model.XsdFile
/-! Model of `src/kml/xsd/xsd_util.cc`: schemas, elements and types made by name. -/
namespace Kml.XsdDoc
open Kml Kml.Attributes

/-- xsd_complex_type.h 50-56 `XsdComplexType::Create`. -/
def Complex.create (a : Attributes) : Option Complex :=
  match getValue a (chars! "name") with
  | some name => some { name := name }
  | none => none

/-- xsd_util.cc 54-58 `CreateXsdComplexType`. -/
def createXsdComplexType (typeName : Str) : Option Complex :=
  Complex.create (setValue [] (chars! "name") typeName)

/-- xsd_util.cc 60-65 `CreateXsdElement`. -/
def createXsdElement (name type : Str) : Option Element :=
  Element.create (setValue (setValue [] (chars! "name") name) (chars! "type") type)

/-- xsd_util.cc 67-73 `CreateXsdSchema`. -/
def createXsdSchema (pre targetNamespace : Str) : Option Schema :=
  Schema.create (setValue (setValue [] (chars! "xmlns:" ++ pre) targetNamespace) (chars! "targetNamespace") targetNamespace)

end Kml.XsdDoc
