import Verif.Model.Lit
import Verif.Model.StringUtil
/-! # The built-in types of XML Schema -/
namespace Kml.XsdDoc
open Kml

/-- The names of XML Schema Part 2, https://www.w3.org/TR/xmlschema-2: the primitive types, sections 3.2.1 to 3.2.19 in
order, and then `integer`, `long` and `int` (3.3.13, 3.3.16, 3.3.17). -/
def standardTypes : List Str :=
  [chars! "string", chars! "boolean", chars! "decimal", chars! "float", chars! "double", chars! "duration",
   chars! "dateTime", chars! "time", chars! "date", chars! "gYearMonth", chars! "gYear", chars! "gMonthDay",
   chars! "gDay", chars! "gMonth", chars! "hexBinary", chars! "base64Binary", chars! "anyURI", chars! "QName",
   chars! "NOTATION", chars! "integer", chars! "long", chars! "int"]

end Kml.XsdDoc
