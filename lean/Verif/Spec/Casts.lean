import Verif.Model.Casts
/-! What casts are to give. -/
namespace Kml.Dom
open Kml

/-- An object of class `c` is one of class `d`: the same, or one of its bases is. -/
inductive Derives : Cpp → Cpp → Prop
  | refl (c : Cpp) : Derives c c
  | base {c b d : Cpp} : (c, b) ∈ bases → Derives b d → Derives c d

/-- An element that the factory or a parser can have made: an instance of a class of the factory, or a field of a simple type. -/
def Manufactured : Elem → Prop
  | .field t _ => Xsd.elementType t = .simple
  | .node t _ _ _ _ => (classOf t).isSome = true

end Kml.Dom
