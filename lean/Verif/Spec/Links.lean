import Verif.Model.Basic

/-! # Links and what they refer to -/

namespace Kml

/-- A link without a scheme: no `://`, except at its very beginning, where it has no scheme before it. -/
def NoScheme (l : Str) : Prop := ∀ a b, l = a ++ [':', '/', '/'] ++ b → a = []

/-- The link without its fragment. -/
def filePart (l : Str) : Str := l.takeWhile (· ≠ '#')

end Kml
