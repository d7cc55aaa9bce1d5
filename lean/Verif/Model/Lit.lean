import Verif.Model.Basic

/-! String literals as lists of characters. -/

namespace Kml

open Lean in
/-- `chars! "ab"` is the list `['a', 'b']`: the same value as `"ab".toList`, in a form the kernel
compares quickly. -/
macro "chars!" s:str : term => do
  let cs : Array (TSyntax `term) :=
    (s.getString.toList.map fun c => (Syntax.mkCharLit c : TSyntax `term)).toArray
  `(([$cs,*] : List Char))

end Kml
