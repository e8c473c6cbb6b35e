import Verif.Model.Multicubic.Mod
import Verif.Model.Unchecked.Core

/-! `/repo/src/multicubic/mod.rs` built without overflow checks.
The same text as `Verif/Model/Multicubic/Mod.lean` with the wrapping integers of
`Verif/Model/Unchecked/Core.lean`. Structures, and definitions that do no integer arithmetic,
are shared with `Verif/Model/Multicubic/Mod.lean`. -/

set_option autoImplicit false

namespace Interpn.Unchecked
open FloatOps

variable {T : Type} [FloatOps T]

/-- The slice `grid[o..o + 4]` as an array of four; panics when out of range
(`/repo/src/multicubic/rectilinear.rs` 329 and 347,
`multicubic/rectilinear_recursive.rs` 370). -/
def gridCell (grid : List T) (o : Nat) : Res (Fin 4 → T) := do
  let e ← uadd o 4
  if h : e ≤ grid.length ∧ o + 4 = e then
    .ok (fun p => grid[o + p.val]'(by omega))
  else .panic

end Interpn.Unchecked
