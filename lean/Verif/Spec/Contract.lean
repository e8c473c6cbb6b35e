import Mathlib.Data.Fin.Tuple.Basic
import Mathlib.Data.List.OfFn

/-! Lines of a table along its first axis. -/

set_option autoImplicit false

namespace Interpn

/-- The `n` values of the table `g` at the indices `loc` of all axes but the first, in the order of the
index of the first axis. -/
def firstLine {T : Type} {N : Nat} (n : Nat) (g : (Fin (N + 1) → Nat) → T) (loc : Fin N → Nat) :
    List T :=
  List.ofFn fun i : Fin n => g (Fin.cons i.val loc)

end Interpn
