import Verif.Model.Counted.Core

/-! How counts of operations are stated (C115). -/

set_option autoImplicit false

namespace Interpn

/-- So many passes through loop bodies, reads of values, one-axis interpolations and comparisons
with grid coordinates. -/
def charge (passes reads kernels compares : Nat) : Op → Nat
  | .pass => passes
  | .read => reads
  | .kernel => kernels
  | .compare => compares

/-- An evaluation of a batch is charged `c` for each of `m` observations: exactly that if it
succeeds, at most that if it fails. -/
def ChargedBatch {T : Type} (r : (Res Unit × List T) × (Op → Nat)) (m : Nat) (c : Op → Nat) : Prop :=
  (∀ o, r.2 o ≤ m * c o) ∧ (r.1.1 = .ok () → ∀ o, r.2 o = m * c o)

end Interpn
