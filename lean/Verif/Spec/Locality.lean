import Verif.Spec.Layout
import Verif.Spec.Slices

/-! Specification: which entries of the value array an evaluation may depend on. -/

set_option autoImplicit false

namespace Interpn

/-- An evaluation `eval` of grid data of shape `dims` (the data in C order) depends on the data
only through one block of `m` consecutive nodes along each axis. The block (lowest corner `o`)
is fixed before the data are known. -/
def ReadsBlock {T : Type} {N : Nat} (m : Nat) (dims : Fin N → Nat) (eval : List T → Res T) :
    Prop :=
  ∃ o : Fin N → Nat, (∀ k, o k + m ≤ dims k) ∧
    ∀ vals vals' : List T, IsSlice vals → vals.length = vals'.length →
      (∀ loc : Fin N → Nat, (∀ k, o k ≤ loc k ∧ loc k < o k + m) →
        vals[cIndex dims loc]? = vals'[cIndex dims loc]?) →
      eval vals = eval vals'

/-- An evaluation of `n` values either fails in the same way whatever the values are, or returns
the stored value at a position that does not depend on the values. -/
def ReturnsStored {T : Type} (n : Nat) (eval : List T → Res T) : Prop :=
  (∃ i < n, ∀ vals : List T, vals.length = n → ∃ v, vals[i]? = some v ∧ eval vals = .ok v) ∨
  (∀ vals vals' : List T, vals.length = n → vals'.length = n →
    eval vals = eval vals' ∧ ∀ v, eval vals ≠ .ok v)

end Interpn
