import Mathlib.Algebra.BigOperators.Fin

/-! Specification of the data layout: C ordering (last axis fastest), stated by
recursion on the number of axes, independently of the strides computed by the code. -/

set_option autoImplicit false

namespace Interpn

/-- Position of the multi-index `loc` in a C-ordered array of shape `dims`
("z(x0, y0), z(x0, y1), ..., z(x0, yn), z(x1, y0), ..."). -/
def cIndex : {N : Nat} → (dims loc : Fin N → Nat) → Nat
  | 0, _, _ => 0
  | N + 1, dims, loc =>
    cIndex (fun k : Fin N => dims k.castSucc) (fun k => loc k.castSucc) * dims (Fin.last N)
      + loc (Fin.last N)

/-- `vals` holds the values `g loc` of a grid function in C order. -/
def Samples {T : Type} {N : Nat} (dims : Fin N → Nat) (vals : List T)
    (g : (Fin N → Nat) → T) : Prop :=
  ∀ loc : Fin N → Nat, (∀ k, loc k < dims k) → vals[cIndex dims loc]? = some (g loc)

end Interpn
