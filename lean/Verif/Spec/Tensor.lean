import Mathlib.Data.Fin.Tuple.Basic

/-! Specification of axis-by-axis (tensor product) evaluation. -/

set_option autoImplicit false

namespace Interpn

/-- Evaluate grid data `g` (a value for each node index tuple) axis by axis: `op k` is the
1-D rule of axis `k`, a function of all the values along that axis. Axis 0 is reduced first,
the last axis last. -/
def axisByAxis {T : Type} : {N : Nat} → (op : Fin N → (Nat → T) → T) →
    (g : (Fin N → Nat) → T) → T
  | 0, _, g => g fun k => k.elim0
  | N + 1, op, g =>
    op (Fin.last N) fun i =>
      axisByAxis (fun k : Fin N => op k.castSucc) fun loc => g (Fin.snoc (α := fun _ => Nat) loc i)

end Interpn
