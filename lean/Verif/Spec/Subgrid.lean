import Verif.Spec.Grid
import Mathlib.Data.Fin.Tuple.Basic

/-! Vocabulary for parts of a grid: leaving out an axis, taking a range of nodes on every axis. -/

set_option autoImplicit false

namespace Interpn

section
variable {K : Type} [Field K] [LinearOrder K] [FloorRing K] {N : Nat}

/-- The grid without axis `j`. -/
def Axes.dropAxis (j : Fin (N + 1)) : Axes K (N + 1) → Axes K N
  | .regular dims starts steps => .regular (fun k => dims (j.succAbove k))
      (fun k => starts (j.succAbove k)) (fun k => steps (j.succAbove k))
  | .rectilinear grids => .rectilinear fun k => grids (j.succAbove k)

/-- The tuple `t` of length `N`, extended to length `N + 1` by the entry `a` at position `j`. -/
def withEntry {α : Type} (j : Fin (N + 1)) (a : α) (t : Fin N → α) : Fin (N + 1) → α :=
  Fin.insertNth (α := fun _ => α) j a t

/-- The nodes `a k`, ..., `a k + m k - 1` of every axis `k`. -/
def Axes.sub (a m : Fin N → Nat) : Axes K N → Axes K N
  | .regular _ starts steps => .regular m (fun k => starts k + steps k * (a k : K)) steps
  | .rectilinear grids => .rectilinear fun k => ((grids k).drop (a k)).take (m k)

end

end Interpn
