import Verif.Model.Python

/-! Specification of the Python entry point: which Rust routine a call amounts to. -/

set_option autoImplicit false

namespace Interpn
open FloatOps

variable {T : Type} [FloatOps T]

/-- The supported interpolation methods. -/
inductive PyMethod where
  | linear | nearest | cubic

/-- The string the caller passes. -/
def PyMethod.name : PyMethod → String
  | .linear => "linear"
  | .nearest => "nearest"
  | .cubic => "cubic"

/-- The Rust routine for a regular grid. -/
def PyMethod.runRegular (m : PyMethod) (fma : Bool) (dims : List Nat) (starts steps vals : List T)
    (lin : Bool) (obs : List (List T)) (out : List T) : Res Unit × List T :=
  match m with
  | .linear => multilinearRegularInterpn fma dims starts steps vals obs out
  | .nearest => nearestRegularInterpn fma dims starts steps vals obs out
  | .cubic => multicubicRegularInterpn fma dims starts steps vals lin obs out

/-- The Rust routine for a rectilinear grid. -/
def PyMethod.runRectilinear (m : PyMethod) (fma : Bool) (grids : List (List T)) (vals : List T)
    (lin : Bool) (obs : List (List T)) (out : List T) : Res Unit × List T :=
  match m with
  | .linear => multilinearRectilinearInterpn fma grids vals obs out
  | .nearest => nearestRectilinearInterpn grids vals obs out
  | .cubic => multicubicRectilinearInterpn fma grids vals lin obs out

/-- What the caller sees of a Rust outcome: the buffer, or an exception. -/
def pyResult {α : Type} (call : α) (r : Res Unit × List T) : Except PyExc (α × List T) :=
  match r.1 with
  | .ok _ => .ok (call, r.2)
  | .err m => .error (.assertionError m)
  | .panic => .error .panicException

/-- All spacings of a grid compare equal to its first spacing: neither is larger, and neither
is a NaN. -/
def UniformSpacing (g : List T) : Prop :=
  ∀ (i : Nat) (h : i + 1 < g.length) (h1 : 1 < g.length),
    (g[i + 1] -. g[i] <=. g[1] -. g[0]) = true ∧ (g[1] -. g[0] <=. g[i + 1] -. g[i]) = true

end Interpn
