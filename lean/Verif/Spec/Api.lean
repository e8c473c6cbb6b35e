import Verif.Model.Multilinear
import Verif.Model.Nearest
import Verif.Model.Multicubic
import Verif.Model.OneDim

/-! Evaluation of one observation through the public interface: construct the interpolator,
then call `interp_one`. Both implementations (flattened and recursive) are covered by the
parameter `e`. -/

set_option autoImplicit false

namespace Interpn

/-- Which implementation evaluates: the flattened one, or the recursive one with a given
compile-time capacity. -/
inductive Evaluator where
  | flat
  | recursive (maxdims : Nat)

/-- The evaluator can handle `N` axes. (The flattened types additionally limit `N` to 6, resp.
4, at compile time; the theorems hold without that limit.) -/
def Evaluator.Fits : Evaluator → Nat → Prop
  | .flat, N => 0 < N
  | .recursive M, N => 0 < N ∧ N ≤ M

variable {T : Type} [FloatOps T] {N : Nat}

/-- Multilinear interpolation on a regular grid at the point `x`. -/
def multilinearRegularAt (e : Evaluator) (fma : Bool) (dims : Fin N → Nat)
    (starts steps : Fin N → T) (vals : List T) (x : Fin N → T) : Res T :=
  match e with
  | .flat => do (← MultilinearRegular.new dims starts steps vals).interpOne fma x
  | .recursive M => do
    (← MultilinearRegularRecursive.new M (List.ofFn dims) (List.ofFn starts) (List.ofFn steps)
      vals).interpOne fma (List.ofFn x)

/-- Multilinear interpolation on a rectilinear grid at the point `x`. -/
def multilinearRectilinearAt (e : Evaluator) (fma : Bool) (grids : Fin N → List T)
    (vals : List T) (x : Fin N → T) : Res T :=
  match e with
  | .flat => do (← MultilinearRectilinear.new grids vals).interpOne fma x
  | .recursive M => do
    (← MultilinearRectilinearRecursive.new M (List.ofFn grids) vals).interpOne fma (List.ofFn x)

/-- Multicubic interpolation on a regular grid at the point `x`. -/
def multicubicRegularAt (e : Evaluator) (fma : Bool) (dims : Fin N → Nat)
    (starts steps : Fin N → T) (vals : List T) (lin : Bool) (x : Fin N → T) : Res T :=
  match e with
  | .flat => do (← MulticubicRegular.new dims starts steps vals lin).interpOne fma x
  | .recursive M => do
    (← MulticubicRegularRecursive.new M (List.ofFn dims) (List.ofFn starts) (List.ofFn steps)
      vals lin).interpOne fma (List.ofFn x)

/-- Multicubic interpolation on a rectilinear grid at the point `x`. -/
def multicubicRectilinearAt (e : Evaluator) (fma : Bool) (grids : Fin N → List T)
    (vals : List T) (lin : Bool) (x : Fin N → T) : Res T :=
  match e with
  | .flat => do (← MulticubicRectilinear.new grids vals lin).interpOne fma x
  | .recursive M => do
    (← MulticubicRectilinearRecursive.new M (List.ofFn grids) vals lin).interpOne fma (List.ofFn x)

/-- Nearest-neighbor interpolation on a regular grid at the point `x`. -/
def nearestRegularAt (fma : Bool) (dims : Fin N → Nat) (starts steps : Fin N → T)
    (vals : List T) (x : Fin N → T) : Res T := do
  (← NearestRegular.new dims starts steps vals).interpOne fma x

/-- Nearest-neighbor interpolation on a rectilinear grid at the point `x`. -/
def nearestRectilinearAt (grids : Fin N → List T) (vals : List T) (x : Fin N → T) : Res T := do
  (← NearestRectilinear.new grids vals).interpOne x

/-- 1-D interpolation on a regular grid with the interpolator `interp` (one of the `evalOne`
functions of `Model/OneDim.lean`) at the point `loc`. -/
def regular1DAt (interp : (T → Res (GridSample T)) → T → Res T) (start step : T) (vals : List T)
    (loc : T) : Res T := do
  let g ← RegularGrid1D.new start step vals
  interp g.at loc

/-- 1-D interpolation on a rectilinear grid. -/
def rectilinear1DAt (interp : (T → Res (GridSample T)) → T → Res T) (grid vals : List T)
    (loc : T) : Res T := do
  let g ← RectilinearGrid1D.new grid vals
  interp g.at loc

/-- The five 1-D interpolators. -/
inductive Kind1D where
  | linear | linearHoldLast | left | right | nearest
  deriving DecidableEq

/-- Their `eval_one`. -/
def Kind1D.evalOne (fma : Bool) : Kind1D → (T → Res (GridSample T)) → T → Res T
  | .linear => Linear1D.evalOne fma
  | .linearHoldLast => LinearHoldLast1D.evalOne fma
  | .left => Left1D.evalOne
  | .right => Right1D.evalOne
  | .nearest => Nearest1D.evalOne

end Interpn
