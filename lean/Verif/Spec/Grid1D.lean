import Verif.Spec.Grid

/-! Evaluation of the 1-D interpolators in exact arithmetic, on a grid of either kind. -/

set_option autoImplicit false

namespace Interpn

section
variable {K : Type} [Field K] [LinearOrder K] [FloorRing K]

attribute [local instance] exactOps

/-- 1-D interpolation of the given kind at `x` in exact arithmetic: construct the grid, then
`eval_one`. The regular 1-D grid takes its number of nodes from `vals`. -/
def interp1DAt (kind : Kind1D) (fma : Bool) (G : Axes K 1) (vals : List K) (x : K) : Res K :=
  match G with
  | .regular _ starts steps => regular1DAt (kind.evalOne fma) (starts 0) (steps 0) vals x
  | .rectilinear grids => rectilinear1DAt (kind.evalOne fma) (grids 0) vals x

end

end Interpn
