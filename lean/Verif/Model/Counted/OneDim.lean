import Verif.Model.Counted.Core
import Verif.Model.OneDim

/-! Counting copy of the evaluation functions of `Verif/Model/OneDim.lean` (`/repo/src/one_dim/*.rs`). -/

set_option autoImplicit false

open Interpn.FloatOps

namespace Interpn.Counted
variable {T : Type} [FloatOps T]

/-- `RegularGrid1D::at`, `/repo/src/one_dim/mod.rs` 121-137. -/
def RegularGrid1D.at (g : RegularGrid1D T) (loc : T) : Counted (GridSample T) := do
  let (i, extrap) ← g.index loc
  match ofUsize i with
  | none => .err "Unrepresentable number"
  | some f =>
    let x0 := g.start +. g.step *. f
    let x1 := x0 +. g.step
    tick .read
    let y0 ← lget g.vals i
    tick .read
    let y1 ← lget g.vals (← uadd i 1)
    return { x0, y0, x1, y1, extrap }

/-- `RectilinearGrid1D::index`, `/repo/src/one_dim/mod.rs` 157-168. The two comparisons with the ends of
the grid, made or not depending on the observation, are no part of the search. -/
def RectilinearGrid1D.index (g : RectilinearGrid1D T) (loc : T) : Counted (Nat × Extrap) := do
  let p ← isub (asIsize (← partitionPoint g.grid (fun v => v <. loc))) 1
  let i := min (asUsize (max p 0)) (← usub g.grid.length 2)
  let extrap ←
    if loc <. (← lget g.grid 0) then pure Extrap.outsideLow
    else if (← lget g.grid (← usub g.grid.length 1)) <. loc then pure .outsideHigh
    else pure .inside
  return (i, extrap)

/-- `RectilinearGrid1D::at`, `/repo/src/one_dim/mod.rs` 173-186. -/
def RectilinearGrid1D.at (g : RectilinearGrid1D T) (loc : T) : Counted (GridSample T) := do
  let (i, extrap) ← RectilinearGrid1D.index g loc
  let i1 ← uadd i 1
  let x0 ← lget g.grid i
  let x1 ← lget g.grid i1
  tick .read
  let y0 ← lget g.vals i
  tick .read
  let y1 ← lget g.vals i1
  return { x0, y0, x1, y1, extrap }

/-- `Linear1D::eval_one`, `/repo/src/one_dim/linear.rs` 25-37. -/
def Linear1D.evalOne (fma : Bool) (gridAt : T → Counted (GridSample T)) (loc : T) : Counted T := do
  let g ← gridAt loc
  tick .kernel
  return linear1 fma g loc

/-- `LinearHoldLast1D::eval_one`, `/repo/src/one_dim/linear.rs` 59-85. -/
def LinearHoldLast1D.evalOne (fma : Bool) (gridAt : T → Counted (GridSample T)) (loc : T) :
    Counted T := do
  let g ← gridAt loc
  match g.extrap with
  | .inside => do
    tick .kernel
    return linear1 fma g loc
  | .outsideLow => return g.y0
  | .outsideHigh => return g.y1

/-- `Left1D::eval_one`, `/repo/src/one_dim/hold.rs` 24-39. -/
def Left1D.evalOne (gridAt : T → Counted (GridSample T)) (loc : T) : Counted T := do
  let g ← gridAt loc
  match g.extrap with
  | .outsideHigh => return g.y1
  | _ => return g.y0

/-- `Right1D::eval_one`, `/repo/src/one_dim/hold.rs` 59-74. -/
def Right1D.evalOne (gridAt : T → Counted (GridSample T)) (loc : T) : Counted T := do
  let g ← gridAt loc
  match g.extrap with
  | .outsideLow => return g.y0
  | _ => return g.y1

/-- `Nearest1D::eval_one`, `/repo/src/one_dim/hold.rs` 95-107. -/
def Nearest1D.evalOne (gridAt : T → Counted (GridSample T)) (loc : T) : Counted T := do
  let g ← gridAt loc
  let dx0 := abs (loc -. g.x0)
  let dx1 := abs (loc -. g.x1)
  return if dx0 <=. dx1 then g.y0 else g.y1

/-- `Interp1D::eval`, `/repo/src/one_dim/mod.rs` 51-61. -/
def eval1D (evalOne : T → Counted T) (locs out : List T) : (Res Unit × List T) × (Op → Nat) :=
  if locs.length ≠ out.length then ((.err "Length mismatch", out), fun _ => 0)
  else batchLoop (fun i => do evalOne (← lget locs i)) locs.length 0 out

end Interpn.Counted
