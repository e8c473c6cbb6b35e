import Verif.Model.Search

/-! Model of `/repo/src/one_dim/`. -/

set_option autoImplicit false

namespace Interpn
open FloatOps

variable {T : Type} [FloatOps T]

/-- `enum Extrap`, `/repo/src/one_dim/mod.rs` 12-16. -/
inductive Extrap where
  | inside | outsideLow | outsideHigh
  deriving DecidableEq, Repr

/-- `struct GridSample`, `/repo/src/one_dim/mod.rs` 19-25. -/
structure GridSample (T : Type) where
  x0 : T
  y0 : T
  x1 : T
  y1 : T
  extrap : Extrap

/-- `struct RegularGrid1D`, `/repo/src/one_dim/mod.rs` 78-83. -/
structure RegularGrid1D (T : Type) where
  start : T
  stop : T
  step : T
  vals : List T

namespace RegularGrid1D

/-- `RegularGrid1D::new`, `/repo/src/one_dim/mod.rs` 86-95: `vals.len() - 1` overflows
(panics) for empty `vals`; nothing else is validated. -/
def new (start step : T) (vals : List T) : Res (RegularGrid1D T) := do
  match ofUsize (← usub vals.length 1) with
  | none => .err "Unrepresentable number"
  | some m => return { start, stop := start +. step *. m, step, vals }

/-- `RegularGrid1D::index`, `/repo/src/one_dim/mod.rs` 99-116. -/
def index (g : RegularGrid1D T) (loc : T) : Res (Nat × Extrap) :=
  let extrap :=
    if g.stop <. loc then Extrap.outsideHigh
    else if loc <. g.start then .outsideLow
    else .inside
  let i := floor ((loc -. g.start) /. g.step)
  match toIsize i with
  | none => .err "Unrepresentable number"
  | some i => do
    let i := asUsize (min (max i 0) (asIsize (← usub g.vals.length 2)))
    return (i, extrap)

/-- `RegularGrid1D::at`, `/repo/src/one_dim/mod.rs` 121-137. -/
def «at» (g : RegularGrid1D T) (loc : T) : Res (GridSample T) := do
  let (i, extrap) ← g.index loc
  match ofUsize i with
  | none => .err "Unrepresentable number"
  | some f =>
    let x0 := g.start +. g.step *. f
    let x1 := x0 +. g.step
    let y0 ← lget g.vals i
    let y1 ← lget g.vals (← uadd i 1)
    return { x0, y0, x1, y1, extrap }

end RegularGrid1D

/-- `struct RectilinearGrid1D`, `/repo/src/one_dim/mod.rs` 142-145. -/
structure RectilinearGrid1D (T : Type) where
  grid : List T
  vals : List T

namespace RectilinearGrid1D

/-- `RectilinearGrid1D::new`, `/repo/src/one_dim/mod.rs` 148-154. -/
def new (grid vals : List T) : Res (RectilinearGrid1D T) :=
  if grid.length ≠ vals.length ∨ grid.length < 2 then .err "Length mismatch"
  else .ok { grid, vals }

/-- `RectilinearGrid1D::index`, `/repo/src/one_dim/mod.rs` 157-168. -/
def index (g : RectilinearGrid1D T) (loc : T) : Res (Nat × Extrap) := do
  let p ← isub (asIsize (partitionPoint g.grid (fun v => v <. loc))) 1
  let i := min (asUsize (max p 0)) (← usub g.grid.length 2)
  let extrap ←
    if loc <. (← lget g.grid 0) then pure Extrap.outsideLow
    else if (← lget g.grid (← usub g.grid.length 1)) <. loc then pure .outsideHigh
    else pure .inside
  return (i, extrap)

/-- `RectilinearGrid1D::at`, `/repo/src/one_dim/mod.rs` 173-186. -/
def «at» (g : RectilinearGrid1D T) (loc : T) : Res (GridSample T) := do
  let (i, extrap) ← g.index loc
  let i1 ← uadd i 1
  let x0 ← lget g.grid i
  let x1 ← lget g.grid i1
  let y0 ← lget g.vals i
  let y1 ← lget g.vals i1
  return { x0, y0, x1, y1, extrap }

end RectilinearGrid1D

/-! ### Interpolators

The Rust types are generic in the grid `G: Grid1D`; only `self.grid.at(loc)` is used, so
the model takes the sampling function `gridAt`. -/

/-- `let slope = (y1 - y0) / (x1 - x0); let dx = loc - x0;` then `y0 + slope * dx` or
`slope.mul_add(dx, y0)` (`/repo/src/one_dim/linear.rs` 28-34 and 70-76). -/
def linear1 (fma : Bool) (g : GridSample T) (loc : T) : T :=
  let slope := (g.y1 -. g.y0) /. (g.x1 -. g.x0)
  let dx := loc -. g.x0
  if fma then mulAdd slope dx g.y0 else g.y0 +. slope *. dx

/-- `Linear1D::eval_one`, `/repo/src/one_dim/linear.rs` 25-37. -/
def Linear1D.evalOne (fma : Bool) (gridAt : T → Res (GridSample T)) (loc : T) : Res T := do
  return linear1 fma (← gridAt loc) loc

/-- `LinearHoldLast1D::eval_one`, `/repo/src/one_dim/linear.rs` 59-85. -/
def LinearHoldLast1D.evalOne (fma : Bool) (gridAt : T → Res (GridSample T)) (loc : T) :
    Res T := do
  let g ← gridAt loc
  match g.extrap with
  | .inside => return linear1 fma g loc
  | .outsideLow => return g.y0
  | .outsideHigh => return g.y1

/-- `Left1D::eval_one`, `/repo/src/one_dim/hold.rs` 24-39. -/
def Left1D.evalOne (gridAt : T → Res (GridSample T)) (loc : T) : Res T := do
  let g ← gridAt loc
  match g.extrap with
  | .outsideHigh => return g.y1
  | _ => return g.y0

/-- `Right1D::eval_one`, `/repo/src/one_dim/hold.rs` 59-74. -/
def Right1D.evalOne (gridAt : T → Res (GridSample T)) (loc : T) : Res T := do
  let g ← gridAt loc
  match g.extrap with
  | .outsideLow => return g.y0
  | _ => return g.y1

/-- `Nearest1D::eval_one`, `/repo/src/one_dim/hold.rs` 95-107. -/
def Nearest1D.evalOne (gridAt : T → Res (GridSample T)) (loc : T) : Res T := do
  let g ← gridAt loc
  let dx0 := abs (loc -. g.x0)
  let dx1 := abs (loc -. g.x1)
  return if dx0 <=. dx1 then g.y0 else g.y1

/-- `Interp1D::eval`, `/repo/src/one_dim/mod.rs` 51-61. -/
def eval1D (evalOne : T → Res T) (locs out : List T) : Res Unit × List T :=
  if locs.length ≠ out.length then (.err "Length mismatch", out)
  else batchLoop (fun i => do evalOne (← lget locs i)) locs.length 0 out

/-- `Interp1D::eval_alloc`, `/repo/src/one_dim/mod.rs` 69-73. -/
def evalAlloc1D (evalOne : T → Res T) (locs : List T) : Res (List T) := do
  let r := eval1D evalOne locs (List.replicate locs.length zero)
  let _ ← r.1
  return r.2

end Interpn
