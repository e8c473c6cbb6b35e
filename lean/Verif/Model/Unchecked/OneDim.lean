import Verif.Model.OneDim
import Verif.Model.Unchecked.Core

/-! `/repo/src/one_dim/` built without overflow checks.
The same text as `Verif/Model/OneDim.lean` with the wrapping integers of
`Verif/Model/Unchecked/Core.lean`. Structures, and definitions that do no integer arithmetic,
are shared with `Verif/Model/OneDim.lean`. -/

set_option autoImplicit false

namespace Interpn.Unchecked
open FloatOps

variable {T : Type} [FloatOps T]

namespace RegularGrid1D

/-- `RegularGrid1D::new`, `/repo/src/one_dim/mod.rs` 86-95: `vals.len() - 1` wraps
for empty `vals`; nothing else is validated. -/
def new (start step : T) (vals : List T) : Res (RegularGrid1D T) := do
  match ofUsize (← usub vals.length 1) with
  | none => .err "Unrepresentable number"
  | some m => return { start, stop := start +. step *. m, step, vals }

/-- `RegularGrid1D::index`, `/repo/src/one_dim/mod.rs` 99-116. -/
def index (g : RegularGrid1D T) (loc : T) : Res (Nat × Extrap) :=
  let extrap :=
    if g.stop <. loc then Extrap.outsideHigh
    else if loc <. g.start then .outsideLow
    else .inside
  let i := floor ((loc -. g.start) /. g.step)
  match toIsize i with
  | none => .err "Unrepresentable number"
  | some i => do
    let i := asUsize (min (max i 0) (asIsize (← usub g.vals.length 2)))
    return (i, extrap)

/-- `RegularGrid1D::at`, `/repo/src/one_dim/mod.rs` 121-137. -/
def «at» (g : RegularGrid1D T) (loc : T) : Res (GridSample T) := do
  let (i, extrap) ← index g loc
  match ofUsize i with
  | none => .err "Unrepresentable number"
  | some f =>
    let x0 := g.start +. g.step *. f
    let x1 := x0 +. g.step
    let y0 ← lget g.vals i
    let y1 ← lget g.vals (← uadd i 1)
    return { x0, y0, x1, y1, extrap }

end RegularGrid1D

namespace RectilinearGrid1D

/-- `RectilinearGrid1D::new`, `/repo/src/one_dim/mod.rs` 148-154. -/
def new (grid vals : List T) : Res (RectilinearGrid1D T) :=
  if grid.length ≠ vals.length ∨ grid.length < 2 then .err "Length mismatch"
  else .ok { grid, vals }

/-- `RectilinearGrid1D::index`, `/repo/src/one_dim/mod.rs` 157-168. -/
def index (g : RectilinearGrid1D T) (loc : T) : Res (Nat × Extrap) := do
  let p ← isub (asIsize (partitionPoint g.grid (fun v => v <. loc))) 1
  let i := min (asUsize (max p 0)) (← usub g.grid.length 2)
  let extrap ←
    if loc <. (← lget g.grid 0) then pure Extrap.outsideLow
    else if (← lget g.grid (← usub g.grid.length 1)) <. loc then pure .outsideHigh
    else pure .inside
  return (i, extrap)

/-- `RectilinearGrid1D::at`, `/repo/src/one_dim/mod.rs` 173-186. -/
def «at» (g : RectilinearGrid1D T) (loc : T) : Res (GridSample T) := do
  let (i, extrap) ← index g loc
  let i1 ← uadd i 1
  let x0 ← lget g.grid i
  let x1 ← lget g.grid i1
  let y0 ← lget g.vals i
  let y1 ← lget g.vals i1
  return { x0, y0, x1, y1, extrap }

end RectilinearGrid1D

end Interpn.Unchecked
