import Verif.Model.Search
import Verif.Model.Multicubic.Mod

/-! Model of `/repo/src/multicubic/rectilinear_recursive.rs`. -/

set_option autoImplicit false

namespace Interpn
open FloatOps

variable {T : Type} [FloatOps T]

/-- `struct MulticubicRectilinearRecursive<'a, T, MAXDIMS>`,
`/repo/src/multicubic/rectilinear_recursive.rs` 144-156. -/
structure MulticubicRectilinearRecursive (T : Type) (M : Nat) where
  grids : List (List T)
  dims : Fin M → Nat
  vals : List T
  lin : Bool

namespace MulticubicRectilinearRecursive
variable {M : Nat}

/-- `MulticubicRectilinearRecursive::new`,
`/repo/src/multicubic/rectilinear_recursive.rs` 169-199: writing `dims[i]` panics when there
are more than `MAXDIMS` grids, before the error check is reached. -/
def new (M : Nat) (grids : List (List T)) (vals : List T) (lin : Bool) :
    Res (MulticubicRectilinearRecursive T M) := do
  let ndims := grids.length
  let dims ← forRange ndims ((fun _ => 1) : Fin M → Nat) fun i dims => do
    aset dims i (← lget grids i).length
  let nvals ← uprod ((List.ofFn dims).take ndims)
  if !(vals.length = nvals && 0 < ndims && ndims ≤ M) then .err "Dimension mismatch"
  else if ((List.ofFn dims).take ndims).any (· < 4) then
    .err "All grids must have at least 4 entries"
  else if !(← allRes (fun g => do return (← lget g 0) <. (← lget g 1)) grids) then
    .err "All grids must be monotonically increasing"
  else return { grids, dims, vals, lin }

/-- `get_loc`, `/repo/src/multicubic/rectilinear_recursive.rs` 294-336. -/
def getLoc (s : MulticubicRectilinearRecursive T M) (v : T) (dim : Nat) :
    Res (Nat × Saturation) := do
  let grid ← lget s.grids dim
  let iloc ← isub (asIsize (partitionPoint grid (fun x => x <. v))) 2
  let n := asIsize (← aget s.dims dim)
  let dimmax := max (isatSub n 4) 0
  let loc := asUsize (min (max iloc 0) dimmax)
  if iloc = -2 then return (loc, .outsideLow)
  else if iloc = -1 then return (loc, .insideLow)
  else if iloc = (← isub n 2) then return (loc, .outsideHigh)
  else if iloc = (← isub n 3) then return (loc, .insideHigh)
  else return (loc, .none)

/-- `interp_inner`, `/repo/src/multicubic/rectilinear_recursive.rs` 385-539.
`grid_cell` has length four. The boundary slopes of the `Outside` branches never use
`mul_add`. -/
def interpInner (fma : Bool) (vals grid_cell : Fin 4 → T) (x : T) (sat : Saturation)
    (linearize_extrapolation : Bool) : T :=
  let two := (one : T) +. one
  match sat with
  | .none =>
    let y0 := vals 1
    let dy := vals 2 -. vals 1
    let h01 := grid_cell 1 -. grid_cell 0
    let h12 := grid_cell 2 -. grid_cell 1
    let h23 := grid_cell 3 -. grid_cell 2
    let k0 := centeredDiff fma (vals 0) (vals 1) (vals 2) (h01 /. h12) one
    let k1 := centeredDiff fma (vals 1) (vals 2) (vals 3) one (h23 /. h12)
    let t := (x -. grid_cell 1) /. h12
    hermite fma t y0 dy k0 k1
  | .insideLow =>
    let y0 := vals 1
    let dy := vals 0 -. vals 1
    let h01 := grid_cell 1 -. grid_cell 0
    let h12 := grid_cell 2 -. grid_cell 1
    let k0 := -. (centeredDiff fma (vals 0) (vals 1) (vals 2) one (h12 /. h01))
    let k1 := if fma then mulAdd two dy (-. k0) else two *. dy -. k0
    let t := (-. (x -. grid_cell 1)) /. h01
    hermite fma t y0 dy k0 k1
  | .outsideLow =>
    let y0 := vals 1
    let y1 := vals 0
    let dy := vals 0 -. vals 1
    let h01 := grid_cell 1 -. grid_cell 0
    let h12 := grid_cell 2 -. grid_cell 1
    let k0 := -. (centeredDiff fma (vals 0) (vals 1) (vals 2) one (h12 /. h01))
    let k1 := two *. dy -. k0
    let t := (-. (x -. grid_cell 1)) /. h01
    if linearize_extrapolation then
      if fma then mulAdd k1 (t -. one) y1 else y1 +. k1 *. (t -. one)
    else hermite fma t y0 dy k0 k1
  | .insideHigh =>
    let y0 := vals 2
    let dy := vals 3 -. vals 2
    let h12 := grid_cell 2 -. grid_cell 1
    let h23 := grid_cell 3 -. grid_cell 2
    let k0 := centeredDiff fma (vals 1) (vals 2) (vals 3) (h12 /. h23) one
    let k1 := if fma then mulAdd two dy (-. k0) else two *. dy -. k0
    let t := (x -. grid_cell 2) /. h23
    hermite fma t y0 dy k0 k1
  | .outsideHigh =>
    let y0 := vals 2
    let y1 := vals 3
    let dy := vals 3 -. vals 2
    let h12 := grid_cell 2 -. grid_cell 1
    let h23 := grid_cell 3 -. grid_cell 2
    let k0 := centeredDiff fma (vals 1) (vals 2) (vals 3) (h12 /. h23) one
    let k1 := two *. dy -. k0
    let t := (x -. grid_cell 2) /. h23
    if linearize_extrapolation then
      if fma then mulAdd k1 (t -. one) y1 else y1 +. k1 *. (t -. one)
    else hermite fma t y0 dy k0 k1

/-- `populate`, `/repo/src/multicubic/rectilinear_recursive.rs` 340-380. `loc` is `&mut`, so
the new `loc` is returned with the value. Slices of length `n` are arrays. -/
def populate (fma : Bool) (s : MulticubicRectilinearRecursive T M) {n : Nat}
    (sat : Fin n → Saturation) (origin dimprod : Fin n → Nat) (x : Fin n → T) :
    Nat → (Fin n → Nat) → Res (T × (Fin n → Nat))
  | 0, loc => do return (← indexArr loc dimprod s.vals, loc)
  | next_dim + 1, loc => do
    let (vals, loc) ← forRange 4 (((fun _ => zero) : Fin 4 → T), loc)
      fun i (vals, loc) => do
        let loc ← aset loc next_dim (← uadd (← aget origin next_dim) i)
        let (v, loc) ← s.populate fma sat origin dimprod x next_dim loc
        return (← aset vals i v, loc)
    let loc ← aset loc next_dim (← aget origin next_dim)
    let grid_cell ← gridCell (← lget s.grids next_dim) (← aget origin next_dim)
    let interped := interpInner fma vals grid_cell (← aget x next_dim) (← aget sat next_dim) s.lin
    return (interped, loc)

/-- Stride loop of `interp_one`, `/repo/src/multicubic/rectilinear_recursive.rs` 264-269: note the extra
multiplication after the last write. -/
def strideLoop (s : MulticubicRectilinearRecursive T M) :
    Res (Fin s.grids.length → Nat) := do
  let ndims := s.grids.length
  let (_, dimprod) ← forRange ndims (1, ((fun _ => 1) : Fin ndims → Nat))
    fun i (acc, dimprod) => do
      let dimprod ← aset dimprod (ndims - i - 1) acc
      let acc ← umul acc (← aget s.dims (ndims - i - 1))
      return (acc, dimprod)
  return dimprod

/-- `MulticubicRectilinearRecursive::interp_one`,
`/repo/src/multicubic/rectilinear_recursive.rs` 242-284. A slice whose length was checked to
be `ndims` is represented as `Fin ndims → T`. -/
def interpOne (fma : Bool) (s : MulticubicRectilinearRecursive T M) (x : List T) : Res T :=
  let ndims := s.grids.length
  if h : x.length = ndims ∧ ndims ≤ M then do
    let x : Fin ndims → T := fun k => x[k.val]'(by omega)
    let dimprod ← s.strideLoop
    let (origin, sat) ← forRange ndims
      (((fun _ => 0) : Fin ndims → Nat), ((fun _ => .none) : Fin ndims → Saturation))
      fun i (origin, sat) => do
        let (o, st) ← s.getLoc (← aget x i) i
        return (← aset origin i o, ← aset sat i st)
    let (interped, _) ← s.populate fma sat origin dimprod x ndims origin
    return interped
  else .err "Dimension mismatch"

/-- `interp`, `/repo/src/multicubic/rectilinear_recursive.rs` 208-230;
cutting `tmp` to `ndims` panics when `ndims > MAXDIMS`. Simplification: `tmp` is created
afresh for every observation; the source reuses one array, all of whose entries are
overwritten before use. -/
def interp (fma : Bool) (s : MulticubicRectilinearRecursive T M) (x : List (List T))
    (out : List T) : Res Unit × List T :=
  let n := out.length
  let ndims := s.grids.length
  if x.length ≠ ndims then (.err "Dimension mismatch", out)
  else if !(x.all fun xx => xx.length == out.length) then (.err "Dimension mismatch", out)
  else if M < ndims then (.panic, out)
  else
    batchLoop (fun i => do
      let tmp ← forRange ndims ((fun _ => zero) : Fin ndims → T) fun j tmp => do
        aset tmp j (← lget (← lget x j) i)
      s.interpOne fma (List.ofFn tmp)) n 0 out

end MulticubicRectilinearRecursive

/-- One branch of `multicubic::rectilinear_recursive::interpn`
(`/repo/src/multicubic/rectilinear_recursive.rs` 58-59 and copies). -/
def cubRectilinearRecBranch (fma : Bool) (M : Nat) (grids : List (List T)) (vals : List T)
    (lin : Bool) (obs : List (List T)) (out : List T) : Res Unit × List T :=
  tryOut (MulticubicRectilinearRecursive.new M grids vals lin) out
    fun s => s.interp fma obs out

/-- `multicubic::rectilinear_recursive::interpn`,
`/repo/src/multicubic/rectilinear_recursive.rs` 46-80. -/
def multicubicRectilinearRecursiveInterpn (fma : Bool) (grids : List (List T)) (vals : List T)
    (lin : Bool) (obs : List (List T)) (out : List T) : Res Unit × List T :=
  match grids.length with
  | 1 => cubRectilinearRecBranch fma 1 grids vals lin obs out
  | 2 => cubRectilinearRecBranch fma 2 grids vals lin obs out
  | 3 => cubRectilinearRecBranch fma 3 grids vals lin obs out
  | 4 => cubRectilinearRecBranch fma 4 grids vals lin obs out
  | 5 => cubRectilinearRecBranch fma 5 grids vals lin obs out
  | 6 => cubRectilinearRecBranch fma 6 grids vals lin obs out
  | 7 => cubRectilinearRecBranch fma 7 grids vals lin obs out
  | 8 => cubRectilinearRecBranch fma 8 grids vals lin obs out
  | _ => (.err errMax8, out)

/-- `multicubic::rectilinear_recursive::interpn_alloc`,
`/repo/src/multicubic/rectilinear_recursive.rs` 87-96. -/
def multicubicRectilinearRecursiveInterpnAlloc (fma : Bool) (grids : List (List T))
    (vals : List T) (lin : Bool) (obs : List (List T)) : Res (List T) :=
  allocRun zero obs (multicubicRectilinearRecursiveInterpn fma grids vals lin obs)

end Interpn
