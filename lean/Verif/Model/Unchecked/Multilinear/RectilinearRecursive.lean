import Verif.Model.Multilinear.RectilinearRecursive
import Verif.Model.Unchecked.Core

/-! `/repo/src/multilinear/rectilinear_recursive.rs` built without overflow checks.
The same text as `Verif/Model/Multilinear/RectilinearRecursive.lean` with the wrapping integers of
`Verif/Model/Unchecked/Core.lean`. Structures, and definitions that do no integer arithmetic,
are shared with `Verif/Model/Multilinear/RectilinearRecursive.lean`. -/

set_option autoImplicit false

namespace Interpn.Unchecked
open FloatOps

variable {T : Type} [FloatOps T]

namespace MultilinearRectilinearRecursive
variable {M : Nat}

/-- `MultilinearRectilinearRecursive::new`,
`/repo/src/multilinear/rectilinear_recursive.rs` 160-181: writing `dims[i]` panics when there
are more than `MAXDIMS` grids, before the error check is reached. -/
def new (M : Nat) (grids : List (List T)) (vals : List T) :
    Res (MultilinearRectilinearRecursive T M) := do
  let ndims := grids.length
  let dims ← forRange ndims ((fun _ => 1) : Fin M → Nat) fun i dims => do
    aset dims i (← lget grids i).length
  let nvals ← uprod ((List.ofFn dims).take ndims)
  if !(vals.length = nvals && 0 < ndims && ndims ≤ M) then .err "Dimension mismatch"
  else if ((List.ofFn dims).take ndims).any (· < 2) then
    .err "All grids must have at least 2 entries"
  else if !(← allRes (fun g => do return (← lget g 0) <. (← lget g 1)) grids) then
    .err "All grids must be monotonically increasing"
  else return { grids, dims, vals }

/-- `get_loc`, `/repo/src/multilinear/rectilinear_recursive.rs` 272-289. -/
def getLoc (s : MultilinearRectilinearRecursive T M) (v : T) (dim : Nat) : Res Nat := do
  let grid ← lget s.grids dim
  let iloc ← isub (asIsize (partitionPoint grid (fun x => x <. v))) 1
  let n := asIsize (← aget s.dims dim)
  let dimmax := max (isatSub n 2) 0
  let loc := asUsize (min (max iloc 0) dimmax)
  return loc

/-- `populate`, `/repo/src/multilinear/rectilinear_recursive.rs` 293-336. `loc` is `&mut`, so
the new `loc` is returned with the value. Slices of length `n` are arrays. The slice
`grid_cell` of two entries is represented by its two entries (taking it panics exactly when
the second one is out of bounds). -/
def populate (fma : Bool) (s : MultilinearRectilinearRecursive T M) {n : Nat}
    (origin dimprod : Fin n → Nat) (x : Fin n → T) :
    Nat → (Fin n → Nat) → Res (T × (Fin n → Nat))
  | 0, loc => do return (← indexArr loc dimprod s.vals, loc)
  | next_dim + 1, loc => do
    let (vals, loc) ← forRange 2 (((fun _ => zero) : Fin 2 → T), loc)
      fun i (vals, loc) => do
        let loc ← aset loc next_dim (← uadd (← aget origin next_dim) i)
        let (v, loc) ← populate fma s origin dimprod x next_dim loc
        return (← aset vals i v, loc)
    let loc ← aset loc next_dim (← aget origin next_dim)
    let grid ← lget s.grids next_dim
    let o ← aget origin next_dim
    let grid_cell_0 ← lget grid o
    let grid_cell_1 ← lget grid (← uadd o 1)
    let step := grid_cell_1 -. grid_cell_0
    let t := ((← aget x next_dim) -. grid_cell_0) /. step
    let y0 := vals 0
    let dy := vals 1 -. y0
    let interped := if fma then mulAdd t dy y0 else y0 +. t *. dy
    return (interped, loc)

/-- Stride loop of `interp_one`, `/repo/src/multilinear/rectilinear_recursive.rs` 245-250:
note the extra multiplication after the last write. -/
def strideLoop (s : MultilinearRectilinearRecursive T M) : Res (Fin s.grids.length → Nat) := do
  let ndims := s.grids.length
  let (_, dimprod) ← forRange ndims (1, ((fun _ => 1) : Fin ndims → Nat))
    fun i (acc, dimprod) => do
      let dimprod ← aset dimprod (ndims - i - 1) acc
      let acc ← umul acc (← aget s.dims (ndims - i - 1))
      return (acc, dimprod)
  return dimprod

/-- `MultilinearRectilinearRecursive::interp_one`,
`/repo/src/multilinear/rectilinear_recursive.rs` 224-265. A slice whose length was checked to
be `ndims` is represented as `Fin ndims → T`. -/
def interpOne (fma : Bool) (s : MultilinearRectilinearRecursive T M) (x : List T) : Res T :=
  let ndims := s.grids.length
  if h : x.length = ndims ∧ ndims ≤ M then do
    let x : Fin ndims → T := fun k => x[k.val]'(by omega)
    let dimprod ← strideLoop s
    let origin ← forRange ndims ((fun _ => 0) : Fin ndims → Nat) fun i origin => do
      aset origin i (← getLoc s (← aget x i) i)
    let (interped, _) ← populate fma s origin dimprod x ndims origin
    return interped
  else .err "Dimension mismatch"

/-- `MultilinearRectilinearRecursive::interp`,
`/repo/src/multilinear/rectilinear_recursive.rs` 190-212; cutting `tmp` to `ndims` panics when
`ndims > MAXDIMS`. Simplification: `tmp` is created afresh for every observation; the
source reuses one array, all of whose entries are overwritten before use. -/
def interp (fma : Bool) (s : MultilinearRectilinearRecursive T M) (x : List (List T))
    (out : List T) : Res Unit × List T :=
  let n := out.length
  let ndims := s.grids.length
  if x.length ≠ ndims then (.err "Dimension mismatch", out)
  else if !(x.all fun xx => xx.length == out.length) then (.err "Dimension mismatch", out)
  else if M < ndims then (.panic, out)
  else
    batchLoop (fun i => do
      let tmp ← forRange ndims ((fun _ => zero) : Fin ndims → T) fun j tmp => do
        aset tmp j (← lget (← lget x j) i)
      interpOne fma s (List.ofFn tmp)) n 0 out

end MultilinearRectilinearRecursive

/-- One branch of `multilinear::rectilinear_recursive::interpn`
(`/repo/src/multilinear/rectilinear_recursive.rs` 54 and copies). -/
def linRectilinearRecBranch (fma : Bool) (M : Nat) (grids : List (List T)) (vals : List T)
    (obs : List (List T)) (out : List T) : Res Unit × List T :=
  tryOut (MultilinearRectilinearRecursive.new M grids vals) out
    fun s => MultilinearRectilinearRecursive.interp fma s obs out

/-- `multilinear::rectilinear_recursive::interpn`,
`/repo/src/multilinear/rectilinear_recursive.rs` 43-68. -/
def multilinearRectilinearRecursiveInterpn (fma : Bool) (grids : List (List T)) (vals : List T)
    (obs : List (List T)) (out : List T) : Res Unit × List T :=
  match grids.length with
  | 1 => linRectilinearRecBranch fma 1 grids vals obs out
  | 2 => linRectilinearRecBranch fma 2 grids vals obs out
  | 3 => linRectilinearRecBranch fma 3 grids vals obs out
  | 4 => linRectilinearRecBranch fma 4 grids vals obs out
  | 5 => linRectilinearRecBranch fma 5 grids vals obs out
  | 6 => linRectilinearRecBranch fma 6 grids vals obs out
  | 7 => linRectilinearRecBranch fma 7 grids vals obs out
  | 8 => linRectilinearRecBranch fma 8 grids vals obs out
  | _ => (.err errMax8, out)

/-- `multilinear::rectilinear_recursive::interpn_alloc`,
`/repo/src/multilinear/rectilinear_recursive.rs` 75-83. -/
def multilinearRectilinearRecursiveInterpnAlloc (fma : Bool) (grids : List (List T))
    (vals : List T) (obs : List (List T)) : Res (List T) :=
  allocRun zero obs (multilinearRectilinearRecursiveInterpn fma grids vals obs)

end Interpn.Unchecked
