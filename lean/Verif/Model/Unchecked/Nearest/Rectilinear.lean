import Verif.Model.Nearest.Rectilinear
import Verif.Model.Unchecked.Core

/-! `/repo/src/nearest/rectilinear.rs` built without overflow checks.
The same text as `Verif/Model/Nearest/Rectilinear.lean` with the wrapping integers of
`Verif/Model/Unchecked/Core.lean`. Structures, and definitions that do no integer arithmetic,
are shared with `Verif/Model/Nearest/Rectilinear.lean`. -/

set_option autoImplicit false

namespace Interpn.Unchecked
open FloatOps

variable {T : Type} [FloatOps T]

namespace NearestRectilinear
variable {N : Nat}

/-- `NearestRectilinear::new`, `/repo/src/nearest/rectilinear.rs` 124-150. The compile-time
assertion `0 < N < 7` is not part of the run-time behaviour. -/
def new (grids : Fin N → List T) (vals : List T) : Res (NearestRectilinear T N) := do
  let dims ← forRange N ((fun _ => 1) : Fin N → Nat) fun i dims => do
    aset dims i (← aget grids i).length
  let nvals ← uprod (List.ofFn dims)
  if vals.length ≠ nvals then .err "Dimension mismatch"
  else if (List.ofFn dims).any (· < 2) then .err "All grids must have at least 2 entries"
  else if !(← allRes (fun g => do return (← lget g 0) <. (← lget g 1)) (List.ofFn grids)) then
    .err "All grids must be monotonically increasing"
  else return { grids, dims, vals }

/-- `get_loc`, `/repo/src/nearest/rectilinear.rs` 248-265. -/
def getLoc (s : NearestRectilinear T N) (v : T) (dim : Nat) : Res Nat := do
  let grid ← aget s.grids dim
  let iloc ← isub (asIsize (partitionPoint grid (fun x => x <. v))) 1
  let n := asIsize (← aget s.dims dim)
  let dimmax := max (isatSub n 2) 0
  let loc := asUsize (min (max iloc 0) dimmax)
  return loc

/-- Loop of `interp_one`, `/repo/src/nearest/rectilinear.rs` 203-237: the final values of
`(acc, dimprod, loc)`. The unroll limit 7 is not modelled (not reached for `N < 7`). -/
def setup (s : NearestRectilinear T N) (x : Fin N → T) :
    Res (Nat × (Fin N → Nat) × (Fin N → Nat)) :=
  let two := (one : T) +. one
  let half := (one : T) /. two
  forRange N (1, (fun _ => 1), (fun _ => 0)) fun i (acc, dimprod, loc) => do
    let acc ← (if 0 < i then do umul acc (← aget s.dims (N - i)) else pure acc : Res Nat)
    let dimprod ← aset dimprod (N - i - 1) acc
    let origin ← getLoc s (← aget x i) i
    let x0 ← lget (← aget s.grids i) origin
    let x1 ← lget (← aget s.grids i) (← uadd origin 1)
    let step := x1 -. x0
    let dt := ((← aget x i) -. x0) /. step
    let offset := if dt <=. half then 0 else 1
    let loc ← aset loc i (← uadd origin offset)
    return (acc, dimprod, loc)

/-- `NearestRectilinear::interp_one`, `/repo/src/nearest/rectilinear.rs` 193-241. -/
def interpOne (s : NearestRectilinear T N) (x : Fin N → T) : Res T := do
  let (_, dimprod, loc) ← setup s x
  indexArrFixedDims loc dimprod s.vals

/-- `NearestRectilinear::interp`, `/repo/src/nearest/rectilinear.rs` 159-180. Simplification:
`tmp` is created afresh for every observation; the source reuses one array, all of whose `N`
entries are overwritten before use. -/
def interp (s : NearestRectilinear T N) (x : Fin N → List T) (out : List T) :
    Res Unit × List T :=
  let n := out.length
  if !((List.ofFn x).all fun xx => xx.length == out.length) then
    (.err "Dimension mismatch", out)
  else
    batchLoop (fun i => do
      let tmp ← forRange N ((fun _ => zero) : Fin N → T) fun j tmp => do
        aset tmp j (← lget (← aget x j) i)
      interpOne s tmp) n 0 out

end NearestRectilinear

/-- One branch of `nearest::rectilinear::interpn` (`/repo/src/nearest/rectilinear.rs` 50-51
and copies). -/
def nearestRectilinearBranch (N : Nat) (grids : List (List T)) (vals : List T)
    (obs : List (List T)) (out : List T) : Res Unit × List T :=
  tryOut (do NearestRectilinear.new (← toArr N grids) vals) out
    fun s => tryOut (toArr N obs) out fun obs => NearestRectilinear.interp s obs out

/-- `nearest::rectilinear::interpn`, `/repo/src/nearest/rectilinear.rs` 39-66. -/
def nearestRectilinearInterpn (grids : List (List T)) (vals : List T)
    (obs : List (List T)) (out : List T) : Res Unit × List T :=
  let ndims := grids.length
  if obs.length ≠ ndims then (.err "Dimension mismatch", out)
  else
    match ndims with
    | 1 => nearestRectilinearBranch 1 grids vals obs out
    | 2 => nearestRectilinearBranch 2 grids vals obs out
    | 3 => nearestRectilinearBranch 3 grids vals obs out
    | 4 => nearestRectilinearBranch 4 grids vals obs out
    | 5 => nearestRectilinearBranch 5 grids vals obs out
    | 6 => nearestRectilinearBranch 6 grids vals obs out
    | _ => (.err "Dimension exceeds maximum (6).", out)

/-- `nearest::rectilinear::interpn_alloc`, `/repo/src/nearest/rectilinear.rs` 73-81. -/
def nearestRectilinearInterpnAlloc (grids : List (List T)) (vals : List T)
    (obs : List (List T)) : Res (List T) :=
  allocRun zero obs (nearestRectilinearInterpn grids vals obs)

end Interpn.Unchecked
