import Verif.Model.Multilinear.Rectilinear
import Verif.Model.Unchecked.Multilinear.RectilinearRecursive

/-! `/repo/src/multilinear/rectilinear.rs` built without overflow checks.
The same text as `Verif/Model/Multilinear/Rectilinear.lean` with the wrapping integers of
`Verif/Model/Unchecked/Core.lean`. Structures, and definitions that do no integer arithmetic,
are shared with `Verif/Model/Multilinear/Rectilinear.lean`. -/

set_option autoImplicit false

namespace Interpn.Unchecked
open FloatOps

variable {T : Type} [FloatOps T]

namespace MultilinearRectilinear
variable {N : Nat}

/-- `MultilinearRectilinear::new`, `/repo/src/multilinear/rectilinear.rs` 175-201. The
compile-time assertion `0 < N < 7` is not part of the run-time behaviour. -/
def new (grids : Fin N → List T) (vals : List T) : Res (MultilinearRectilinear T N) := do
  let dims ← forRange N ((fun _ => 1) : Fin N → Nat) fun i dims => do
    aset dims i (← aget grids i).length
  let nvals ← uprod (List.ofFn dims)
  if vals.length ≠ nvals then .err "Dimension mismatch"
  else if (List.ofFn dims).any (· < 2) then .err "All grids must have at least 2 entries"
  else if !(← allRes (fun g => do return (← lget g 0) <. (← lget g 1)) (List.ofFn grids)) then
    .err "All grids must be monotonically increasing"
  else return { grids, dims, vals }

/-- `get_loc`, `/repo/src/multilinear/rectilinear.rs` 353-370. -/
def getLoc (s : MultilinearRectilinear T N) (v : T) (dim : Nat) : Res Nat := do
  let grid ← aget s.grids dim
  let iloc ← isub (asIsize (partitionPoint grid (fun x => x <. v))) 1
  let n := asIsize (← aget s.dims dim)
  let dimmax := max (isatSub n 2) 0
  let loc := asUsize (min (max iloc 0) dimmax)
  return loc

/-- First loop of `interp_one`, `/repo/src/multilinear/rectilinear.rs` 256-273: the final
values of `(acc, dimprod, origin)`. -/
def setup (s : MultilinearRectilinear T N) (x : Fin N → T) :
    Res (Nat × (Fin N → Nat) × (Fin N → Nat)) :=
  forRange N (1, (fun _ => 1), (fun _ => 0)) fun i (acc, dimprod, origin) => do
    let acc ← (if 0 < i then do umul acc (← aget s.dims (N - i)) else pure acc : Res Nat)
    let dimprod ← aset dimprod (N - i - 1) acc
    let origin ← aset origin i (← getLoc s (← aget x i) i)
    return (acc, dimprod, origin)

/-- Second loop of `interp_one`, `/repo/src/multilinear/rectilinear.rs` 279-327: the final
values of `(loc, store)`. The unroll limits 64 and 7 are not modelled (not reached for
`N < 7`). -/
def vertexLoop (fma : Bool) (s : MultilinearRectilinear T N) (x : Fin N → T)
    (dimprod origin : Fin N → Nat) : Res ((Fin N → Nat) × (Fin N → Fin 2 → T)) :=
  let FP := 2
  let nverts := FP ^ N
  forRange nverts ((fun _ => 0), (fun _ _ => zero)) fun i st =>
    forRange N st fun j (loc, store) =>
      if j = 0 then do
        let loc ← forRange N loc fun k loc => do
          let OFFSET := (i &&& (1 <<< k)) >>> k
          aset loc k (← uadd (← aget origin k) OFFSET)
        let STORE_IND := i % FP
        let store ← setStore store 0 STORE_IND (← indexArrFixedDims loc dimprod s.vals)
        return (loc, store)
      else
        let Q := FP ^ j
        let P := ((i + 1) / Q - 1) % FP
        let IND := j - 1
        if (i + 1) % Q = 0 then do
          let x0 ← lget (← aget s.grids IND) (← aget origin IND)
          let x1 ← lget (← aget s.grids IND) (← uadd (← aget origin IND) 1)
          let step := x1 -. x0
          let t := ((← aget x IND) -. x0) /. step
          let y0 := (← aget store IND) 0
          let dy := (← aget store IND) 1 -. y0
          let interped := if fma then mulAdd t dy y0 else y0 +. t *. dy
          let store ← setStore store j P interped
          return (loc, store)
        else return (loc, store)

/-- `MultilinearRectilinear::interp_one`, `/repo/src/multilinear/rectilinear.rs` 244-346. -/
def interpOne (fma : Bool) (s : MultilinearRectilinear T N) (x : Fin N → T) : Res T := do
  let (_, dimprod, origin) ← setup s x
  let (_, store) ← vertexLoop fma s x dimprod origin
  let ind ← usub N 1
  let x0 ← lget (← aget s.grids ind) (← aget origin ind)
  let x1 ← lget (← aget s.grids ind) (← uadd (← aget origin ind) 1)
  let step := x1 -. x0
  let t := ((← aget x ind) -. x0) /. step
  let y0 := (← aget store ind) 0
  let dy := (← aget store ind) 1 -. y0
  let interped := if fma then mulAdd t dy y0 else y0 +. t *. dy
  return interped

/-- `MultilinearRectilinear::interp`, `/repo/src/multilinear/rectilinear.rs` 210-231.
Simplification: `tmp` is created afresh for every observation; the source reuses one array,
all of whose `N` entries are overwritten before use. -/
def interp (fma : Bool) (s : MultilinearRectilinear T N) (x : Fin N → List T) (out : List T) :
    Res Unit × List T :=
  let n := out.length
  if !((List.ofFn x).all fun xx => xx.length == out.length) then
    (.err "Dimension mismatch", out)
  else
    batchLoop (fun i => do
      let tmp ← forRange N ((fun _ => zero) : Fin N → T) fun j tmp => do
        aset tmp j (← lget (← aget x j) i)
      interpOne fma s tmp) n 0 out

end MultilinearRectilinear

/-- One flattened branch of `multilinear::rectilinear::interpn`
(`/repo/src/multilinear/rectilinear.rs` 63-64 and the five copies after it). -/
def linRectilinearBranch (fma : Bool) (N : Nat) (grids : List (List T)) (vals : List T)
    (obs : List (List T)) (out : List T) : Res Unit × List T :=
  tryOut (do MultilinearRectilinear.new (← toArr N grids) vals) out
    fun s => tryOut (toArr N obs) out fun obs => MultilinearRectilinear.interp fma s obs out

/-- `multilinear::rectilinear::interpn`, `/repo/src/multilinear/rectilinear.rs` 49-83. -/
def multilinearRectilinearInterpn (fma : Bool) (grids : List (List T)) (vals : List T)
    (obs : List (List T)) (out : List T) : Res Unit × List T :=
  let ndims := grids.length
  if obs.length ≠ ndims then (.err "Dimension mismatch", out)
  else
    match ndims with
    | 1 => linRectilinearBranch fma 1 grids vals obs out
    | 2 => linRectilinearBranch fma 2 grids vals obs out
    | 3 => linRectilinearBranch fma 3 grids vals obs out
    | 4 => linRectilinearBranch fma 4 grids vals obs out
    | 5 => linRectilinearBranch fma 5 grids vals obs out
    | 6 => linRectilinearBranch fma 6 grids vals obs out
    | 7 => tryOut (MultilinearRectilinearRecursive.new 7 grids vals) out
            fun s => MultilinearRectilinearRecursive.interp fma s obs out
    | 8 => tryOut (MultilinearRectilinearRecursive.new 8 grids vals) out
            fun s => MultilinearRectilinearRecursive.interp fma s obs out
    | _ => (.err errMax8, out)

/-- `multilinear::rectilinear::interpn_alloc`, `/repo/src/multilinear/rectilinear.rs` 90-98. -/
def multilinearRectilinearInterpnAlloc (fma : Bool) (grids : List (List T)) (vals : List T)
    (obs : List (List T)) : Res (List T) :=
  allocRun zero obs (multilinearRectilinearInterpn fma grids vals obs)

end Interpn.Unchecked
