import Verif.Model.Multicubic.RectilinearRecursive

/-! Model of `/repo/src/multicubic/rectilinear.rs`. -/

set_option autoImplicit false

namespace Interpn
open FloatOps

variable {T : Type} [FloatOps T]

/-- `struct MulticubicRectilinear<'a, T, N>`, `/repo/src/multicubic/rectilinear.rs` 168-180. -/
structure MulticubicRectilinear (T : Type) (N : Nat) where
  grids : Fin N → List T
  dims : Fin N → Nat
  vals : List T
  lin : Bool

namespace MulticubicRectilinear
variable {N : Nat}

/-- `MulticubicRectilinear::new`, `/repo/src/multicubic/rectilinear.rs` 193-228. The
compile-time assertion `0 < N < 5` is not part of the run-time behaviour. -/
def new (grids : Fin N → List T) (vals : List T) (lin : Bool) :
    Res (MulticubicRectilinear T N) := do
  let dims ← forRange N ((fun _ => 1) : Fin N → Nat) fun i dims => do
    aset dims i (← aget grids i).length
  let nvals ← uprod (List.ofFn dims)
  if vals.length ≠ nvals then .err "Dimension mismatch"
  else if (List.ofFn dims).any (· < 4) then .err "All grids must have at least 4 entries"
  else if !(← allRes (fun g => do return (← lget g 0) <. (← lget g 1)) (List.ofFn grids)) then
    .err "All grids must be monotonically increasing"
  else return { grids, dims, vals, lin }

/-- `get_loc`, `/repo/src/multicubic/rectilinear.rs` 366-408. -/
def getLoc (s : MulticubicRectilinear T N) (v : T) (dim : Nat) :
    Res (Nat × Saturation) := do
  let grid ← aget s.grids dim
  let iloc ← isub (asIsize (partitionPoint grid (fun x => x <. v))) 2
  let n := asIsize (← aget s.dims dim)
  let dimmax := max (isatSub n 4) 0
  let loc := asUsize (min (max iloc 0) dimmax)
  if iloc = -2 then return (loc, .outsideLow)
  else if iloc = -1 then return (loc, .insideLow)
  else if iloc = (← isub n 2) then return (loc, .outsideHigh)
  else if iloc = (← isub n 3) then return (loc, .insideHigh)
  else return (loc, .none)

/-- `interp_inner`, `/repo/src/multicubic/rectilinear.rs` 413-545. `mul_add` is used
only inside the two helpers. -/
def interpInner (fma : Bool) (vals grid_cell : Fin 4 → T) (x : T) (sat : Saturation)
    (linearize_extrapolation : Bool) : T :=
  let two := (one : T) +. one
  match sat with
  | .none =>
    let y0 := vals 1
    let dy := vals 2 -. vals 1
    let h01 := grid_cell 1 -. grid_cell 0
    let h12 := grid_cell 2 -. grid_cell 1
    let h23 := grid_cell 3 -. grid_cell 2
    let k0 := centeredDiff fma (vals 0) (vals 1) (vals 2) (h01 /. h12) one
    let k1 := centeredDiff fma (vals 1) (vals 2) (vals 3) one (h23 /. h12)
    let t := (x -. grid_cell 1) /. h12
    hermite fma t y0 dy k0 k1
  | .insideLow =>
    let y0 := vals 1
    let dy := vals 0 -. vals 1
    let h01 := grid_cell 1 -. grid_cell 0
    let h12 := grid_cell 2 -. grid_cell 1
    let k0 := -. (centeredDiff fma (vals 0) (vals 1) (vals 2) one (h12 /. h01))
    let k1 := two *. dy -. k0
    let t := (-. (x -. grid_cell 1)) /. h01
    hermite fma t y0 dy k0 k1
  | .outsideLow =>
    let y0 := vals 1
    let y1 := vals 0
    let dy := vals 0 -. vals 1
    let h01 := grid_cell 1 -. grid_cell 0
    let h12 := grid_cell 2 -. grid_cell 1
    let k0 := -. (centeredDiff fma (vals 0) (vals 1) (vals 2) one (h12 /. h01))
    let k1 := two *. dy -. k0
    let t := (-. (x -. grid_cell 1)) /. h01
    if linearize_extrapolation then
      y1 +. k1 *. (t -. one)
    else hermite fma t y0 dy k0 k1
  | .insideHigh =>
    let y0 := vals 2
    let dy := vals 3 -. vals 2
    let h12 := grid_cell 2 -. grid_cell 1
    let h23 := grid_cell 3 -. grid_cell 2
    let k0 := centeredDiff fma (vals 1) (vals 2) (vals 3) (h12 /. h23) one
    let k1 := two *. dy -. k0
    let t := (x -. grid_cell 2) /. h23
    hermite fma t y0 dy k0 k1
  | .outsideHigh =>
    let y0 := vals 2
    let y1 := vals 3
    let dy := vals 3 -. vals 2
    let h12 := grid_cell 2 -. grid_cell 1
    let h23 := grid_cell 3 -. grid_cell 2
    let k0 := centeredDiff fma (vals 1) (vals 2) (vals 3) (h12 /. h23) one
    let k1 := two *. dy -. k0
    let t := (x -. grid_cell 2) /. h23
    if linearize_extrapolation then
      y1 +. k1 *. (t -. one)
    else hermite fma t y0 dy k0 k1

/-- First loop of `interp_one`, `/repo/src/multicubic/rectilinear.rs` 275-292: the final values
of `(acc, dimprod, origin, sat)`. -/
def setup (s : MulticubicRectilinear T N) (x : Fin N → T) :
    Res (Nat × (Fin N → Nat) × (Fin N → Nat) × (Fin N → Saturation)) :=
  forRange N (1, (fun _ => 1), (fun _ => 0), (fun _ => .none))
    fun i (acc, dimprod, origin, sat) => do
      let acc ← (if 0 < i then do umul acc (← aget s.dims (N - i)) else pure acc : Res Nat)
      let dimprod ← aset dimprod (N - i - 1) acc
      let (o, st) ← s.getLoc (← aget x i) i
      let origin ← aset origin i o
      let sat ← aset sat i st
      return (acc, dimprod, origin, sat)

/-- Second loop of `interp_one`, `/repo/src/multicubic/rectilinear.rs` 298-343: the final
values of `(loc, store)`. The unroll limits 256 and 5 are not modelled (not reached for
`N < 5`). -/
def vertexLoop (fma : Bool) (s : MulticubicRectilinear T N) (x : Fin N → T)
    (dimprod origin : Fin N → Nat) (sat : Fin N → Saturation) :
    Res ((Fin N → Nat) × (Fin N → Fin 4 → T)) :=
  let FP := 4
  let nverts := FP ^ N
  forRange nverts ((fun _ => 0), (fun _ _ => zero)) fun i st =>
    forRange N st fun j (loc, store) =>
      if j = 0 then do
        let loc ← forRange N loc fun k loc => do
          let OFFSET := (i &&& (3 <<< (2 * k))) >>> (2 * k)
          aset loc k (← uadd (← aget origin k) OFFSET)
        let STORE_IND := i % FP
        let store ← setStore store 0 STORE_IND (← indexArrFixedDims loc dimprod s.vals)
        return (loc, store)
      else
        let Q := FP ^ j
        let P := ((i + 1) / Q - 1) % FP
        let IND := j - 1
        if (i + 1) % Q = 0 then do
          let grid_cell ← gridCell (← aget s.grids IND) (← aget origin IND)
          let interped := interpInner fma (← aget store IND) grid_cell (← aget x IND)
            (← aget sat IND) s.lin
          let store ← setStore store j P interped
          return (loc, store)
        else return (loc, store)

/-- `MulticubicRectilinear::interp_one`, `/repo/src/multicubic/rectilinear.rs` 265-356. -/
def interpOne (fma : Bool) (s : MulticubicRectilinear T N) (x : Fin N → T) : Res T := do
  let (_, dimprod, origin, sat) ← s.setup x
  let (_, store) ← s.vertexLoop fma x dimprod origin sat
  let last ← usub N 1
  let grid_cell ← gridCell (← aget s.grids last) (← aget origin last)
  let interped := interpInner fma (← aget store last) grid_cell (← aget x last)
    (← aget sat last) s.lin
  return interped

/-- `interp`, `/repo/src/multicubic/rectilinear.rs` 237-253. Simplification: `tmp` is
created afresh for every observation; the source reuses one array, all of whose `N` entries
are overwritten before use. -/
def interp (fma : Bool) (s : MulticubicRectilinear T N) (x : Fin N → List T) (out : List T) :
    Res Unit × List T :=
  let n := out.length
  if !((List.ofFn x).all fun xx => xx.length == out.length) then
    (.err "Dimension mismatch", out)
  else
    batchLoop (fun i => do
      let tmp ← forRange N ((fun _ => zero) : Fin N → T) fun j tmp => do
        aset tmp j (← lget (← aget x j) i)
      s.interpOne fma tmp) n 0 out

end MulticubicRectilinear

/-- One flattened branch of `multicubic::rectilinear::interpn`
(`/repo/src/multicubic/rectilinear.rs` 66-71 and copies). -/
def cubRectilinearBranch (fma : Bool) (N : Nat) (grids : List (List T)) (vals : List T)
    (lin : Bool) (obs : List (List T)) (out : List T) : Res Unit × List T :=
  tryOut (do MulticubicRectilinear.new (← toArr N grids) vals lin) out
    fun s => tryOut (toArr N obs) out fun obs => s.interp fma obs out

/-- `multicubic::rectilinear::interpn`, `/repo/src/multicubic/rectilinear.rs` 54-104. -/
def multicubicRectilinearInterpn (fma : Bool) (grids : List (List T)) (vals : List T)
    (lin : Bool) (obs : List (List T)) (out : List T) : Res Unit × List T :=
  match grids.length with
  | 1 => cubRectilinearBranch fma 1 grids vals lin obs out
  | 2 => cubRectilinearBranch fma 2 grids vals lin obs out
  | 3 => cubRectilinearBranch fma 3 grids vals lin obs out
  | 4 => cubRectilinearBranch fma 4 grids vals lin obs out
  | 5 => tryOut (MulticubicRectilinearRecursive.new 5 grids vals lin) out
          fun s => s.interp fma obs out
  | 6 => tryOut (MulticubicRectilinearRecursive.new 6 grids vals lin) out
          fun s => s.interp fma obs out
  | 7 => tryOut (MulticubicRectilinearRecursive.new 7 grids vals lin) out
          fun s => s.interp fma obs out
  | 8 => tryOut (MulticubicRectilinearRecursive.new 8 grids vals lin) out
          fun s => s.interp fma obs out
  | _ => (.err errMax8, out)

/-- `multicubic::rectilinear::interpn_alloc`, `/repo/src/multicubic/rectilinear.rs` 111-120. -/
def multicubicRectilinearInterpnAlloc (fma : Bool) (grids : List (List T)) (vals : List T)
    (lin : Bool) (obs : List (List T)) : Res (List T) :=
  allocRun zero obs (multicubicRectilinearInterpn fma grids vals lin obs)

end Interpn
