import Verif.Model.Counted.Core
import Verif.Model.Nearest

/-! Counting copy of the evaluation functions of `Verif/Model/Nearest/*.lean`
(`/repo/src/nearest/*.rs`). -/

set_option autoImplicit false

open Interpn.FloatOps

namespace Interpn.Counted.NearestRegular
variable {T : Type} [FloatOps T] {N : Nat}

/-- `get_loc`, `/repo/src/nearest/regular.rs` 305-316. -/
def getLoc (s : NearestRegular T N) (v : T) (dim : Nat) : Counted Nat := do
  let floc := floor ((v -. (← aget s.starts dim)) /. (← aget s.steps dim))
  match toIsize floc with
  | none => .err "Unrepresentable coordinate value"
  | some iloc =>
    let n := asIsize (← aget s.dims dim)
    let dimmax := max (isatSub n 2) 0
    let loc := asUsize (min (max iloc 0) dimmax)
    return loc

/-- Loop of `interp_one`, `/repo/src/nearest/regular.rs` 250-291: the final values of
`(acc, dimprod, loc)`. The unroll limit 7 is not modelled (not reached for `N < 7`). -/
def setup (fma : Bool) (s : NearestRegular T N) (x : Fin N → T) :
    Counted (Nat × (Fin N → Nat) × (Fin N → Nat)) :=
  let two := (one : T) +. one
  let half := (one : T) /. two
  forRange N (1, (fun _ => 1), (fun _ => 0)) fun i (acc, dimprod, loc) => do
    let acc ← (if 0 < i then do umul acc (← aget s.dims (N - i)) else pure acc : Res Nat)
    let dimprod ← aset dimprod (N - i - 1) acc
    let origin ← getLoc s (← aget x i) i
    match ofUsize origin with
    | none => .err "Unrepresentable coordinate value"
    | some origin_f =>
      let start ← aget s.starts i
      let step ← aget s.steps i
      let index_zero_loc :=
        if fma then mulAdd step origin_f start else start +. step *. origin_f
      let dt := ((← aget x i) -. index_zero_loc) /. step
      let offset := if dt <=. half then 0 else 1
      let loc ← aset loc i (← uadd origin offset)
      return (acc, dimprod, loc)

/-- `NearestRegular::interp_one`, `/repo/src/nearest/regular.rs` 234-295. -/
def interpOne (fma : Bool) (s : NearestRegular T N) (x : Fin N → T) : Counted T := do
  let (_, dimprod, loc) ← setup fma s x
  indexArrFixedDims loc dimprod s.vals

/-- `NearestRegular::interp`, `/repo/src/nearest/regular.rs` 206-221. Simplification: `tmp`
is created afresh for every observation; the source reuses one array, all of whose `N`
entries are overwritten before use. -/
def interp (fma : Bool) (s : NearestRegular T N) (x : Fin N → List T) (out : List T) :
    (Res Unit × List T) × (Op → Nat) :=
  let n := out.length
  if !((List.ofFn x).all fun xx => xx.length == out.length) then
    ((.err "Dimension mismatch", out), fun _ => 0)
  else
    batchLoop (fun i => do
      let tmp ← forRange N ((fun _ => zero) : Fin N → T) fun j tmp => do
        aset tmp j (← lget (← aget x j) i)
      interpOne fma s tmp) n 0 out

end Interpn.Counted.NearestRegular

namespace Interpn.Counted.NearestRectilinear
variable {T : Type} [FloatOps T] {N : Nat}

/-- `get_loc`, `/repo/src/nearest/rectilinear.rs` 248-265. -/
def getLoc (s : NearestRectilinear T N) (v : T) (dim : Nat) : Counted Nat := do
  let grid ← aget s.grids dim
  let iloc ← isub (asIsize (← partitionPoint grid (fun x => x <. v))) 1
  let n := asIsize (← aget s.dims dim)
  let dimmax := max (isatSub n 2) 0
  let loc := asUsize (min (max iloc 0) dimmax)
  return loc

/-- Loop of `interp_one`, `/repo/src/nearest/rectilinear.rs` 203-237: the final values of
`(acc, dimprod, loc)`. The unroll limit 7 is not modelled (not reached for `N < 7`). -/
def setup (s : NearestRectilinear T N) (x : Fin N → T) :
    Counted (Nat × (Fin N → Nat) × (Fin N → Nat)) :=
  let two := (one : T) +. one
  let half := (one : T) /. two
  forRange N (1, (fun _ => 1), (fun _ => 0)) fun i (acc, dimprod, loc) => do
    let acc ← (if 0 < i then do umul acc (← aget s.dims (N - i)) else pure acc : Res Nat)
    let dimprod ← aset dimprod (N - i - 1) acc
    let origin ← getLoc s (← aget x i) i
    let x0 ← lget (← aget s.grids i) origin
    let x1 ← lget (← aget s.grids i) (← uadd origin 1)
    let step := x1 -. x0
    let dt := ((← aget x i) -. x0) /. step
    let offset := if dt <=. half then 0 else 1
    let loc ← aset loc i (← uadd origin offset)
    return (acc, dimprod, loc)

/-- `NearestRectilinear::interp_one`, `/repo/src/nearest/rectilinear.rs` 193-241. -/
def interpOne (s : NearestRectilinear T N) (x : Fin N → T) : Counted T := do
  let (_, dimprod, loc) ← setup s x
  indexArrFixedDims loc dimprod s.vals

/-- `NearestRectilinear::interp`, `/repo/src/nearest/rectilinear.rs` 159-180. Simplification:
`tmp` is created afresh for every observation; the source reuses one array, all of whose `N`
entries are overwritten before use. -/
def interp (s : NearestRectilinear T N) (x : Fin N → List T) (out : List T) :
    (Res Unit × List T) × (Op → Nat) :=
  let n := out.length
  if !((List.ofFn x).all fun xx => xx.length == out.length) then
    ((.err "Dimension mismatch", out), fun _ => 0)
  else
    batchLoop (fun i => do
      let tmp ← forRange N ((fun _ => zero) : Fin N → T) fun j tmp => do
        aset tmp j (← lget (← aget x j) i)
      interpOne s tmp) n 0 out

end Interpn.Counted.NearestRectilinear
