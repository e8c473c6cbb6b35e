import Verif.Model.Core

/-! Model of `/repo/src/nearest/regular.rs`. -/

set_option autoImplicit false

namespace Interpn
open FloatOps

variable {T : Type} [FloatOps T]

/-- `struct NearestRegular<'a, T, N>`, `/repo/src/nearest/regular.rs` 138-150. -/
structure NearestRegular (T : Type) (N : Nat) where
  dims : Fin N → Nat
  starts : Fin N → T
  steps : Fin N → T
  vals : List T

namespace NearestRegular
variable {N : Nat}

/-- `NearestRegular::new`, `/repo/src/nearest/regular.rs` 163-197. The compile-time assertion
`0 < N < 7` is not part of the run-time behaviour. -/
def new (dims : Fin N → Nat) (starts steps : Fin N → T) (vals : List T) :
    Res (NearestRegular T N) := do
  let nvals ← uprod (List.ofFn dims)
  if vals.length ≠ nvals then .err "Dimension mismatch"
  else if (List.ofFn dims).any (· < 2) then .err "All grids must have at least two entries"
  else if !((List.ofFn steps).all (fun x => zero <. x)) then
    .err "All grids must be monotonically increasing"
  else return { dims, starts, steps, vals }

/-- `get_loc`, `/repo/src/nearest/regular.rs` 305-316. -/
def getLoc (s : NearestRegular T N) (v : T) (dim : Nat) : Res Nat := do
  let floc := floor ((v -. (← aget s.starts dim)) /. (← aget s.steps dim))
  match toIsize floc with
  | none => .err "Unrepresentable coordinate value"
  | some iloc =>
    let n := asIsize (← aget s.dims dim)
    let dimmax := max (isatSub n 2) 0
    let loc := asUsize (min (max iloc 0) dimmax)
    return loc

/-- Loop of `interp_one`, `/repo/src/nearest/regular.rs` 250-291: the final values of
`(acc, dimprod, loc)`. The unroll limit 7 is not modelled (not reached for `N < 7`). -/
def setup (fma : Bool) (s : NearestRegular T N) (x : Fin N → T) :
    Res (Nat × (Fin N → Nat) × (Fin N → Nat)) :=
  let two := (one : T) +. one
  let half := (one : T) /. two
  forRange N (1, (fun _ => 1), (fun _ => 0)) fun i (acc, dimprod, loc) => do
    let acc ← (if 0 < i then do umul acc (← aget s.dims (N - i)) else pure acc : Res Nat)
    let dimprod ← aset dimprod (N - i - 1) acc
    let origin ← s.getLoc (← aget x i) i
    match ofUsize origin with
    | none => .err "Unrepresentable coordinate value"
    | some origin_f =>
      let start ← aget s.starts i
      let step ← aget s.steps i
      let index_zero_loc :=
        if fma then mulAdd step origin_f start else start +. step *. origin_f
      let dt := ((← aget x i) -. index_zero_loc) /. step
      let offset := if dt <=. half then 0 else 1
      let loc ← aset loc i (← uadd origin offset)
      return (acc, dimprod, loc)

/-- `NearestRegular::interp_one`, `/repo/src/nearest/regular.rs` 234-295. -/
def interpOne (fma : Bool) (s : NearestRegular T N) (x : Fin N → T) : Res T := do
  let (_, dimprod, loc) ← s.setup fma x
  indexArrFixedDims loc dimprod s.vals

/-- `NearestRegular::interp`, `/repo/src/nearest/regular.rs` 206-221. Simplification: `tmp`
is created afresh for every observation; the source reuses one array, all of whose `N`
entries are overwritten before use. -/
def interp (fma : Bool) (s : NearestRegular T N) (x : Fin N → List T) (out : List T) :
    Res Unit × List T :=
  let n := out.length
  if !((List.ofFn x).all fun xx => xx.length == out.length) then
    (.err "Dimension mismatch", out)
  else
    batchLoop (fun i => do
      let tmp ← forRange N ((fun _ => zero) : Fin N → T) fun j tmp => do
        aset tmp j (← lget (← aget x j) i)
      s.interpOne fma tmp) n 0 out

end NearestRegular

/-- One branch of `nearest::regular::interpn` (`/repo/src/nearest/regular.rs` 55-61 and
copies). -/
def nearestRegularBranch (fma : Bool) (N : Nat) (dims : List Nat) (starts steps vals : List T)
    (obs : List (List T)) (out : List T) : Res Unit × List T :=
  tryOut (do NearestRegular.new (← toArr N dims) (← toArr N starts) (← toArr N steps) vals) out
    fun s => tryOut (toArr N obs) out fun obs => s.interp fma obs out

/-- `nearest::regular::interpn`, `/repo/src/nearest/regular.rs` 41-101. -/
def nearestRegularInterpn (fma : Bool) (dims : List Nat) (starts steps vals : List T)
    (obs : List (List T)) (out : List T) : Res Unit × List T :=
  let ndims := dims.length
  if starts.length ≠ ndims || steps.length ≠ ndims || obs.length ≠ ndims then
    (.err "Dimension mismatch", out)
  else
    match ndims with
    | 1 => nearestRegularBranch fma 1 dims starts steps vals obs out
    | 2 => nearestRegularBranch fma 2 dims starts steps vals obs out
    | 3 => nearestRegularBranch fma 3 dims starts steps vals obs out
    | 4 => nearestRegularBranch fma 4 dims starts steps vals obs out
    | 5 => nearestRegularBranch fma 5 dims starts steps vals obs out
    | 6 => nearestRegularBranch fma 6 dims starts steps vals obs out
    | _ => (.err "Dimension exceeds maximum (6).", out)

/-- `nearest::regular::interpn_alloc`, `/repo/src/nearest/regular.rs` 108-118. -/
def nearestRegularInterpnAlloc (fma : Bool) (dims : List Nat) (starts steps vals : List T)
    (obs : List (List T)) : Res (List T) :=
  allocRun zero obs (nearestRegularInterpn fma dims starts steps vals obs)

end Interpn
