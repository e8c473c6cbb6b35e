import Verif.Model.Multicubic.Regular
import Verif.Model.Unchecked.Multicubic.RegularRecursive

/-! `/repo/src/multicubic/regular.rs` built without overflow checks.
The same text as `Verif/Model/Multicubic/Regular.lean` with the wrapping integers of
`Verif/Model/Unchecked/Core.lean`. Structures, and definitions that do no integer arithmetic,
are shared with `Verif/Model/Multicubic/Regular.lean`. -/

set_option autoImplicit false

namespace Interpn.Unchecked
open FloatOps

variable {T : Type} [FloatOps T]

namespace MulticubicRegular
variable {N : Nat}

/-- `MulticubicRegular::new`, `/repo/src/multicubic/regular.rs` 239-288. The comparisons
`starts.len() == N`, `steps.len() == N`, `N > 0` are true by typing and by the compile-time
assertion `0 < N < 5`; copying the arrays into fresh ones of the same size is not modelled. -/
def new (dims : Fin N → Nat) (starts steps : Fin N → T) (vals : List T) (lin : Bool) :
    Res (MulticubicRegular T N) := do
  let nvals ← uprod (List.ofFn dims)
  if vals.length ≠ nvals then .err "Dimension mismatch"
  else if (List.ofFn dims).any (· < 4) then .err "All grids must have at least four entries"
  else if !((List.ofFn steps).all (fun x => zero <. x)) then
    .err "All grids must be monotonically increasing"
  else return { dims, starts, steps, vals, lin }

/-- `get_loc`, `/repo/src/multicubic/regular.rs` 432-469. -/
def getLoc (s : MulticubicRegular T N) (v : T) (dim : Nat) : Res (Nat × Saturation) := do
  let floc := floor ((v -. (← aget s.starts dim)) /. (← aget s.steps dim))
  match toIsize floc with
  | none => .err "Unrepresentable coordinate value"
  | some z =>
    let iloc ← isub z 1
    let n := asIsize (← aget s.dims dim)
    let dimmax := max (isatSub n 4) 0
    let loc := asUsize (min (max iloc 0) dimmax)
    if iloc < -1 then return (loc, .outsideLow)
    else if iloc = -1 then return (loc, .insideLow)
    else if iloc > (← isub n 3) then return (loc, .outsideHigh)
    else if iloc = (← isub n 3) then return (loc, .insideHigh)
    else return (loc, .none)

/-- First loop of `interp_one`, `/repo/src/multicubic/regular.rs` 336-362: the final values of
`(acc, dimprod, origin, sat, dts)`. -/
def setup (s : MulticubicRegular T N) (x : Fin N → T) :
    Res (Nat × (Fin N → Nat) × (Fin N → Nat) × (Fin N → Saturation) × (Fin N → T)) :=
  forRange N (1, (fun _ => 1), (fun _ => 0), (fun _ => .none), (fun _ => zero))
    fun i (acc, dimprod, origin, sat, dts) => do
      let acc ← (if 0 < i then do umul acc (← aget s.dims (N - i)) else pure acc : Res Nat)
      let dimprod ← aset dimprod (N - i - 1) acc
      let (o, st) ← getLoc s (← aget x i) i
      let origin ← aset origin i o
      let sat ← aset sat i st
      match ofUsize (← uadd (← aget origin i) 1) with
      | none => .err "Unrepresentable coordinate value"
      | some f =>
        let index_one_loc := (← aget s.starts i) +. (← aget s.steps i) *. f
        let dts ← aset dts i (((← aget x i) -. index_one_loc) /. (← aget s.steps i))
        return (acc, dimprod, origin, sat, dts)

/-- Second loop of `interp_one`, `/repo/src/multicubic/regular.rs` 368-411: the final values
of `(loc, store)`. The unroll limits 256 and 5 are not modelled (not reached for `N < 5`). -/
def vertexLoop (fma : Bool) (s : MulticubicRegular T N) (dimprod origin : Fin N → Nat)
    (sat : Fin N → Saturation) (dts : Fin N → T) :
    Res ((Fin N → Nat) × (Fin N → Fin 4 → T)) :=
  let FP := 4
  let nverts := FP ^ N
  forRange nverts ((fun _ => 0), (fun _ _ => zero)) fun i st =>
    forRange N st fun j (loc, store) =>
      if j = 0 then do
        let loc ← forRange N loc fun k loc => do
          let OFFSET := (i &&& (3 <<< (2 * k))) >>> (2 * k)
          aset loc k (← uadd (← aget origin k) OFFSET)
        let STORE_IND := i % FP
        let store ← setStore store 0 STORE_IND (← indexArrFixedDims loc dimprod s.vals)
        return (loc, store)
      else
        let Q := FP ^ j
        let P := ((i + 1) / Q - 1) % FP
        let IND := j - 1
        if (i + 1) % Q = 0 then do
          let interped := MulticubicRegular.interpInner fma (← aget store IND) (← aget dts IND)
            (← aget sat IND) s.lin
          let store ← setStore store j P interped
          return (loc, store)
        else return (loc, store)

/-- `MulticubicRegular::interp_one`, `/repo/src/multicubic/regular.rs` 325-422. -/
def interpOne (fma : Bool) (s : MulticubicRegular T N) (x : Fin N → T) : Res T := do
  let (_, dimprod, origin, sat, dts) ← setup s x
  let (_, store) ← vertexLoop fma s dimprod origin sat dts
  let last ← usub N 1
  let interped := MulticubicRegular.interpInner fma (← aget store last) (← aget dts last) (← aget sat last) s.lin
  return interped

/-- `interp`, `/repo/src/multicubic/regular.rs` 297-313. Simplification: `tmp` is
created afresh for every observation; the source reuses one array, all of whose `N` entries
are overwritten before use. -/
def interp (fma : Bool) (s : MulticubicRegular T N) (x : Fin N → List T) (out : List T) :
    Res Unit × List T :=
  let n := out.length
  if !((List.ofFn x).all fun xx => xx.length == out.length) then
    (.err "Dimension mismatch", out)
  else
    batchLoop (fun i => do
      let tmp ← forRange N ((fun _ => zero) : Fin N → T) fun j tmp => do
        aset tmp j (← lget (← aget x j) i)
      interpOne fma s tmp) n 0 out

end MulticubicRegular

/-- One flattened branch of `multicubic::regular::interpn`
(`/repo/src/multicubic/regular.rs` 66-73 and copies). -/
def cubRegularBranch (fma : Bool) (N : Nat) (dims : List Nat) (starts steps vals : List T)
    (lin : Bool) (obs : List (List T)) (out : List T) : Res Unit × List T :=
  tryOut (do
      MulticubicRegular.new (← toArr N dims) (← toArr N starts) (← toArr N steps) vals lin) out
    fun s => tryOut (toArr N obs) out fun obs => MulticubicRegular.interp fma s obs out

/-- `multicubic::regular::interpn`, `/repo/src/multicubic/regular.rs` 52-136. -/
def multicubicRegularInterpn (fma : Bool) (dims : List Nat) (starts steps vals : List T)
    (lin : Bool) (obs : List (List T)) (out : List T) : Res Unit × List T :=
  match dims.length with
  | 1 => cubRegularBranch fma 1 dims starts steps vals lin obs out
  | 2 => cubRegularBranch fma 2 dims starts steps vals lin obs out
  | 3 => cubRegularBranch fma 3 dims starts steps vals lin obs out
  | 4 => cubRegularBranch fma 4 dims starts steps vals lin obs out
  | 5 => tryOut (MulticubicRegularRecursive.new 5 dims starts steps vals lin) out
          fun s => MulticubicRegularRecursive.interp fma s obs out
  | 6 => tryOut (MulticubicRegularRecursive.new 6 dims starts steps vals lin) out
          fun s => MulticubicRegularRecursive.interp fma s obs out
  | 7 => tryOut (MulticubicRegularRecursive.new 7 dims starts steps vals lin) out
          fun s => MulticubicRegularRecursive.interp fma s obs out
  | 8 => tryOut (MulticubicRegularRecursive.new 8 dims starts steps vals lin) out
          fun s => MulticubicRegularRecursive.interp fma s obs out
  | _ => (.err errMax8, out)

/-- `multicubic::regular::interpn_alloc`, `/repo/src/multicubic/regular.rs` 143-162. -/
def multicubicRegularInterpnAlloc (fma : Bool) (dims : List Nat) (starts steps vals : List T)
    (lin : Bool) (obs : List (List T)) : Res (List T) :=
  allocRun zero obs (multicubicRegularInterpn fma dims starts steps vals lin obs)

end Interpn.Unchecked
