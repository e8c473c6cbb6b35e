import Verif.Model.Multilinear.Regular
import Verif.Model.Unchecked.Multilinear.RegularRecursive

/-! `/repo/src/multilinear/regular.rs` built without overflow checks.
The same text as `Verif/Model/Multilinear/Regular.lean` with the wrapping integers of
`Verif/Model/Unchecked/Core.lean`. Structures, and definitions that do no integer arithmetic,
are shared with `Verif/Model/Multilinear/Regular.lean`. -/

set_option autoImplicit false

namespace Interpn.Unchecked
open FloatOps

variable {T : Type} [FloatOps T]

namespace MultilinearRegular
variable {N : Nat}

/-- `MultilinearRegular::new`, `/repo/src/multilinear/regular.rs` 225-259. The
compile-time assertion `0 < N < 7` is not part of the run-time behaviour. -/
def new (dims : Fin N → Nat) (starts steps : Fin N → T) (vals : List T) :
    Res (MultilinearRegular T N) := do
  let nvals ← uprod (List.ofFn dims)
  if vals.length ≠ nvals then .err "Dimension mismatch"
  else if (List.ofFn dims).any (· < 2) then .err "All grids must have at least two entries"
  else if !((List.ofFn steps).all (fun x => zero <. x)) then
    .err "All grids must be monotonically increasing"
  else return { dims, starts, steps, vals }

/-- First loop of `interp_one`, `/repo/src/multilinear/regular.rs` 314-341: the final values
of `(acc, dimprod, origin, dts)`. -/
def setup (fma : Bool) (s : MultilinearRegular T N) (x : Fin N → T) :
    Res (Nat × (Fin N → Nat) × (Fin N → Nat) × (Fin N → T)) :=
  forRange N (1, (fun _ => 1), (fun _ => 0), (fun _ => zero))
    fun i (acc, dimprod, origin, dts) => do
      let acc ← (if 0 < i then do umul acc (← aget s.dims (N - i)) else pure acc : Res Nat)
      let dimprod ← aset dimprod (N - i - 1) acc
      let origin ← aset origin i (← s.getLoc (← aget x i) i)
      match ofUsize (← aget origin i) with
      | none => .err "Unrepresentable coordinate value"
      | some origin_f =>
        let start ← aget s.starts i
        let step ← aget s.steps i
        let index_zero_loc :=
          if fma then mulAdd step origin_f start else start +. step *. origin_f
        let dts ← aset dts i (((← aget x i) -. index_zero_loc) /. step)
        return (acc, dimprod, origin, dts)

/-- Second loop of `interp_one`, `/repo/src/multilinear/regular.rs` 347-391: the final values
of `(loc, store)`. The unroll limits 64 and 7 are not modelled (not reached for `N < 7`). -/
def vertexLoop (fma : Bool) (s : MultilinearRegular T N) (dimprod origin : Fin N → Nat)
    (dts : Fin N → T) : Res ((Fin N → Nat) × (Fin N → Fin 2 → T)) :=
  let FP := 2
  let nverts := FP ^ N
  forRange nverts ((fun _ => 0), (fun _ _ => zero)) fun i st =>
    forRange N st fun j (loc, store) =>
      if j = 0 then do
        let loc ← forRange N loc fun k loc => do
          let OFFSET := (i &&& (1 <<< k)) >>> k
          aset loc k (← uadd (← aget origin k) OFFSET)
        let STORE_IND := i % FP
        let store ← setStore store 0 STORE_IND (← indexArrFixedDims loc dimprod s.vals)
        return (loc, store)
      else
        let Q := FP ^ j
        let P := ((i + 1) / Q - 1) % FP
        let IND := j - 1
        if (i + 1) % Q = 0 then do
          let y0 := (← aget store IND) 0
          let dy := (← aget store IND) 1 -. y0
          let t ← aget dts IND
          let interped := if fma then mulAdd t dy y0 else y0 +. t *. dy
          let store ← setStore store j P interped
          return (loc, store)
        else return (loc, store)

/-- `MultilinearRegular::interp_one`, `/repo/src/multilinear/regular.rs` 296-404. -/
def interpOne (fma : Bool) (s : MultilinearRegular T N) (x : Fin N → T) : Res T := do
  let (_, dimprod, origin, dts) ← setup fma s x
  let (_, store) ← vertexLoop fma s dimprod origin dts
  let last ← usub N 1
  let y0 := (← aget store last) 0
  let dy := (← aget store last) 1 -. y0
  let t ← aget dts last
  let interped := if fma then mulAdd t dy y0 else y0 +. t *. dy
  return interped

/-- `MultilinearRegular::interp`, `/repo/src/multilinear/regular.rs` 268-283.
Simplification: `tmp` is created afresh for every observation; the source reuses one array,
all of whose `N` entries are overwritten before use. -/
def interp (fma : Bool) (s : MultilinearRegular T N) (x : Fin N → List T) (out : List T) :
    Res Unit × List T :=
  let n := out.length
  if !((List.ofFn x).all fun xx => xx.length == out.length) then
    (.err "Dimension mismatch", out)
  else
    batchLoop (fun i => do
      let tmp ← forRange N ((fun _ => zero) : Fin N → T) fun j tmp => do
        aset tmp j (← lget (← aget x j) i)
      interpOne fma s tmp) n 0 out

end MultilinearRegular

/-- One flattened branch of `multilinear::regular::interpn`
(`/repo/src/multilinear/regular.rs` 65-71 and the five copies after it). -/
def linRegularBranch (fma : Bool) (N : Nat) (dims : List Nat) (starts steps vals : List T)
    (obs : List (List T)) (out : List T) : Res Unit × List T :=
  tryOut (do
      MultilinearRegular.new (← toArr N dims) (← toArr N starts) (← toArr N steps) vals) out
    fun s => tryOut (toArr N obs) out fun obs => MultilinearRegular.interp fma s obs out

/-- `multilinear::regular::interpn`, `/repo/src/multilinear/regular.rs` 51-117. -/
def multilinearRegularInterpn (fma : Bool) (dims : List Nat) (starts steps vals : List T)
    (obs : List (List T)) (out : List T) : Res Unit × List T :=
  let ndims := dims.length
  if starts.length ≠ ndims || steps.length ≠ ndims || obs.length ≠ ndims then
    (.err "Dimension mismatch", out)
  else
    match ndims with
    | 1 => linRegularBranch fma 1 dims starts steps vals obs out
    | 2 => linRegularBranch fma 2 dims starts steps vals obs out
    | 3 => linRegularBranch fma 3 dims starts steps vals obs out
    | 4 => linRegularBranch fma 4 dims starts steps vals obs out
    | 5 => linRegularBranch fma 5 dims starts steps vals obs out
    | 6 => linRegularBranch fma 6 dims starts steps vals obs out
    | 7 => tryOut (MultilinearRegularRecursive.new 7 dims starts steps vals) out
            fun s => MultilinearRegularRecursive.interp fma s obs out
    | 8 => tryOut (MultilinearRegularRecursive.new 8 dims starts steps vals) out
            fun s => MultilinearRegularRecursive.interp fma s obs out
    | _ => (.err errMax8, out)

/-- `multilinear::regular::interpn_alloc`, `/repo/src/multilinear/regular.rs` 124-134. -/
def multilinearRegularInterpnAlloc (fma : Bool) (dims : List Nat) (starts steps vals : List T)
    (obs : List (List T)) : Res (List T) :=
  allocRun zero obs (multilinearRegularInterpn fma dims starts steps vals obs)

/-- `multilinear::regular::check_bounds`, `/repo/src/multilinear/regular.rs` 145-182. -/
def checkBoundsRegular (dims : List Nat) (starts steps : List T) (obs : List (List T))
    (atol : T) (out : List Bool) : Res Unit × List Bool :=
  let ndims := dims.length
  if !(obs.length = ndims && out.length = ndims) then (.err "Dimension mismatch", out)
  else
    batchLoop (fun i => do
      let first ← lget starts i
      let last_elem := ofUsize (T := T) (← usub (← lget dims i) 1)
      match last_elem with
      | some last_elem => do
        let last := (← lget starts i) +. (← lget steps i) *. last_elem
        let lo := fmin first last
        let hi := fmax first last
        let bad := (← lget obs i).any fun x => ((x -. lo) <=. (-. atol)) || (atol <=. (x -. hi))
        return bad
      | none => return true) ndims 0 out

end Interpn.Unchecked
