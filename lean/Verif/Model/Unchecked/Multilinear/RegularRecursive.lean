import Verif.Model.Multilinear.RegularRecursive
import Verif.Model.Unchecked.Core

/-! `/repo/src/multilinear/regular_recursive.rs` built without overflow checks.
The same text as `Verif/Model/Multilinear/RegularRecursive.lean` with the wrapping integers of
`Verif/Model/Unchecked/Core.lean`. Structures, and definitions that do no integer arithmetic,
are shared with `Verif/Model/Multilinear/RegularRecursive.lean`. -/

set_option autoImplicit false

namespace Interpn.Unchecked
open FloatOps

variable {T : Type} [FloatOps T]

namespace MultilinearRegularRecursive
variable {M : Nat}

/-- `MultilinearRegularRecursive::new`,
`/repo/src/multilinear/regular_recursive.rs` 191-233. -/
def new (M : Nat) (dims : List Nat) (starts steps : List T) (vals : List T) :
    Res (MultilinearRegularRecursive T M) := do
  let ndims := dims.length
  let nvals ← uprod dims
  if !(starts.length = ndims && steps.length = ndims && vals.length = nvals && 0 < ndims) then
    .err "Dimension mismatch"
  else if dims.any (· < 2) then .err "All grids must have at least two entries"
  else if !(steps.all (fun x => zero <. x)) then
    .err "All grids must be monotonically increasing"
  else
    let steps_local ← padTo M zero steps
    let starts_local ← padTo M zero starts
    let dims_local ← padTo M 0 dims
    return { ndims, dims := dims_local, starts := starts_local, steps := steps_local, vals }

/-- `populate`, `/repo/src/multilinear/regular_recursive.rs` 348-389. `loc` is `&mut`, so the
new `loc` is returned with the value. Slices of length `n` are arrays. -/
def populate (fma : Bool) (s : MultilinearRegularRecursive T M) {n : Nat}
    (origin dimprod : Fin n → Nat) (dts : Fin n → T) :
    Nat → (Fin n → Nat) → Res (T × (Fin n → Nat))
  | 0, loc => do return (← indexArr loc dimprod s.vals, loc)
  | next_dim + 1, loc => do
    let (vals, loc) ← forRange 2 (((fun _ => zero) : Fin 2 → T), loc)
      fun i (vals, loc) => do
        let loc ← aset loc next_dim (← uadd (← aget origin next_dim) i)
        let (v, loc) ← populate fma s origin dimprod dts next_dim loc
        return (← aset vals i v, loc)
    let loc ← aset loc next_dim (← aget origin next_dim)
    let t ← aget dts next_dim
    let y0 := vals 0
    let dy := vals 1 -. y0
    let interped := if fma then mulAdd t dy y0 else y0 +. t *. dy
    return (interped, loc)

/-- Stride loop of `interp_one`, `/repo/src/multilinear/regular_recursive.rs` 296-301: note
the extra multiplication after the last write. -/
def strideLoop (s : MultilinearRegularRecursive T M) : Res (Fin s.ndims → Nat) := do
  let ndims := s.ndims
  let (_, dimprod) ← forRange ndims (1, ((fun _ => 1) : Fin ndims → Nat))
    fun i (acc, dimprod) => do
      let dimprod ← aset dimprod (ndims - i - 1) acc
      let acc ← umul acc (← aget s.dims (ndims - i - 1))
      return (acc, dimprod)
  return dimprod

/-- `MultilinearRegularRecursive::interp_one`,
`/repo/src/multilinear/regular_recursive.rs` 274-323. Note that the node location is
computed without `mul_add` also when the `fma` feature is on. A slice whose length
was checked to be `ndims` is represented as `Fin ndims → T`. -/
def interpOne (fma : Bool) (s : MultilinearRegularRecursive T M) (x : List T) : Res T :=
  let ndims := s.ndims
  if h : x.length = ndims ∧ ndims ≤ M then do
    let x : Fin ndims → T := fun k => x[k.val]'(by omega)
    let dimprod ← strideLoop s
    let origin ← forRange ndims ((fun _ => 0) : Fin ndims → Nat) fun i origin => do
      aset origin i (← s.getLoc (← aget x i) i)
    let dts ← forRange ndims ((fun _ => zero) : Fin ndims → T) fun i dts => do
      match ofUsize (← aget origin i) with
      | none => .err "Unrepresentable coordinate value"
      | some origin_f =>
        let index_zero_loc := (← aget s.starts i) +. (← aget s.steps i) *. origin_f
        aset dts i (((← aget x i) -. index_zero_loc) /. (← aget s.steps i))
    let (interped, _) ← populate fma s origin dimprod dts ndims origin
    return interped
  else .err "Dimension mismatch"

/-- `MultilinearRegularRecursive::interp`,
`/repo/src/multilinear/regular_recursive.rs` 242-262; cutting `tmp` to `ndims` panics when
`ndims > MAXDIMS`. Simplification: `tmp` is created afresh for every observation; the
source reuses one array, all of whose entries are overwritten before use. -/
def interp (fma : Bool) (s : MultilinearRegularRecursive T M) (x : List (List T))
    (out : List T) : Res Unit × List T :=
  let n := out.length
  let ndims := s.ndims
  if x.length ≠ ndims then (.err "Dimension mismatch", out)
  else if !(x.all fun xx => xx.length == out.length) then (.err "Dimension mismatch", out)
  else if M < ndims then (.panic, out)
  else
    batchLoop (fun i => do
      let tmp ← forRange ndims ((fun _ => zero) : Fin ndims → T) fun j tmp => do
        aset tmp j (← lget (← lget x j) i)
      interpOne fma s (List.ofFn tmp)) n 0 out

end MultilinearRegularRecursive

/-- One branch of `multilinear::regular_recursive::interpn`
(`/repo/src/multilinear/regular_recursive.rs` 58-59 and copies). -/
def linRegularRecBranch (fma : Bool) (M : Nat) (dims : List Nat) (starts steps vals : List T)
    (obs : List (List T)) (out : List T) : Res Unit × List T :=
  tryOut (MultilinearRegularRecursive.new M dims starts steps vals) out
    fun s => MultilinearRegularRecursive.interp fma s obs out

/-- `multilinear::regular_recursive::interpn`,
`/repo/src/multilinear/regular_recursive.rs` 45-80. -/
def multilinearRegularRecursiveInterpn (fma : Bool) (dims : List Nat)
    (starts steps vals : List T) (obs : List (List T)) (out : List T) : Res Unit × List T :=
  match dims.length with
  | 1 => linRegularRecBranch fma 1 dims starts steps vals obs out
  | 2 => linRegularRecBranch fma 2 dims starts steps vals obs out
  | 3 => linRegularRecBranch fma 3 dims starts steps vals obs out
  | 4 => linRegularRecBranch fma 4 dims starts steps vals obs out
  | 5 => linRegularRecBranch fma 5 dims starts steps vals obs out
  | 6 => linRegularRecBranch fma 6 dims starts steps vals obs out
  | 7 => linRegularRecBranch fma 7 dims starts steps vals obs out
  | 8 => linRegularRecBranch fma 8 dims starts steps vals obs out
  | _ => (.err errMax8, out)

/-- `multilinear::regular_recursive::interpn_alloc`,
`/repo/src/multilinear/regular_recursive.rs` 87-97. -/
def multilinearRegularRecursiveInterpnAlloc (fma : Bool) (dims : List Nat)
    (starts steps vals : List T) (obs : List (List T)) : Res (List T) :=
  allocRun zero obs (multilinearRegularRecursiveInterpn fma dims starts steps vals obs)

/-- `multilinear::regular_recursive::check_bounds`,
`/repo/src/multilinear/regular_recursive.rs` 108-145. -/
def checkBoundsRegularRecursive (dims : List Nat) (starts steps : List T)
    (obs : List (List T)) (atol : T) (out : List Bool) : Res Unit × List Bool :=
  let ndims := dims.length
  if !(obs.length = ndims && out.length = ndims) then (.err "Dimension mismatch", out)
  else
    batchLoop (fun i => do
      let first ← lget starts i
      let last_elem := ofUsize (T := T) (← usub (← lget dims i) 1)
      match last_elem with
      | some last_elem => do
        let last := (← lget starts i) +. (← lget steps i) *. last_elem
        let lo := fmin first last
        let hi := fmax first last
        let bad := (← lget obs i).any fun x => ((x -. lo) <=. (-. atol)) || (atol <=. (x -. hi))
        return bad
      | none => return true) ndims 0 out

end Interpn.Unchecked
