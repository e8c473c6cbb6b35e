import Verif.Model.Multicubic.Mod

/-! Model of `/repo/src/multicubic/regular_recursive.rs`. -/

set_option autoImplicit false

namespace Interpn
open FloatOps

variable {T : Type} [FloatOps T]

/-- `struct MulticubicRegularRecursive<'a, T, MAXDIMS>`,
`/repo/src/multicubic/regular_recursive.rs` 205-223. -/
structure MulticubicRegularRecursive (T : Type) (M : Nat) where
  ndims : Nat
  dims : Fin M → Nat
  starts : Fin M → T
  steps : Fin M → T
  vals : List T
  lin : Bool

namespace MulticubicRegularRecursive
variable {M : Nat}

/-- `MulticubicRegularRecursive::new`, `/repo/src/multicubic/regular_recursive.rs` 236-281. -/
def new (M : Nat) (dims : List Nat) (starts steps : List T) (vals : List T) (lin : Bool) :
    Res (MulticubicRegularRecursive T M) := do
  let ndims := dims.length
  let nvals ← uprod dims
  if !(starts.length = ndims && steps.length = ndims && vals.length = nvals && 0 < ndims) then
    .err "Dimension mismatch"
  else if dims.any (· < 4) then .err "All grids must have at least four entries"
  else if !(steps.all (fun x => zero <. x)) then
    .err "All grids must be monotonically increasing"
  else
    let steps_local ← padTo M zero steps
    let starts_local ← padTo M zero starts
    let dims_local ← padTo M 0 dims
    return { ndims, dims := dims_local, starts := starts_local, steps := steps_local, vals, lin }

/-- `get_loc`, `/repo/src/multicubic/regular_recursive.rs` 386-423. -/
def getLoc (s : MulticubicRegularRecursive T M) (v : T) (dim : Nat) : Res (Nat × Saturation) := do
  let floc := floor ((v -. (← aget s.starts dim)) /. (← aget s.steps dim))
  match toIsize floc with
  | none => .err "Unrepresentable coordinate value"
  | some z =>
    let iloc ← isub z 1
    let n := asIsize (← aget s.dims dim)
    let dimmax := max (isatSub n 4) 0
    let loc := asUsize (min (max iloc 0) dimmax)
    if iloc < -1 then return (loc, .outsideLow)
    else if iloc = -1 then return (loc, .insideLow)
    else if iloc > (← isub n 3) then return (loc, .outsideHigh)
    else if iloc = (← isub n 3) then return (loc, .insideHigh)
    else return (loc, .none)

/-- `interp_inner`, `/repo/src/multicubic/regular_recursive.rs` 470-610. The boundary
slope of the `OutsideLow` branch never uses `mul_add`. -/
def interpInner (fma : Bool) (vals : Fin 4 → T) (t : T) (sat : Saturation)
    (linearize_extrapolation : Bool) : T :=
  let two := (one : T) +. one
  match sat with
  | .none =>
    let y0 := vals 1
    let dy := vals 2 -. vals 1
    let k0 := (vals 2 -. vals 0) /. two
    let k1 := (vals 3 -. vals 1) /. two
    hermite fma t y0 dy k0 k1
  | .insideLow =>
    let t := -. t
    let y0 := vals 1
    let dy := vals 0 -. vals 1
    let k0 := (-. (vals 2 -. vals 0)) /. two
    let k1 := if fma then mulAdd two dy (-. k0) else two *. dy -. k0
    hermite fma t y0 dy k0 k1
  | .outsideLow =>
    let t := -. t
    let y0 := vals 1
    let y1 := vals 0
    let dy := vals 0 -. vals 1
    let k0 := (-. (vals 2 -. vals 0)) /. two
    let k1 := two *. dy -. k0
    if linearize_extrapolation then
      if fma then mulAdd k1 (t -. one) y1 else y1 +. k1 *. (t -. one)
    else hermite fma t y0 dy k0 k1
  | .insideHigh =>
    let t := t -. one
    let y0 := vals 2
    let dy := vals 3 -. vals 2
    let k0 := (vals 3 -. vals 1) /. two
    let k1 := if fma then mulAdd two dy (-. k0) else two *. dy -. k0
    hermite fma t y0 dy k0 k1
  | .outsideHigh =>
    let t := t -. one
    let y0 := vals 2
    let y1 := vals 3
    let dy := vals 3 -. vals 2
    let k0 := (vals 3 -. vals 1) /. two
    let k1 := if fma then mulAdd two dy (-. k0) else two *. dy -. k0
    if linearize_extrapolation then
      if fma then mulAdd k1 (t -. one) y1 else y1 +. k1 *. (t -. one)
    else hermite fma t y0 dy k0 k1

/-- `populate`, `/repo/src/multicubic/regular_recursive.rs` 427-465. `loc` is `&mut`, so the
new `loc` is returned with the value. Slices of length `n` are arrays. -/
def populate (fma : Bool) (s : MulticubicRegularRecursive T M) {n : Nat}
    (sat : Fin n → Saturation) (origin dimprod : Fin n → Nat) (dts : Fin n → T) :
    Nat → (Fin n → Nat) → Res (T × (Fin n → Nat))
  | 0, loc => do return (← indexArr loc dimprod s.vals, loc)
  | next_dim + 1, loc => do
    let (vals, loc) ← forRange 4 (((fun _ => zero) : Fin 4 → T), loc)
      fun i (vals, loc) => do
        let loc ← aset loc next_dim (← uadd (← aget origin next_dim) i)
        let (v, loc) ← s.populate fma sat origin dimprod dts next_dim loc
        return (← aset vals i v, loc)
    let loc ← aset loc next_dim (← aget origin next_dim)
    let interped := interpInner fma vals (← aget dts next_dim) (← aget sat next_dim) s.lin
    return (interped, loc)

/-- Stride loop of `interp_one`, `/repo/src/multicubic/regular_recursive.rs` 345-350: note the extra
multiplication after the last write. -/
def strideLoop (s : MulticubicRegularRecursive T M) : Res (Fin s.ndims → Nat) := do
  let ndims := s.ndims
  let (_, dimprod) ← forRange ndims (1, ((fun _ => 1) : Fin ndims → Nat))
    fun i (acc, dimprod) => do
      let dimprod ← aset dimprod (ndims - i - 1) acc
      let acc ← umul acc (← aget s.dims (ndims - i - 1))
      return (acc, dimprod)
  return dimprod

/-- `MulticubicRegularRecursive::interp_one`,
`/repo/src/multicubic/regular_recursive.rs` 322-376. A slice whose length was checked to be
`ndims` is represented as `Fin ndims → T`. -/
def interpOne (fma : Bool) (s : MulticubicRegularRecursive T M) (x : List T) : Res T :=
  let ndims := s.ndims
  if h : x.length = ndims ∧ ndims ≤ M then do
    let x : Fin ndims → T := fun k => x[k.val]'(by omega)
    let dimprod ← s.strideLoop
    let (origin, sat) ← forRange ndims
      (((fun _ => 0) : Fin ndims → Nat), ((fun _ => .none) : Fin ndims → Saturation))
      fun i (origin, sat) => do
        let (o, st) ← s.getLoc (← aget x i) i
        return (← aset origin i o, ← aset sat i st)
    let dts ← forRange ndims ((fun _ => zero) : Fin ndims → T) fun i dts => do
      match ofUsize (← uadd (← aget origin i) 1) with
      | none => .err "Unrepresentable coordinate value"
      | some f =>
        let index_one_loc := (← aget s.starts i) +. (← aget s.steps i) *. f
        aset dts i (((← aget x i) -. index_one_loc) /. (← aget s.steps i))
    let (interped, _) ← s.populate fma sat origin dimprod dts ndims origin
    return interped
  else .err "Dimension mismatch"

/-- `interp`, `/repo/src/multicubic/regular_recursive.rs` 290-310;
cutting `tmp` to `ndims` panics when `ndims > MAXDIMS`. Simplification: `tmp` is created
afresh for every observation; the source reuses one array, all of whose entries are
overwritten before use. -/
def interp (fma : Bool) (s : MulticubicRegularRecursive T M) (x : List (List T))
    (out : List T) : Res Unit × List T :=
  let n := out.length
  let ndims := s.ndims
  if x.length ≠ ndims then (.err "Dimension mismatch", out)
  else if !(x.all fun xx => xx.length == out.length) then (.err "Dimension mismatch", out)
  else if M < ndims then (.panic, out)
  else
    batchLoop (fun i => do
      let tmp ← forRange ndims ((fun _ => zero) : Fin ndims → T) fun j tmp => do
        aset tmp j (← lget (← lget x j) i)
      s.interpOne fma (List.ofFn tmp)) n 0 out

end MulticubicRegularRecursive

/-- One branch of `multicubic::regular_recursive::interpn`
(`/repo/src/multicubic/regular_recursive.rs` 61-68 and copies). -/
def cubRegularRecBranch (fma : Bool) (M : Nat) (dims : List Nat) (starts steps vals : List T)
    (lin : Bool) (obs : List (List T)) (out : List T) : Res Unit × List T :=
  tryOut (MulticubicRegularRecursive.new M dims starts steps vals lin) out
    fun s => s.interp fma obs out

/-- `multicubic::regular_recursive::interpn`,
`/repo/src/multicubic/regular_recursive.rs` 47-131. -/
def multicubicRegularRecursiveInterpn (fma : Bool) (dims : List Nat)
    (starts steps vals : List T) (lin : Bool) (obs : List (List T)) (out : List T) :
    Res Unit × List T :=
  match dims.length with
  | 1 => cubRegularRecBranch fma 1 dims starts steps vals lin obs out
  | 2 => cubRegularRecBranch fma 2 dims starts steps vals lin obs out
  | 3 => cubRegularRecBranch fma 3 dims starts steps vals lin obs out
  | 4 => cubRegularRecBranch fma 4 dims starts steps vals lin obs out
  | 5 => cubRegularRecBranch fma 5 dims starts steps vals lin obs out
  | 6 => cubRegularRecBranch fma 6 dims starts steps vals lin obs out
  | 7 => cubRegularRecBranch fma 7 dims starts steps vals lin obs out
  | 8 => cubRegularRecBranch fma 8 dims starts steps vals lin obs out
  | _ => (.err errMax8, out)

/-- `multicubic::regular_recursive::interpn_alloc`,
`/repo/src/multicubic/regular_recursive.rs` 138-157. -/
def multicubicRegularRecursiveInterpnAlloc (fma : Bool) (dims : List Nat)
    (starts steps vals : List T) (lin : Bool) (obs : List (List T)) : Res (List T) :=
  allocRun zero obs (multicubicRegularRecursiveInterpn fma dims starts steps vals lin obs)

end Interpn
