import Verif.Model.Counted.Core
import Verif.Model.Multicubic

/-! Counting copy of the evaluation functions of `Verif/Model/Multicubic/*.lean`
(`/repo/src/multicubic/*.rs`). -/

set_option autoImplicit false

open Interpn.FloatOps

namespace Interpn.Counted.MulticubicRegularRecursive
variable {T : Type} [FloatOps T] {M : Nat}

/-- `get_loc`, `/repo/src/multicubic/regular_recursive.rs` 386-423. -/
def getLoc (s : MulticubicRegularRecursive T M) (v : T) (dim : Nat) : Counted (Nat × Saturation) := do
  let floc := floor ((v -. (← aget s.starts dim)) /. (← aget s.steps dim))
  match toIsize floc with
  | none => .err "Unrepresentable coordinate value"
  | some z =>
    let iloc ← isub z 1
    let n := asIsize (← aget s.dims dim)
    let dimmax := max (isatSub n 4) 0
    let loc := asUsize (min (max iloc 0) dimmax)
    if iloc < -1 then return (loc, .outsideLow)
    else if iloc = -1 then return (loc, .insideLow)
    else if iloc > (← isub n 3) then return (loc, .outsideHigh)
    else if iloc = (← isub n 3) then return (loc, .insideHigh)
    else return (loc, .none)

/-- `populate`, `/repo/src/multicubic/regular_recursive.rs` 427-465. `loc` is `&mut`, so the
new `loc` is returned with the value. Slices of length `n` are arrays. -/
def populate (fma : Bool) (s : MulticubicRegularRecursive T M) {n : Nat}
    (sat : Fin n → Saturation) (origin dimprod : Fin n → Nat) (dts : Fin n → T) :
    Nat → (Fin n → Nat) → Counted (T × (Fin n → Nat))
  | 0, loc => do return (← indexArr loc dimprod s.vals, loc)
  | next_dim + 1, loc => do
    let (vals, loc) ← forRange 4 (((fun _ => zero) : Fin 4 → T), loc)
      fun i (vals, loc) => do
        let loc ← aset loc next_dim (← uadd (← aget origin next_dim) i)
        let (v, loc) ← populate fma s sat origin dimprod dts next_dim loc
        return (← aset vals i v, loc)
    let loc ← aset loc next_dim (← aget origin next_dim)
    tick .kernel
    let interped := Interpn.MulticubicRegularRecursive.interpInner fma vals (← aget dts next_dim) (← aget sat next_dim) s.lin
    return (interped, loc)

/-- Stride loop of `interp_one`, `/repo/src/multicubic/regular_recursive.rs` 345-350: note the extra
multiplication after the last write. -/
def strideLoop (s : MulticubicRegularRecursive T M) : Counted (Fin s.ndims → Nat) := do
  let ndims := s.ndims
  let (_, dimprod) ← forRange ndims (1, ((fun _ => 1) : Fin ndims → Nat))
    fun i (acc, dimprod) => do
      let dimprod ← aset dimprod (ndims - i - 1) acc
      let acc ← umul acc (← aget s.dims (ndims - i - 1))
      return (acc, dimprod)
  return dimprod

/-- `MulticubicRegularRecursive::interp_one`,
`/repo/src/multicubic/regular_recursive.rs` 322-376. A slice whose length was checked to be
`ndims` is represented as `Fin ndims → T`. -/
def interpOne (fma : Bool) (s : MulticubicRegularRecursive T M) (x : List T) : Counted T :=
  let ndims := s.ndims
  if h : x.length = ndims ∧ ndims ≤ M then do
    let x : Fin ndims → T := fun k => x[k.val]'(by omega)
    let dimprod ← strideLoop s
    let (origin, sat) ← forRange ndims
      (((fun _ => 0) : Fin ndims → Nat), ((fun _ => .none) : Fin ndims → Saturation))
      fun i (origin, sat) => do
        let (o, st) ← getLoc s (← aget x i) i
        return (← aset origin i o, ← aset sat i st)
    let dts ← forRange ndims ((fun _ => zero) : Fin ndims → T) fun i dts => do
      match ofUsize (← uadd (← aget origin i) 1) with
      | none => .err "Unrepresentable coordinate value"
      | some f =>
        let index_one_loc := (← aget s.starts i) +. (← aget s.steps i) *. f
        aset dts i (((← aget x i) -. index_one_loc) /. (← aget s.steps i))
    let (interped, _) ← populate fma s sat origin dimprod dts ndims origin
    return interped
  else .err "Dimension mismatch"

/-- `interp`, `/repo/src/multicubic/regular_recursive.rs` 290-310;
cutting `tmp` to `ndims` panics when `ndims > MAXDIMS`. Simplification: `tmp` is created
afresh for every observation; the source reuses one array, all of whose entries are
overwritten before use. -/
def interp (fma : Bool) (s : MulticubicRegularRecursive T M) (x : List (List T))
    (out : List T) : (Res Unit × List T) × (Op → Nat) :=
  let n := out.length
  let ndims := s.ndims
  if x.length ≠ ndims then ((.err "Dimension mismatch", out), fun _ => 0)
  else if !(x.all fun xx => xx.length == out.length) then ((.err "Dimension mismatch", out), fun _ => 0)
  else if M < ndims then ((.panic, out), fun _ => 0)
  else
    batchLoop (fun i => do
      let tmp ← forRange ndims ((fun _ => zero) : Fin ndims → T) fun j tmp => do
        aset tmp j (← lget (← lget x j) i)
      interpOne fma s (List.ofFn tmp)) n 0 out

end Interpn.Counted.MulticubicRegularRecursive

namespace Interpn.Counted.MulticubicRegular
variable {T : Type} [FloatOps T] {N : Nat}

/-- `get_loc`, `/repo/src/multicubic/regular.rs` 432-469. -/
def getLoc (s : MulticubicRegular T N) (v : T) (dim : Nat) : Counted (Nat × Saturation) := do
  let floc := floor ((v -. (← aget s.starts dim)) /. (← aget s.steps dim))
  match toIsize floc with
  | none => .err "Unrepresentable coordinate value"
  | some z =>
    let iloc ← isub z 1
    let n := asIsize (← aget s.dims dim)
    let dimmax := max (isatSub n 4) 0
    let loc := asUsize (min (max iloc 0) dimmax)
    if iloc < -1 then return (loc, .outsideLow)
    else if iloc = -1 then return (loc, .insideLow)
    else if iloc > (← isub n 3) then return (loc, .outsideHigh)
    else if iloc = (← isub n 3) then return (loc, .insideHigh)
    else return (loc, .none)

/-- First loop of `interp_one`, `/repo/src/multicubic/regular.rs` 336-362: the final values of
`(acc, dimprod, origin, sat, dts)`. -/
def setup (s : MulticubicRegular T N) (x : Fin N → T) :
    Counted (Nat × (Fin N → Nat) × (Fin N → Nat) × (Fin N → Saturation) × (Fin N → T)) :=
  forRange N (1, (fun _ => 1), (fun _ => 0), (fun _ => .none), (fun _ => zero))
    fun i (acc, dimprod, origin, sat, dts) => do
      let acc ← (if 0 < i then do umul acc (← aget s.dims (N - i)) else pure acc : Res Nat)
      let dimprod ← aset dimprod (N - i - 1) acc
      let (o, st) ← getLoc s (← aget x i) i
      let origin ← aset origin i o
      let sat ← aset sat i st
      match ofUsize (← uadd (← aget origin i) 1) with
      | none => .err "Unrepresentable coordinate value"
      | some f =>
        let index_one_loc := (← aget s.starts i) +. (← aget s.steps i) *. f
        let dts ← aset dts i (((← aget x i) -. index_one_loc) /. (← aget s.steps i))
        return (acc, dimprod, origin, sat, dts)

/-- Second loop of `interp_one`, `/repo/src/multicubic/regular.rs` 368-411: the final values
of `(loc, store)`. The unroll limits 256 and 5 are not modelled (not reached for `N < 5`). -/
def vertexLoop (fma : Bool) (s : MulticubicRegular T N) (dimprod origin : Fin N → Nat)
    (sat : Fin N → Saturation) (dts : Fin N → T) :
    Counted ((Fin N → Nat) × (Fin N → Fin 4 → T)) :=
  let FP := 4
  let nverts := FP ^ N
  forRange nverts ((fun _ => 0), (fun _ _ => zero)) fun i st =>
    forRange N st fun j (loc, store) =>
      if j = 0 then do
        let loc ← forRange N loc fun k loc => do
          let OFFSET := (i &&& (3 <<< (2 * k))) >>> (2 * k)
          aset loc k (← uadd (← aget origin k) OFFSET)
        let STORE_IND := i % FP
        let store ← setStore store 0 STORE_IND (← indexArrFixedDims loc dimprod s.vals)
        return (loc, store)
      else
        let Q := FP ^ j
        let P := ((i + 1) / Q - 1) % FP
        let IND := j - 1
        if (i + 1) % Q = 0 then do
          tick .kernel
          let interped := Interpn.MulticubicRegular.interpInner fma (← aget store IND) (← aget dts IND)
            (← aget sat IND) s.lin
          let store ← setStore store j P interped
          return (loc, store)
        else return (loc, store)

/-- `MulticubicRegular::interp_one`, `/repo/src/multicubic/regular.rs` 325-422. -/
def interpOne (fma : Bool) (s : MulticubicRegular T N) (x : Fin N → T) : Counted T := do
  let (_, dimprod, origin, sat, dts) ← setup s x
  let (_, store) ← vertexLoop fma s dimprod origin sat dts
  let last ← usub N 1
  tick .kernel
  let interped := Interpn.MulticubicRegular.interpInner fma (← aget store last) (← aget dts last) (← aget sat last) s.lin
  return interped

/-- `interp`, `/repo/src/multicubic/regular.rs` 297-313. Simplification: `tmp` is
created afresh for every observation; the source reuses one array, all of whose `N` entries
are overwritten before use. -/
def interp (fma : Bool) (s : MulticubicRegular T N) (x : Fin N → List T) (out : List T) :
    (Res Unit × List T) × (Op → Nat) :=
  let n := out.length
  if !((List.ofFn x).all fun xx => xx.length == out.length) then
    ((.err "Dimension mismatch", out), fun _ => 0)
  else
    batchLoop (fun i => do
      let tmp ← forRange N ((fun _ => zero) : Fin N → T) fun j tmp => do
        aset tmp j (← lget (← aget x j) i)
      interpOne fma s tmp) n 0 out

end Interpn.Counted.MulticubicRegular

namespace Interpn.Counted.MulticubicRectilinearRecursive
variable {T : Type} [FloatOps T] {M : Nat}

/-- `get_loc`, `/repo/src/multicubic/rectilinear_recursive.rs` 294-336. -/
def getLoc (s : MulticubicRectilinearRecursive T M) (v : T) (dim : Nat) :
    Counted (Nat × Saturation) := do
  let grid ← lget s.grids dim
  let iloc ← isub (asIsize (← partitionPoint grid (fun x => x <. v))) 2
  let n := asIsize (← aget s.dims dim)
  let dimmax := max (isatSub n 4) 0
  let loc := asUsize (min (max iloc 0) dimmax)
  if iloc = -2 then return (loc, .outsideLow)
  else if iloc = -1 then return (loc, .insideLow)
  else if iloc = (← isub n 2) then return (loc, .outsideHigh)
  else if iloc = (← isub n 3) then return (loc, .insideHigh)
  else return (loc, .none)

/-- `populate`, `/repo/src/multicubic/rectilinear_recursive.rs` 340-380. `loc` is `&mut`, so
the new `loc` is returned with the value. Slices of length `n` are arrays. -/
def populate (fma : Bool) (s : MulticubicRectilinearRecursive T M) {n : Nat}
    (sat : Fin n → Saturation) (origin dimprod : Fin n → Nat) (x : Fin n → T) :
    Nat → (Fin n → Nat) → Counted (T × (Fin n → Nat))
  | 0, loc => do return (← indexArr loc dimprod s.vals, loc)
  | next_dim + 1, loc => do
    let (vals, loc) ← forRange 4 (((fun _ => zero) : Fin 4 → T), loc)
      fun i (vals, loc) => do
        let loc ← aset loc next_dim (← uadd (← aget origin next_dim) i)
        let (v, loc) ← populate fma s sat origin dimprod x next_dim loc
        return (← aset vals i v, loc)
    let loc ← aset loc next_dim (← aget origin next_dim)
    let grid_cell ← gridCell (← lget s.grids next_dim) (← aget origin next_dim)
    tick .kernel
    let interped := Interpn.MulticubicRectilinearRecursive.interpInner fma vals grid_cell (← aget x next_dim) (← aget sat next_dim) s.lin
    return (interped, loc)

/-- Stride loop of `interp_one`, `/repo/src/multicubic/rectilinear_recursive.rs` 264-269: note the extra
multiplication after the last write. -/
def strideLoop (s : MulticubicRectilinearRecursive T M) :
    Counted (Fin s.grids.length → Nat) := do
  let ndims := s.grids.length
  let (_, dimprod) ← forRange ndims (1, ((fun _ => 1) : Fin ndims → Nat))
    fun i (acc, dimprod) => do
      let dimprod ← aset dimprod (ndims - i - 1) acc
      let acc ← umul acc (← aget s.dims (ndims - i - 1))
      return (acc, dimprod)
  return dimprod

/-- `MulticubicRectilinearRecursive::interp_one`,
`/repo/src/multicubic/rectilinear_recursive.rs` 242-284. A slice whose length was checked to
be `ndims` is represented as `Fin ndims → T`. -/
def interpOne (fma : Bool) (s : MulticubicRectilinearRecursive T M) (x : List T) : Counted T :=
  let ndims := s.grids.length
  if h : x.length = ndims ∧ ndims ≤ M then do
    let x : Fin ndims → T := fun k => x[k.val]'(by omega)
    let dimprod ← strideLoop s
    let (origin, sat) ← forRange ndims
      (((fun _ => 0) : Fin ndims → Nat), ((fun _ => .none) : Fin ndims → Saturation))
      fun i (origin, sat) => do
        let (o, st) ← getLoc s (← aget x i) i
        return (← aset origin i o, ← aset sat i st)
    let (interped, _) ← populate fma s sat origin dimprod x ndims origin
    return interped
  else .err "Dimension mismatch"

/-- `interp`, `/repo/src/multicubic/rectilinear_recursive.rs` 208-230;
cutting `tmp` to `ndims` panics when `ndims > MAXDIMS`. Simplification: `tmp` is created
afresh for every observation; the source reuses one array, all of whose entries are
overwritten before use. -/
def interp (fma : Bool) (s : MulticubicRectilinearRecursive T M) (x : List (List T))
    (out : List T) : (Res Unit × List T) × (Op → Nat) :=
  let n := out.length
  let ndims := s.grids.length
  if x.length ≠ ndims then ((.err "Dimension mismatch", out), fun _ => 0)
  else if !(x.all fun xx => xx.length == out.length) then ((.err "Dimension mismatch", out), fun _ => 0)
  else if M < ndims then ((.panic, out), fun _ => 0)
  else
    batchLoop (fun i => do
      let tmp ← forRange ndims ((fun _ => zero) : Fin ndims → T) fun j tmp => do
        aset tmp j (← lget (← lget x j) i)
      interpOne fma s (List.ofFn tmp)) n 0 out

end Interpn.Counted.MulticubicRectilinearRecursive

namespace Interpn.Counted.MulticubicRectilinear
variable {T : Type} [FloatOps T] {N : Nat}

/-- `get_loc`, `/repo/src/multicubic/rectilinear.rs` 366-408. -/
def getLoc (s : MulticubicRectilinear T N) (v : T) (dim : Nat) :
    Counted (Nat × Saturation) := do
  let grid ← aget s.grids dim
  let iloc ← isub (asIsize (← partitionPoint grid (fun x => x <. v))) 2
  let n := asIsize (← aget s.dims dim)
  let dimmax := max (isatSub n 4) 0
  let loc := asUsize (min (max iloc 0) dimmax)
  if iloc = -2 then return (loc, .outsideLow)
  else if iloc = -1 then return (loc, .insideLow)
  else if iloc = (← isub n 2) then return (loc, .outsideHigh)
  else if iloc = (← isub n 3) then return (loc, .insideHigh)
  else return (loc, .none)

/-- First loop of `interp_one`, `/repo/src/multicubic/rectilinear.rs` 275-292: the final values
of `(acc, dimprod, origin, sat)`. -/
def setup (s : MulticubicRectilinear T N) (x : Fin N → T) :
    Counted (Nat × (Fin N → Nat) × (Fin N → Nat) × (Fin N → Saturation)) :=
  forRange N (1, (fun _ => 1), (fun _ => 0), (fun _ => .none))
    fun i (acc, dimprod, origin, sat) => do
      let acc ← (if 0 < i then do umul acc (← aget s.dims (N - i)) else pure acc : Res Nat)
      let dimprod ← aset dimprod (N - i - 1) acc
      let (o, st) ← getLoc s (← aget x i) i
      let origin ← aset origin i o
      let sat ← aset sat i st
      return (acc, dimprod, origin, sat)

/-- Second loop of `interp_one`, `/repo/src/multicubic/rectilinear.rs` 298-343: the final
values of `(loc, store)`. The unroll limits 256 and 5 are not modelled (not reached for
`N < 5`). -/
def vertexLoop (fma : Bool) (s : MulticubicRectilinear T N) (x : Fin N → T)
    (dimprod origin : Fin N → Nat) (sat : Fin N → Saturation) :
    Counted ((Fin N → Nat) × (Fin N → Fin 4 → T)) :=
  let FP := 4
  let nverts := FP ^ N
  forRange nverts ((fun _ => 0), (fun _ _ => zero)) fun i st =>
    forRange N st fun j (loc, store) =>
      if j = 0 then do
        let loc ← forRange N loc fun k loc => do
          let OFFSET := (i &&& (3 <<< (2 * k))) >>> (2 * k)
          aset loc k (← uadd (← aget origin k) OFFSET)
        let STORE_IND := i % FP
        let store ← setStore store 0 STORE_IND (← indexArrFixedDims loc dimprod s.vals)
        return (loc, store)
      else
        let Q := FP ^ j
        let P := ((i + 1) / Q - 1) % FP
        let IND := j - 1
        if (i + 1) % Q = 0 then do
          let grid_cell ← gridCell (← aget s.grids IND) (← aget origin IND)
          tick .kernel
          let interped := Interpn.MulticubicRectilinear.interpInner fma (← aget store IND) grid_cell (← aget x IND)
            (← aget sat IND) s.lin
          let store ← setStore store j P interped
          return (loc, store)
        else return (loc, store)

/-- `MulticubicRectilinear::interp_one`, `/repo/src/multicubic/rectilinear.rs` 265-356. -/
def interpOne (fma : Bool) (s : MulticubicRectilinear T N) (x : Fin N → T) : Counted T := do
  let (_, dimprod, origin, sat) ← setup s x
  let (_, store) ← vertexLoop fma s x dimprod origin sat
  let last ← usub N 1
  let grid_cell ← gridCell (← aget s.grids last) (← aget origin last)
  tick .kernel
  let interped := Interpn.MulticubicRectilinear.interpInner fma (← aget store last) grid_cell (← aget x last)
    (← aget sat last) s.lin
  return interped

/-- `interp`, `/repo/src/multicubic/rectilinear.rs` 237-253. Simplification: `tmp` is
created afresh for every observation; the source reuses one array, all of whose `N` entries
are overwritten before use. -/
def interp (fma : Bool) (s : MulticubicRectilinear T N) (x : Fin N → List T) (out : List T) :
    (Res Unit × List T) × (Op → Nat) :=
  let n := out.length
  if !((List.ofFn x).all fun xx => xx.length == out.length) then
    ((.err "Dimension mismatch", out), fun _ => 0)
  else
    batchLoop (fun i => do
      let tmp ← forRange N ((fun _ => zero) : Fin N → T) fun j tmp => do
        aset tmp j (← lget (← aget x j) i)
      interpOne fma s tmp) n 0 out

end Interpn.Counted.MulticubicRectilinear
