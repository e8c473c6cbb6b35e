import Verif.Model.Counted.Core
import Verif.Model.Multilinear

/-! Counting copy of the evaluation functions of `Verif/Model/Multilinear/*.lean`
(`/repo/src/multilinear/*.rs`). -/

set_option autoImplicit false

open Interpn.FloatOps

namespace Interpn.Counted.MultilinearRegularRecursive
variable {T : Type} [FloatOps T] {M : Nat}

/-- `get_loc`, `/repo/src/multilinear/regular_recursive.rs` 333-344. -/
def getLoc (s : MultilinearRegularRecursive T M) (v : T) (dim : Nat) : Counted Nat := do
  let floc := floor ((v -. (← aget s.starts dim)) /. (← aget s.steps dim))
  match toIsize floc with
  | none => .err "Unrepresentable coordinate value"
  | some iloc =>
    let n := asIsize (← aget s.dims dim)
    let dimmax := max (isatSub n 2) 0
    let loc := asUsize (min (max iloc 0) dimmax)
    return loc

/-- `populate`, `/repo/src/multilinear/regular_recursive.rs` 348-389. `loc` is `&mut`, so the
new `loc` is returned with the value. Slices of length `n` are arrays. -/
def populate (fma : Bool) (s : MultilinearRegularRecursive T M) {n : Nat}
    (origin dimprod : Fin n → Nat) (dts : Fin n → T) :
    Nat → (Fin n → Nat) → Counted (T × (Fin n → Nat))
  | 0, loc => do return (← indexArr loc dimprod s.vals, loc)
  | next_dim + 1, loc => do
    let (vals, loc) ← forRange 2 (((fun _ => zero) : Fin 2 → T), loc)
      fun i (vals, loc) => do
        let loc ← aset loc next_dim (← uadd (← aget origin next_dim) i)
        let (v, loc) ← populate fma s origin dimprod dts next_dim loc
        return (← aset vals i v, loc)
    let loc ← aset loc next_dim (← aget origin next_dim)
    let t ← aget dts next_dim
    let y0 := vals 0
    let dy := vals 1 -. y0
    tick .kernel
    let interped := if fma then mulAdd t dy y0 else y0 +. t *. dy
    return (interped, loc)

/-- Stride loop of `interp_one`, `/repo/src/multilinear/regular_recursive.rs` 296-301: note
the extra multiplication after the last write. -/
def strideLoop (s : MultilinearRegularRecursive T M) : Counted (Fin s.ndims → Nat) := do
  let ndims := s.ndims
  let (_, dimprod) ← forRange ndims (1, ((fun _ => 1) : Fin ndims → Nat))
    fun i (acc, dimprod) => do
      let dimprod ← aset dimprod (ndims - i - 1) acc
      let acc ← umul acc (← aget s.dims (ndims - i - 1))
      return (acc, dimprod)
  return dimprod

/-- `MultilinearRegularRecursive::interp_one`,
`/repo/src/multilinear/regular_recursive.rs` 274-323. Note that the node location is
computed without `mul_add` also when the `fma` feature is on. A slice whose length
was checked to be `ndims` is represented as `Fin ndims → T`. -/
def interpOne (fma : Bool) (s : MultilinearRegularRecursive T M) (x : List T) : Counted T :=
  let ndims := s.ndims
  if h : x.length = ndims ∧ ndims ≤ M then do
    let x : Fin ndims → T := fun k => x[k.val]'(by omega)
    let dimprod ← strideLoop s
    let origin ← forRange ndims ((fun _ => 0) : Fin ndims → Nat) fun i origin => do
      aset origin i (← getLoc s (← aget x i) i)
    let dts ← forRange ndims ((fun _ => zero) : Fin ndims → T) fun i dts => do
      match ofUsize (← aget origin i) with
      | none => .err "Unrepresentable coordinate value"
      | some origin_f =>
        let index_zero_loc := (← aget s.starts i) +. (← aget s.steps i) *. origin_f
        aset dts i (((← aget x i) -. index_zero_loc) /. (← aget s.steps i))
    let (interped, _) ← populate fma s origin dimprod dts ndims origin
    return interped
  else .err "Dimension mismatch"

/-- `MultilinearRegularRecursive::interp`,
`/repo/src/multilinear/regular_recursive.rs` 242-262; cutting `tmp` to `ndims` panics when
`ndims > MAXDIMS`. Simplification: `tmp` is created afresh for every observation; the
source reuses one array, all of whose entries are overwritten before use. -/
def interp (fma : Bool) (s : MultilinearRegularRecursive T M) (x : List (List T))
    (out : List T) : (Res Unit × List T) × (Op → Nat) :=
  let n := out.length
  let ndims := s.ndims
  if x.length ≠ ndims then ((.err "Dimension mismatch", out), fun _ => 0)
  else if !(x.all fun xx => xx.length == out.length) then ((.err "Dimension mismatch", out), fun _ => 0)
  else if M < ndims then ((.panic, out), fun _ => 0)
  else
    batchLoop (fun i => do
      let tmp ← forRange ndims ((fun _ => zero) : Fin ndims → T) fun j tmp => do
        aset tmp j (← lget (← lget x j) i)
      interpOne fma s (List.ofFn tmp)) n 0 out

end Interpn.Counted.MultilinearRegularRecursive

namespace Interpn.Counted.MultilinearRegular
variable {T : Type} [FloatOps T] {N : Nat}

/-- `get_loc`, `/repo/src/multilinear/regular.rs` 414-425. -/
def getLoc (s : MultilinearRegular T N) (v : T) (dim : Nat) : Counted Nat := do
  let floc := floor ((v -. (← aget s.starts dim)) /. (← aget s.steps dim))
  match toIsize floc with
  | none => .err "Unrepresentable coordinate value"
  | some iloc =>
    let n := asIsize (← aget s.dims dim)
    let dimmax := max (isatSub n 2) 0
    let loc := asUsize (min (max iloc 0) dimmax)
    return loc

/-- First loop of `interp_one`, `/repo/src/multilinear/regular.rs` 314-341: the final values
of `(acc, dimprod, origin, dts)`. -/
def setup (fma : Bool) (s : MultilinearRegular T N) (x : Fin N → T) :
    Counted (Nat × (Fin N → Nat) × (Fin N → Nat) × (Fin N → T)) :=
  forRange N (1, (fun _ => 1), (fun _ => 0), (fun _ => zero))
    fun i (acc, dimprod, origin, dts) => do
      let acc ← (if 0 < i then do umul acc (← aget s.dims (N - i)) else pure acc : Res Nat)
      let dimprod ← aset dimprod (N - i - 1) acc
      let origin ← aset origin i (← getLoc s (← aget x i) i)
      match ofUsize (← aget origin i) with
      | none => .err "Unrepresentable coordinate value"
      | some origin_f =>
        let start ← aget s.starts i
        let step ← aget s.steps i
        let index_zero_loc :=
          if fma then mulAdd step origin_f start else start +. step *. origin_f
        let dts ← aset dts i (((← aget x i) -. index_zero_loc) /. step)
        return (acc, dimprod, origin, dts)

/-- Second loop of `interp_one`, `/repo/src/multilinear/regular.rs` 347-391: the final values
of `(loc, store)`. The unroll limits 64 and 7 are not modelled (not reached for `N < 7`). -/
def vertexLoop (fma : Bool) (s : MultilinearRegular T N) (dimprod origin : Fin N → Nat)
    (dts : Fin N → T) : Counted ((Fin N → Nat) × (Fin N → Fin 2 → T)) :=
  let FP := 2
  let nverts := FP ^ N
  forRange nverts ((fun _ => 0), (fun _ _ => zero)) fun i st =>
    forRange N st fun j (loc, store) =>
      if j = 0 then do
        let loc ← forRange N loc fun k loc => do
          let OFFSET := (i &&& (1 <<< k)) >>> k
          aset loc k (← uadd (← aget origin k) OFFSET)
        let STORE_IND := i % FP
        let store ← setStore store 0 STORE_IND (← indexArrFixedDims loc dimprod s.vals)
        return (loc, store)
      else
        let Q := FP ^ j
        let P := ((i + 1) / Q - 1) % FP
        let IND := j - 1
        if (i + 1) % Q = 0 then do
          let y0 := (← aget store IND) 0
          let dy := (← aget store IND) 1 -. y0
          let t ← aget dts IND
          tick .kernel
          let interped := if fma then mulAdd t dy y0 else y0 +. t *. dy
          let store ← setStore store j P interped
          return (loc, store)
        else return (loc, store)

/-- `MultilinearRegular::interp_one`, `/repo/src/multilinear/regular.rs` 296-404. -/
def interpOne (fma : Bool) (s : MultilinearRegular T N) (x : Fin N → T) : Counted T := do
  let (_, dimprod, origin, dts) ← setup fma s x
  let (_, store) ← vertexLoop fma s dimprod origin dts
  let last ← usub N 1
  let y0 := (← aget store last) 0
  let dy := (← aget store last) 1 -. y0
  let t ← aget dts last
  tick .kernel
  let interped := if fma then mulAdd t dy y0 else y0 +. t *. dy
  return interped

/-- `MultilinearRegular::interp`, `/repo/src/multilinear/regular.rs` 268-283.
Simplification: `tmp` is created afresh for every observation; the source reuses one array,
all of whose `N` entries are overwritten before use. -/
def interp (fma : Bool) (s : MultilinearRegular T N) (x : Fin N → List T) (out : List T) :
    (Res Unit × List T) × (Op → Nat) :=
  let n := out.length
  if !((List.ofFn x).all fun xx => xx.length == out.length) then
    ((.err "Dimension mismatch", out), fun _ => 0)
  else
    batchLoop (fun i => do
      let tmp ← forRange N ((fun _ => zero) : Fin N → T) fun j tmp => do
        aset tmp j (← lget (← aget x j) i)
      interpOne fma s tmp) n 0 out

end Interpn.Counted.MultilinearRegular

namespace Interpn.Counted.MultilinearRectilinearRecursive
variable {T : Type} [FloatOps T] {M : Nat}

/-- `get_loc`, `/repo/src/multilinear/rectilinear_recursive.rs` 272-289. -/
def getLoc (s : MultilinearRectilinearRecursive T M) (v : T) (dim : Nat) : Counted Nat := do
  let grid ← lget s.grids dim
  let iloc ← isub (asIsize (← partitionPoint grid (fun x => x <. v))) 1
  let n := asIsize (← aget s.dims dim)
  let dimmax := max (isatSub n 2) 0
  let loc := asUsize (min (max iloc 0) dimmax)
  return loc

/-- `populate`, `/repo/src/multilinear/rectilinear_recursive.rs` 293-336. `loc` is `&mut`, so
the new `loc` is returned with the value. Slices of length `n` are arrays. The slice
`grid_cell` of two entries is represented by its two entries (taking it panics exactly when
the second one is out of bounds). -/
def populate (fma : Bool) (s : MultilinearRectilinearRecursive T M) {n : Nat}
    (origin dimprod : Fin n → Nat) (x : Fin n → T) :
    Nat → (Fin n → Nat) → Counted (T × (Fin n → Nat))
  | 0, loc => do return (← indexArr loc dimprod s.vals, loc)
  | next_dim + 1, loc => do
    let (vals, loc) ← forRange 2 (((fun _ => zero) : Fin 2 → T), loc)
      fun i (vals, loc) => do
        let loc ← aset loc next_dim (← uadd (← aget origin next_dim) i)
        let (v, loc) ← populate fma s origin dimprod x next_dim loc
        return (← aset vals i v, loc)
    let loc ← aset loc next_dim (← aget origin next_dim)
    let grid ← lget s.grids next_dim
    let o ← aget origin next_dim
    let grid_cell_0 ← lget grid o
    let grid_cell_1 ← lget grid (← uadd o 1)
    let step := grid_cell_1 -. grid_cell_0
    let t := ((← aget x next_dim) -. grid_cell_0) /. step
    let y0 := vals 0
    let dy := vals 1 -. y0
    tick .kernel
    let interped := if fma then mulAdd t dy y0 else y0 +. t *. dy
    return (interped, loc)

/-- Stride loop of `interp_one`, `/repo/src/multilinear/rectilinear_recursive.rs` 245-250:
note the extra multiplication after the last write. -/
def strideLoop (s : MultilinearRectilinearRecursive T M) : Counted (Fin s.grids.length → Nat) := do
  let ndims := s.grids.length
  let (_, dimprod) ← forRange ndims (1, ((fun _ => 1) : Fin ndims → Nat))
    fun i (acc, dimprod) => do
      let dimprod ← aset dimprod (ndims - i - 1) acc
      let acc ← umul acc (← aget s.dims (ndims - i - 1))
      return (acc, dimprod)
  return dimprod

/-- `MultilinearRectilinearRecursive::interp_one`,
`/repo/src/multilinear/rectilinear_recursive.rs` 224-265. A slice whose length was checked to
be `ndims` is represented as `Fin ndims → T`. -/
def interpOne (fma : Bool) (s : MultilinearRectilinearRecursive T M) (x : List T) : Counted T :=
  let ndims := s.grids.length
  if h : x.length = ndims ∧ ndims ≤ M then do
    let x : Fin ndims → T := fun k => x[k.val]'(by omega)
    let dimprod ← strideLoop s
    let origin ← forRange ndims ((fun _ => 0) : Fin ndims → Nat) fun i origin => do
      aset origin i (← getLoc s (← aget x i) i)
    let (interped, _) ← populate fma s origin dimprod x ndims origin
    return interped
  else .err "Dimension mismatch"

/-- `MultilinearRectilinearRecursive::interp`,
`/repo/src/multilinear/rectilinear_recursive.rs` 190-212; cutting `tmp` to `ndims` panics when
`ndims > MAXDIMS`. Simplification: `tmp` is created afresh for every observation; the
source reuses one array, all of whose entries are overwritten before use. -/
def interp (fma : Bool) (s : MultilinearRectilinearRecursive T M) (x : List (List T))
    (out : List T) : (Res Unit × List T) × (Op → Nat) :=
  let n := out.length
  let ndims := s.grids.length
  if x.length ≠ ndims then ((.err "Dimension mismatch", out), fun _ => 0)
  else if !(x.all fun xx => xx.length == out.length) then ((.err "Dimension mismatch", out), fun _ => 0)
  else if M < ndims then ((.panic, out), fun _ => 0)
  else
    batchLoop (fun i => do
      let tmp ← forRange ndims ((fun _ => zero) : Fin ndims → T) fun j tmp => do
        aset tmp j (← lget (← lget x j) i)
      interpOne fma s (List.ofFn tmp)) n 0 out

end Interpn.Counted.MultilinearRectilinearRecursive

namespace Interpn.Counted.MultilinearRectilinear
variable {T : Type} [FloatOps T] {N : Nat}

/-- `get_loc`, `/repo/src/multilinear/rectilinear.rs` 353-370. -/
def getLoc (s : MultilinearRectilinear T N) (v : T) (dim : Nat) : Counted Nat := do
  let grid ← aget s.grids dim
  let iloc ← isub (asIsize (← partitionPoint grid (fun x => x <. v))) 1
  let n := asIsize (← aget s.dims dim)
  let dimmax := max (isatSub n 2) 0
  let loc := asUsize (min (max iloc 0) dimmax)
  return loc

/-- First loop of `interp_one`, `/repo/src/multilinear/rectilinear.rs` 256-273: the final
values of `(acc, dimprod, origin)`. -/
def setup (s : MultilinearRectilinear T N) (x : Fin N → T) :
    Counted (Nat × (Fin N → Nat) × (Fin N → Nat)) :=
  forRange N (1, (fun _ => 1), (fun _ => 0)) fun i (acc, dimprod, origin) => do
    let acc ← (if 0 < i then do umul acc (← aget s.dims (N - i)) else pure acc : Res Nat)
    let dimprod ← aset dimprod (N - i - 1) acc
    let origin ← aset origin i (← getLoc s (← aget x i) i)
    return (acc, dimprod, origin)

/-- Second loop of `interp_one`, `/repo/src/multilinear/rectilinear.rs` 279-327: the final
values of `(loc, store)`. The unroll limits 64 and 7 are not modelled (not reached for
`N < 7`). -/
def vertexLoop (fma : Bool) (s : MultilinearRectilinear T N) (x : Fin N → T)
    (dimprod origin : Fin N → Nat) : Counted ((Fin N → Nat) × (Fin N → Fin 2 → T)) :=
  let FP := 2
  let nverts := FP ^ N
  forRange nverts ((fun _ => 0), (fun _ _ => zero)) fun i st =>
    forRange N st fun j (loc, store) =>
      if j = 0 then do
        let loc ← forRange N loc fun k loc => do
          let OFFSET := (i &&& (1 <<< k)) >>> k
          aset loc k (← uadd (← aget origin k) OFFSET)
        let STORE_IND := i % FP
        let store ← setStore store 0 STORE_IND (← indexArrFixedDims loc dimprod s.vals)
        return (loc, store)
      else
        let Q := FP ^ j
        let P := ((i + 1) / Q - 1) % FP
        let IND := j - 1
        if (i + 1) % Q = 0 then do
          let x0 ← lget (← aget s.grids IND) (← aget origin IND)
          let x1 ← lget (← aget s.grids IND) (← uadd (← aget origin IND) 1)
          let step := x1 -. x0
          let t := ((← aget x IND) -. x0) /. step
          let y0 := (← aget store IND) 0
          let dy := (← aget store IND) 1 -. y0
          tick .kernel
          let interped := if fma then mulAdd t dy y0 else y0 +. t *. dy
          let store ← setStore store j P interped
          return (loc, store)
        else return (loc, store)

/-- `MultilinearRectilinear::interp_one`, `/repo/src/multilinear/rectilinear.rs` 244-346. -/
def interpOne (fma : Bool) (s : MultilinearRectilinear T N) (x : Fin N → T) : Counted T := do
  let (_, dimprod, origin) ← setup s x
  let (_, store) ← vertexLoop fma s x dimprod origin
  let ind ← usub N 1
  let x0 ← lget (← aget s.grids ind) (← aget origin ind)
  let x1 ← lget (← aget s.grids ind) (← uadd (← aget origin ind) 1)
  let step := x1 -. x0
  let t := ((← aget x ind) -. x0) /. step
  let y0 := (← aget store ind) 0
  let dy := (← aget store ind) 1 -. y0
  tick .kernel
  let interped := if fma then mulAdd t dy y0 else y0 +. t *. dy
  return interped

/-- `MultilinearRectilinear::interp`, `/repo/src/multilinear/rectilinear.rs` 210-231.
Simplification: `tmp` is created afresh for every observation; the source reuses one array,
all of whose `N` entries are overwritten before use. -/
def interp (fma : Bool) (s : MultilinearRectilinear T N) (x : Fin N → List T) (out : List T) :
    (Res Unit × List T) × (Op → Nat) :=
  let n := out.length
  if !((List.ofFn x).all fun xx => xx.length == out.length) then
    ((.err "Dimension mismatch", out), fun _ => 0)
  else
    batchLoop (fun i => do
      let tmp ← forRange N ((fun _ => zero) : Fin N → T) fun j tmp => do
        aset tmp j (← lget (← aget x j) i)
      interpOne fma s tmp) n 0 out

end Interpn.Counted.MultilinearRectilinear
