import Verif.Model.Multilinear
import Verif.Model.Nearest
import Verif.Model.Multicubic

/-!
Common forms of code that occurs, with the same or nearly the same text, in several source
files. They are used only in proofs: `Verif/Lemmas/FormsEq.lean` shows that the functions of the
model (one for each Rust function) are equal to these forms, so that a fact about a form need be
proved only once. No property statement mentions them.
-/

set_option autoImplicit false

namespace Interpn

section
variable {T α : Type} {N FP : Nat}

/-- `tmp[j] = x[j][i]` for all axes `j` (e.g. `/repo/src/multilinear/regular.rs` 278).
Simplification: `tmp` is created afresh for every observation; the source reuses one
array, all of whose `N` entries are overwritten before use. -/
def gatherPoint {T : Type} {N : Nat} (zero : T) (x : Fin N → List T) (i : Nat) :
    Res (Fin N → T) :=
  forRange N (fun _ => zero) fun j tmp => do
    aset tmp j (← lget (← aget x j) i)

/-- Body of the N-d `interp` methods, e.g. `/repo/src/multilinear/regular.rs` 268-283:
all observation slices must have the length of `out`, then the batch loop. -/
def interpBatch {T : Type} {N : Nat} (zero : T) (interpOne : (Fin N → T) → Res T)
    (x : Fin N → List T) (out : List T) : Res Unit × List T :=
  if (List.ofFn x).all (fun xx => xx.length == out.length) then
    batchLoop (fun i => do interpOne (← gatherPoint zero x i)) out.length 0 out
  else (.err "Dimension mismatch", out)

/-- Innermost loop of the flattened schedule: `loc[k] = origin[k] + OFFSET` for all
axes `k`, where `OFFSET` is digit `k` of the vertex number `i`
(`/repo/src/multilinear/regular.rs` 357-365, `multilinear/rectilinear.rs` 289-297,
`multicubic/regular.rs` 378-386, `multicubic/rectilinear.rs` 308-316). -/
def setLoc (offset : Nat → Nat → Nat) (origin : Fin N → Nat) (i : Nat) (loc : Fin N → Nat) :
    Res (Fin N → Nat) :=
  forRange N loc fun k loc => do
    aset loc k (← uadd (← aget origin k) (offset i k))

/-- Body of the double loop over vertices `i` and levels `j` of the flattened schedule
(`/repo/src/multilinear/regular.rs` 354-389, `multilinear/rectilinear.rs` 286-325,
`multicubic/regular.rs` 375-408, `multicubic/rectilinear.rs` 305-340). The state is
the pair of mutable variables `(loc, store)`. -/
def vertexStep (offset : Nat → Nat → Nat) (origin dimprod : Fin N → Nat) (vals : List T)
    (node : Nat → (Fin FP → T) → Res T) (i j : Nat)
    (st : (Fin N → Nat) × (Fin N → Fin FP → T)) :
    Res ((Fin N → Nat) × (Fin N → Fin FP → T)) :=
  if j = 0 then do
    -- At leaves, index values
    let loc ← setLoc offset origin i st.1
    let store ← setStore st.2 0 (i % FP) (← indexArr loc dimprod vals)
    return (loc, store)
  else
    -- For other nodes, interpolate on child values
    let q := FP ^ j
    let p := ((i + 1) / q - 1) % FP
    let ind := j - 1
    if (i + 1) % q = 0 then do
      let store ← setStore st.2 j p (← node ind (← aget st.2 ind))
      return (st.1, store)
    else
      .ok st

/-- The whole flattened evaluation after setup: the vertex loop and the final
interpolation of `store[N-1]` (`/repo/src/multilinear/regular.rs` 343-403,
`multilinear/rectilinear.rs` 275-345, `multicubic/regular.rs` 364-421,
`multicubic/rectilinear.rs` 294-355). The unroll limits 64/256, 7/5 are not
modelled: they are not reached under the compile-time bound on `N`. -/
def flatEval (FP : Nat) (zero : T) (offset : Nat → Nat → Nat) (origin dimprod : Fin N → Nat)
    (vals : List T) (node : Nat → (Fin FP → T) → Res T) : Res T := do
  let nverts := FP ^ N
  let st ← forRange nverts ((fun _ => 0), (fun _ _ => zero)) fun i st =>
    forRange N st fun j st => vertexStep offset origin dimprod vals node i j st
  let last ← usub N 1
  node last (← aget st.2 last)

/-- `OFFSET` of the linear flattened methods: `(i & (1 << k)) >> k`
(`/repo/src/multilinear/regular.rs` 362, `multilinear/rectilinear.rs` 294). -/
def offset2 (i k : Nat) : Nat := (i &&& (1 <<< k)) >>> k

/-- `OFFSET` of the cubic flattened methods: `(i & (3 << (2*k))) >> (2*k)`
(`/repo/src/multicubic/regular.rs` 383, `multicubic/rectilinear.rs` 313). -/
def offset4 (i k : Nat) : Nat := (i &&& (3 <<< (2 * k))) >>> (2 * k)

/-- `if i > 0 { acc *= self.dims[N - i]; }` (`/repo/src/multilinear/regular.rs` 323-325 and
the same lines of the other flattened methods). -/
def accStep (dims : Fin N → Nat) (i acc : Nat) : Res Nat :=
  if 0 < i then do umul acc (← aget dims (N - i)) else .ok acc

/-- Setup loop of the flattened methods, generic in the per-axis data `α`
(`/repo/src/multilinear/regular.rs` 315-341, `multilinear/rectilinear.rs` 257-273,
`nearest/regular.rs` 254-291, `nearest/rectilinear.rs` 206-237,
`multicubic/regular.rs` 337-362, `multicubic/rectilinear.rs` 276-292):
strides and per-axis data are computed in the same loop, in this order.
Simplification: the parallel arrays (`origin`, `dts`, `sat`) are one array of
tuples. -/
def flatSetup (dims : Fin N → Nat) (init : α) (axis : Nat → Res α) :
    Res ((Fin N → Nat) × (Fin N → α)) := do
  let st ← forRange N (1, (fun _ => 1), (fun _ => init)) fun i
      (st : Nat × (Fin N → Nat) × (Fin N → α)) => do
    let acc ← accStep dims i st.1
    let dimprod ← aset st.2.1 (N - i - 1) acc
    let axes ← aset st.2.2 i (← axis i)
    return (acc, dimprod, axes)
  return (st.2.1, st.2.2)

/-- Stride loop of the recursive methods
(`/repo/src/multilinear/regular_recursive.rs` 297-301,
`multilinear/rectilinear_recursive.rs` 246-250, `multicubic/regular_recursive.rs`
346-350, `multicubic/rectilinear_recursive.rs` 265-269): note the extra
multiplication after the last write. -/
def recDimprod {M : Nat} (n : Nat) (dims : Fin M → Nat) : Res (Fin n → Nat) := do
  let st ← forRange n (1, (fun _ => 1)) fun i (st : Nat × (Fin n → Nat)) => do
    let dimprod ← aset st.2 (n - i - 1) st.1
    let acc ← umul st.1 (← aget dims (n - i - 1))
    return (acc, dimprod)
  return st.2

/-- `for i in 0..ndims { a[i] = f(i)? }` (per-axis loops of the recursive methods). -/
def axisLoop (n : Nat) (init : α) (f : Nat → Res α) : Res (Fin n → α) :=
  forRange n (fun _ => init) fun i a => do aset a i (← f i)

/-- `populate` of the recursive methods
(`/repo/src/multilinear/regular_recursive.rs` 348-389,
`multilinear/rectilinear_recursive.rs` 293-336, `multicubic/regular_recursive.rs`
427-465, `multicubic/rectilinear_recursive.rs` 340-380). `loc` is `&mut`, so the
new `loc` is returned with the value. -/
def populate (FP : Nat) (zero : T) (origin dimprod : Fin N → Nat) (vals : List T)
    (node : Nat → (Fin FP → T) → Res T) : Nat → (Fin N → Nat) → Res (T × (Fin N → Nat))
  | 0, loc => do return (← indexArr loc dimprod vals, loc)
  | next + 1, loc => do
    let st ← forRange FP ((fun _ => zero), loc) fun i
        (st : (Fin FP → T) × (Fin N → Nat)) => do
      let loc ← aset st.2 next (← uadd (← aget origin next) i)
      let r ← populate FP zero origin dimprod vals node next loc
      return (← aset st.1 i r.1, r.2)
    let loc ← aset st.2 next (← aget origin next)
    return (← node next st.1, loc)

end

open FloatOps

variable {T : Type} [FloatOps T]

/-- `get_loc` on a regular grid axis, identical text in
`/repo/src/multilinear/regular.rs` 414-425, `multilinear/regular_recursive.rs` 333-344,
`nearest/regular.rs` 305-316. `dim`, `start`, `step` are the axis' entries of
`self.dims`, `self.starts`, `self.steps`. -/
def linGetLocRegular (dim : Nat) (start step v : T) : Res Nat :=
  let floc := floor ((v -. start) /. step)
  match toIsize floc with
  | none => .err "Unrepresentable coordinate value"
  | some iloc =>
    let n := asIsize dim
    let dimmax := max (isatSub n 2) 0
    let loc := asUsize (min (max iloc 0) dimmax)
    .ok loc

/-- `get_loc` on a rectilinear grid axis, identical text in
`/repo/src/multilinear/rectilinear.rs` 353-370, `multilinear/rectilinear_recursive.rs`
272-289, `nearest/rectilinear.rs` 248-265. -/
def linGetLocRectilinear (dim : Nat) (grid : List T) (v : T) : Res Nat := do
  let iloc ← isub (asIsize (partitionPoint grid (fun x => x <. v))) 1
  let n := asIsize dim
  let dimmax := max (isatSub n 2) 0
  let loc := asUsize (min (max iloc 0) dimmax)
  return loc

/-- `y0 + t * dy`, or `t.mul_add(dy, y0)` with the `fma` feature, where
`y0 = v[0]`, `dy = v[1] - y0` (`/repo/src/multilinear/regular.rs` 378-385 and 396-402,
`multilinear/rectilinear.rs` 315-321 and 339-344, `multilinear/regular_recursive.rs`
377-384, `multilinear/rectilinear_recursive.rs` 325-331). -/
def lerp (fma : Bool) (t : T) (v : Fin 2 → T) : T :=
  let y0 := v 0
  let dy := v 1 -. y0
  if fma then mulAdd t dy y0 else y0 +. t *. dy

/-- Interpolation along axis with grid `grid` between `grid[o]` and `grid[o+1]` at `x`
(`/repo/src/multilinear/rectilinear.rs` 310-321 and 334-344;
`multilinear/rectilinear_recursive.rs` 322-331). -/
def lerpRectilinear (fma : Bool) (grid : List T) (o : Nat) (x : T) (v : Fin 2 → T) : Res T := do
  let x0 ← lget grid o
  let x1 ← lget grid (← uadd o 1)
  let step := x1 -. x0
  let t := (x -. x0) /. step
  return lerp fma t v

/-- The three checks of the regular-grid constructors. `minDim` is 2 (linear, nearest) or
4 (cubic), with its message (`/repo/src/multilinear/regular.rs` 238-251,
`nearest/regular.rs` 176-189, `multicubic/regular.rs` 253-267). -/
def checkRegular (minDim : Nat) (msg : String) (dims : List Nat) (steps : List T)
    (vals : List T) : Res Unit := do
  let nvals ← uprod dims
  if vals.length ≠ nvals then .err "Dimension mismatch"
  else if dims.any (· < minDim) then .err msg
  else if !(steps.all (fun x => zero <. x)) then
    .err "All grids must be monotonically increasing"
  else .ok ()

/-- `g[1] > g[0]` for a slice; panics when shorter than two. -/
def firstPairIncreasing (g : List T) : Res Bool := do
  let g1 ← lget g 1
  let g0 ← lget g 0
  return g0 <. g1

/-- `grids.iter().all(|&g| g[1] > g[0])`, short-circuiting. -/
def allFirstPairs : List (List T) → Res Bool
  | [] => .ok true
  | g :: gs => do
    if ← firstPairIncreasing g then allFirstPairs gs else return false

/-- The three checks of the rectilinear-grid constructors
(`/repo/src/multilinear/rectilinear.rs` 183-198, `nearest/rectilinear.rs` 132-147,
`multicubic/rectilinear.rs` 205-220). -/
def checkRectilinear (minDim : Nat) (msg : String) (grids : List (List T)) (vals : List T) :
    Res Unit := do
  let dims := grids.map List.length
  let nvals ← uprod dims
  if vals.length ≠ nvals then .err "Dimension mismatch"
  else if dims.any (· < minDim) then .err msg
  else if !(← allFirstPairs grids) then .err "All grids must be monotonically increasing"
  else .ok ()

namespace MultilinearRegular
variable {N : Nat}

/-- Per-axis part of the setup loop of `interp_one`,
`/repo/src/multilinear/regular.rs` 329-339: `(origin[i], dts[i])`. -/
def axis (fma : Bool) (s : MultilinearRegular T N) (x : Fin N → T) (i : Nat) :
    Res (Nat × T) := do
  let xi ← aget x i
  let start ← aget s.starts i
  let step ← aget s.steps i
  let origin ← linGetLocRegular (← aget s.dims i) start step xi
  match ofUsize origin with
  | none => .err "Unrepresentable coordinate value"
  | some origin_f =>
    let index_zero_loc :=
      if fma then mulAdd step origin_f start else start +. step *. origin_f
    let dt := (xi -. index_zero_loc) /. step
    return (origin, dt)

end MultilinearRegular

namespace MultilinearRectilinear
variable {N : Nat}

/-- Per-axis part of the setup loop, `/repo/src/multilinear/rectilinear.rs` 271. -/
def axis (s : MultilinearRectilinear T N) (x : Fin N → T) (i : Nat) : Res Nat := do
  linGetLocRectilinear (← aget s.dims i) (← aget s.grids i) (← aget x i)

end MultilinearRectilinear

/-- Checks of the recursive regular-grid constructors
(`/repo/src/multilinear/regular_recursive.rs` 197-212,
`multicubic/regular_recursive.rs` 243-259). -/
def checkRegularRec (minDim : Nat) (msg : String) (dims : List Nat) (starts steps : List T)
    (vals : List T) : Res Unit := do
  let ndims := dims.length
  let nvals ← uprod dims
  if !(starts.length = ndims && steps.length = ndims && vals.length = nvals && 0 < ndims) then
    .err "Dimension mismatch"
  else if dims.any (· < minDim) then .err msg
  else if !(steps.all (fun x => zero <. x)) then
    .err "All grids must be monotonically increasing"
  else .ok ()

/-- `interp` of the recursive methods
(`/repo/src/multilinear/regular_recursive.rs` 242-262,
`multilinear/rectilinear_recursive.rs` 190-212, `multicubic/regular_recursive.rs`
290-310, `multicubic/rectilinear_recursive.rs` 208-230): check the number of
observation slices, then their lengths, then cut `tmp` to `ndims` (panics when
`ndims > MAXDIMS`), then the batch loop. -/
def interpBatchRec (M ndims : Nat) (zero : T) (interpOne : List T → Res T)
    (x : List (List T)) (out : List T) : Res Unit × List T :=
  if h : x.length = ndims then
    if x.all (fun xx => xx.length == out.length) then
      if ndims ≤ M then
        batchLoop (fun i => do
            let p ← gatherPoint zero (fun k : Fin ndims => x[k.val]'(by omega)) i
            interpOne (List.ofFn p)) out.length 0 out
      else (.panic, out)
    else (.err "Dimension mismatch", out)
  else (.err "Dimension mismatch", out)

/-- Dimension array and checks of the recursive rectilinear constructors
(`/repo/src/multilinear/rectilinear_recursive.rs` 161-178,
`multicubic/rectilinear_recursive.rs` 174-191): writing `dims[i]` panics when there are
more than `MAXDIMS` grids, before the error check is reached. -/
def checkRectilinearRec (M minDim : Nat) (msg : String) (grids : List (List T))
    (vals : List T) : Res (Fin M → Nat) := do
  let ndims := grids.length
  let dims ← padTo M 1 (grids.map List.length)
  let nvals ← uprod (grids.map List.length)
  if !(vals.length = nvals && 0 < ndims && ndims ≤ M) then .err "Dimension mismatch"
  else if (grids.map List.length).any (· < minDim) then .err msg
  else if !(← allFirstPairs grids) then .err "All grids must be monotonically increasing"
  else .ok dims

/-- `bad = obs.iter().any(|&x| (x - lo) <= -atol || (x - hi) >= atol)`
(`/repo/src/multilinear/regular.rs` 168-170, `multilinear/rectilinear.rs` 124-126 and the
copies in the recursive modules). -/
def boundsFlag (lo hi atol : T) (obs : List T) : Bool :=
  obs.any fun x => ((x -. lo) <=. (-. atol)) || (atol <=. (x -. hi))

/-- A loop `for i in 0..n { out[i] = flag(i)? }` over a `bool` buffer, as in
`check_bounds`; like `batchLoop`. -/
def checkBoundsLoop (flag : Nat → Res Bool) (n : Nat) (out : List Bool) :
    Res Unit × List Bool :=
  batchLoop flag n 0 out

/-- Loop body of regular `check_bounds` for axis `i`
(`/repo/src/multilinear/regular.rs` 159-179). -/
def checkBoundsRegularAxis (dims : List Nat) (starts steps : List T) (obs : List (List T))
    (atol : T) (i : Nat) : Res Bool := do
  let first ← lget starts i
  let last_elem := ofUsize (T := T) (← usub (← lget dims i) 1)
  match last_elem with
  | some last_elem => do
    let last := (← lget starts i) +. (← lget steps i) *. last_elem
    let lo := fmin first last
    let hi := fmax first last
    return boundsFlag lo hi atol (← lget obs i)
  | none => return true

/-- Loop body of rectilinear `check_bounds` for axis `i`
(`/repo/src/multilinear/rectilinear.rs` 120-131). -/
def checkBoundsRectilinearAxis (grids obs : List (List T)) (atol : T) (i : Nat) :
    Res Bool := do
  let lo ← lget (← lget grids i) 0
  match (← lget grids i).getLast? with
  | some hi => return boundsFlag lo hi atol (← lget obs i)
  | none => .err "Dimension mismatch"

/-- `let two = T::one() + T::one(); let half = T::one() / two;`
(`/repo/src/nearest/regular.rs` 251-252, `nearest/rectilinear.rs` 203-204). -/
def half : T := (one : T) /. ((one : T) +. one)

/-- `if dt <= half { 0 } else { 1 }` (`/repo/src/nearest/regular.rs` 283-287,
`nearest/rectilinear.rs` 229-233). -/
def nearestOffset (dt : T) : Nat := if dt <=. half then 0 else 1

namespace NearestRegular
variable {N : Nat}

/-- Per-axis part of the setup loop of `interp_one`: the value stored in `loc[i]`
(`/repo/src/nearest/regular.rs` 268-289). -/
def axis (fma : Bool) (s : NearestRegular T N) (x : Fin N → T) (i : Nat) : Res Nat := do
  let xi ← aget x i
  let start ← aget s.starts i
  let step ← aget s.steps i
  let origin ← linGetLocRegular (← aget s.dims i) start step xi
  match ofUsize origin with
  | none => .err "Unrepresentable coordinate value"
  | some origin_f =>
    let index_zero_loc :=
      if fma then mulAdd step origin_f start else start +. step *. origin_f
    let dt := (xi -. index_zero_loc) /. step
    uadd origin (nearestOffset dt)

end NearestRegular

namespace NearestRectilinear
variable {N : Nat}

/-- Per-axis part of the setup loop of `interp_one`: the value stored in `loc[i]`
(`/repo/src/nearest/rectilinear.rs` 220-235). -/
def axis (s : NearestRectilinear T N) (x : Fin N → T) (i : Nat) : Res Nat := do
  let xi ← aget x i
  let grid ← aget s.grids i
  let origin ← linGetLocRectilinear (← aget s.dims i) grid xi
  let x0 ← lget grid origin
  let x1 ← lget grid (← uadd origin 1)
  let step := x1 -. x0
  let dt := (xi -. x0) /. step
  uadd origin (nearestOffset dt)

end NearestRectilinear

/-- `two * dy - k0`, or `two.mul_add(dy, -k0)`: "natural spline boundary condition"
(`/repo/src/multicubic/regular.rs` 525-528 and copies). -/
def naturalK1 (fma : Bool) (two dy k0 : T) : T :=
  if fma then mulAdd two dy (-. k0) else two *. dy -. k0

/-- `y1 + k1 * (t - one)`, or `k1.mul_add(t - one, y1)`
(`/repo/src/multicubic/regular.rs` 553-561 and copies). -/
def linExtrap (fma : Bool) (y1 k1 t : T) : T :=
  if fma then mulAdd k1 (t -. one) y1 else y1 +. k1 *. (t -. one)

/-- `interp_inner` on a regular grid. `/repo/src/multicubic/regular.rs` 474-623 is
`cubicInnerRegular fma fma`; `/repo/src/multicubic/regular_recursive.rs` 470-610, which has
the same text except that the boundary slope in the `OutsideLow` branch never uses
`mul_add`, is `cubicInnerRegular fma false`. -/
def cubicInnerRegular (fma fmaOutLow : Bool) (v : Fin 4 → T) (t : T) (sat : Saturation)
    (lin : Bool) : T :=
  let two := (one : T) +. one
  match sat with
  | .none =>
    let y0 := v 1
    let dy := v 2 -. v 1
    let k0 := (v 2 -. v 0) /. two
    let k1 := (v 3 -. v 1) /. two
    hermite fma t y0 dy k0 k1
  | .insideLow =>
    let t := -. t
    let y0 := v 1
    let dy := v 0 -. v 1
    let k0 := (-. (v 2 -. v 0)) /. two
    let k1 := naturalK1 fma two dy k0
    hermite fma t y0 dy k0 k1
  | .outsideLow =>
    let t := -. t
    let y0 := v 1
    let y1 := v 0
    let dy := v 0 -. v 1
    let k0 := (-. (v 2 -. v 0)) /. two
    let k1 := naturalK1 fmaOutLow two dy k0
    if lin then linExtrap fma y1 k1 t else hermite fma t y0 dy k0 k1
  | .insideHigh =>
    let t := t -. one
    let y0 := v 2
    let dy := v 3 -. v 2
    let k0 := (v 3 -. v 1) /. two
    let k1 := naturalK1 fma two dy k0
    hermite fma t y0 dy k0 k1
  | .outsideHigh =>
    let t := t -. one
    let y0 := v 2
    let y1 := v 3
    let dy := v 3 -. v 2
    let k0 := (v 3 -. v 1) /. two
    let k1 := naturalK1 fma two dy k0
    if lin then linExtrap fma y1 k1 t else hermite fma t y0 dy k0 k1

/-- `interp_inner` on a rectilinear grid. `/repo/src/multicubic/rectilinear.rs` 413-545 is
`cubicInnerRectilinear fma false false`; `/repo/src/multicubic/rectilinear_recursive.rs`
385-539, which has the same text except that the boundary slope of the two `Inside`
branches and the linear extrapolation of the two `Outside` branches use `mul_add` under the
`fma` feature, is `cubicInnerRectilinear fma fma fma`. `g` is `grid_cell`. -/
def cubicInnerRectilinear (fma fmaK1 fmaLin : Bool) (v g : Fin 4 → T) (x : T)
    (sat : Saturation) (lin : Bool) : T :=
  let two := (one : T) +. one
  match sat with
  | .none =>
    let y0 := v 1
    let dy := v 2 -. v 1
    let h01 := g 1 -. g 0
    let h12 := g 2 -. g 1
    let h23 := g 3 -. g 2
    let k0 := centeredDiff fma (v 0) (v 1) (v 2) (h01 /. h12) one
    let k1 := centeredDiff fma (v 1) (v 2) (v 3) one (h23 /. h12)
    let t := (x -. g 1) /. h12
    hermite fma t y0 dy k0 k1
  | .insideLow =>
    let y0 := v 1
    let dy := v 0 -. v 1
    let h01 := g 1 -. g 0
    let h12 := g 2 -. g 1
    let k0 := -. (centeredDiff fma (v 0) (v 1) (v 2) one (h12 /. h01))
    let k1 := naturalK1 fmaK1 two dy k0
    let t := (-. (x -. g 1)) /. h01
    hermite fma t y0 dy k0 k1
  | .outsideLow =>
    let y0 := v 1
    let y1 := v 0
    let dy := v 0 -. v 1
    let h01 := g 1 -. g 0
    let h12 := g 2 -. g 1
    let k0 := -. (centeredDiff fma (v 0) (v 1) (v 2) one (h12 /. h01))
    let k1 := naturalK1 false two dy k0
    let t := (-. (x -. g 1)) /. h01
    if lin then linExtrap fmaLin y1 k1 t else hermite fma t y0 dy k0 k1
  | .insideHigh =>
    let y0 := v 2
    let dy := v 3 -. v 2
    let h12 := g 2 -. g 1
    let h23 := g 3 -. g 2
    let k0 := centeredDiff fma (v 1) (v 2) (v 3) (h12 /. h23) one
    let k1 := naturalK1 fmaK1 two dy k0
    let t := (x -. g 2) /. h23
    hermite fma t y0 dy k0 k1
  | .outsideHigh =>
    let y0 := v 2
    let y1 := v 3
    let dy := v 3 -. v 2
    let h12 := g 2 -. g 1
    let h23 := g 3 -. g 2
    let k0 := centeredDiff fma (v 1) (v 2) (v 3) (h12 /. h23) one
    let k1 := naturalK1 false two dy k0
    let t := (x -. g 2) /. h23
    if lin then linExtrap fmaLin y1 k1 t else hermite fma t y0 dy k0 k1

/-- `get_loc` on a regular axis, identical text in `/repo/src/multicubic/regular.rs` 432-469
and `multicubic/regular_recursive.rs` 386-423. -/
def cubGetLocRegular (dim : Nat) (start step v : T) : Res (Nat × Saturation) :=
  let floc := floor ((v -. start) /. step)
  match toIsize floc with
  | none => .err "Unrepresentable coordinate value"
  | some z => do
    let iloc ← isub z 1
    let n := asIsize dim
    let dimmax := max (isatSub n 4) 0
    let loc := asUsize (min (max iloc 0) dimmax)
    if iloc < -1 then return (loc, .outsideLow)
    else if iloc = -1 then return (loc, .insideLow)
    else
      let n3 ← isub n 3
      if iloc > n3 then return (loc, .outsideHigh)
      else if iloc = n3 then return (loc, .insideHigh)
      else return (loc, .none)

/-- `get_loc` on a rectilinear axis, identical text in
`/repo/src/multicubic/rectilinear.rs` 366-408 and `multicubic/rectilinear_recursive.rs`
294-336. -/
def cubGetLocRectilinear (dim : Nat) (grid : List T) (v : T) : Res (Nat × Saturation) := do
  let iloc ← isub (asIsize (partitionPoint grid (fun x => x <. v))) 2
  let n := asIsize dim
  let dimmax := max (isatSub n 4) 0
  let loc := asUsize (min (max iloc 0) dimmax)
  if iloc = -2 then return (loc, .outsideLow)
  else if iloc = -1 then return (loc, .insideLow)
  else if iloc = (← isub n 2) then return (loc, .outsideHigh)
  else if iloc = (← isub n 3) then return (loc, .insideHigh)
  else return (loc, .none)

/-- `dts[i] = (x - (start + step * from(origin + 1)?)) / step`, never `mul_add`
(`/repo/src/multicubic/regular.rs` 356-360, `multicubic/regular_recursive.rs` 361-365). -/
def cubicDt (origin : Nat) (start step x : T) : Res T := do
  match ofUsize (← uadd origin 1) with
  | none => .err "Unrepresentable coordinate value"
  | some f =>
    let index_one_loc := start +. step *. f
    return (x -. index_one_loc) /. step

namespace MulticubicRegular
variable {N : Nat}

/-- Per-axis part of the setup loop: `(origin[i], sat[i], dts[i])`
(`/repo/src/multicubic/regular.rs` 351-360). -/
def axis (s : MulticubicRegular T N) (x : Fin N → T) (i : Nat) :
    Res (Nat × Saturation × T) := do
  let xi ← aget x i
  let start ← aget s.starts i
  let step ← aget s.steps i
  let (origin, sat) ← cubGetLocRegular (← aget s.dims i) start step xi
  let dt ← cubicDt origin start step xi
  return (origin, sat, dt)

end MulticubicRegular

namespace MulticubicRectilinear
variable {N : Nat}

/-- Per-axis part of the setup loop, `/repo/src/multicubic/rectilinear.rs` 290. -/
def axis (s : MulticubicRectilinear T N) (x : Fin N → T) (i : Nat) :
    Res (Nat × Saturation) := do
  cubGetLocRectilinear (← aget s.dims i) (← aget s.grids i) (← aget x i)

end MulticubicRectilinear

end Interpn
