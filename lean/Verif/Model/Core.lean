/-
Core of the model: outcomes, float operations, checked integers, arrays, loops
and the flat indexing helpers of `/repo/src/lib.rs`.
-/

set_option autoImplicit false

namespace Interpn

/-! ### Outcomes -/

/-- Outcome of running a Rust function returning `Result<α, &'static str>`:
`Ok`, `Err(msg)`, or a panic (out-of-bounds index, integer overflow with
`overflow-checks = true` (`/repo/Cargo.toml` profiles), failed `unwrap`).
Functions returning a plain value use `ok`/`panic` only. -/
inductive Res (α : Type) where
  | ok (a : α)
  | err (msg : String)
  | panic
  deriving DecidableEq, Repr

namespace Res

/-- Sequencing: the `?` operator together with panic propagation. -/
@[inline] def bind {α β : Type} (r : Res α) (f : α → Res β) : Res β :=
  match r with
  | ok a => f a
  | err e => err e
  | panic => panic

instance : Monad Res where
  pure := Res.ok
  bind := Res.bind

end Res

/-! ### Floating-point operations -/

/-- `isize::MIN` / `isize::MAX` on a 64-bit target. -/
def isizeMin : Int := -(2 ^ 63)
/-- `isize::MAX` on a 64-bit target. -/
def isizeMax : Int := 2 ^ 63 - 1
/-- `usize::MAX` on a 64-bit target. -/
def usizeMax : Nat := 2 ^ 64 - 1

/-- The operations of `num_traits::Float` and `num_traits::NumCast` used by
the crate. No algebraic law is assumed, so every instance of this class (in
particular IEEE `f32`/`f64` with NaN, infinities and rounding) is covered by
theorems over an arbitrary `[FloatOps T]`. Comparisons are Boolean because
Rust's `<`, `<=` on floats are total Boolean functions (false on NaN);
`a > b` is `b < a` and `a >= b` is `b <= a`, as in IEEE 754. -/
class FloatOps (T : Type) where
  zero : T
  one : T
  add : T → T → T
  sub : T → T → T
  mul : T → T → T
  div : T → T → T
  neg : T → T
  abs : T → T
  floor : T → T
  /-- `a.mul_add(b, c)`, i.e. `a * b + c` with one rounding -/
  mulAdd : T → T → T → T
  fmin : T → T → T
  fmax : T → T → T
  lt : T → T → Bool
  le : T → T → Bool
  /-- `<isize as NumCast>::from(x)` -/
  toIsize : T → Option Int
  /-- `<T as NumCast>::from(n)` for `n : usize` -/
  ofUsize : Nat → Option T
  /-- an `isize` is an `isize`: the only fact known about the casts -/
  toIsize_range : ∀ x z, toIsize x = some z → isizeMin ≤ z ∧ z ≤ isizeMax

namespace FloatOps
scoped infixl:65 " +. " => FloatOps.add
scoped infixl:65 " -. " => FloatOps.sub
scoped infixl:70 " *. " => FloatOps.mul
scoped infixl:70 " /. " => FloatOps.div
scoped prefix:75 "-." => FloatOps.neg
scoped infix:50 " <. " => FloatOps.lt
scoped infix:50 " <=. " => FloatOps.le
end FloatOps

/-! ### Checked machine integers -/

/-- `usize` addition with overflow checks. -/
def uadd (a b : Nat) : Res Nat := if a + b ≤ usizeMax then .ok (a + b) else .panic

/-- `usize` multiplication with overflow checks. -/
def umul (a b : Nat) : Res Nat := if a * b ≤ usizeMax then .ok (a * b) else .panic

/-- `usize` subtraction with overflow checks. -/
def usub (a b : Nat) : Res Nat := if b ≤ a then .ok (a - b) else .panic

/-- `isize` subtraction with overflow checks. -/
def isub (a b : Int) : Res Int :=
  if isizeMin ≤ a - b ∧ a - b ≤ isizeMax then .ok (a - b) else .panic

/-- `n as isize` for `n : usize`: two's complement reinterpretation. -/
def asIsize (n : Nat) : Int := if (n : Int) ≤ isizeMax then n else (n : Int) - 2 ^ 64

/-- `z as usize` for `z : isize`: two's complement reinterpretation. -/
def asUsize (z : Int) : Nat := if 0 ≤ z then z.toNat else (z + 2 ^ 64).toNat

/-- `isize::saturating_sub`. -/
def isatSub (a b : Int) : Int := max isizeMin (min isizeMax (a - b))

/-- `dims.iter().product::<usize>()`: left-to-right checked product. -/
def uprodFrom : Nat → List Nat → Res Nat
  | acc, [] => .ok acc
  | acc, d :: ds => do uprodFrom (← umul acc d) ds

/-- `dims.iter().product::<usize>()`, starting from 1. -/
def uprod (ds : List Nat) : Res Nat := uprodFrom 1 ds

/-! ### Arrays, slices, loops -/

section
variable {α σ : Type} {N : Nat}

/-- `a[i]` for an array `a : [α; N]`; out of bounds panics. -/
def aget (a : Fin N → α) (i : Nat) : Res α :=
  if h : i < N then .ok (a ⟨i, h⟩) else .panic

/-- `a[i] = v` for an array `a : [α; N]`; out of bounds panics. -/
def aset (a : Fin N → α) (i : Nat) (v : α) : Res (Fin N → α) :=
  if i < N then .ok (fun j => if j.val = i then v else a j) else .panic

/-- `s[i]` for a slice `s : &[α]`; out of bounds panics. -/
def lget (s : List α) (i : Nat) : Res α :=
  match s[i]? with
  | some a => .ok a
  | none => .panic

/-- `s.try_into().unwrap()` from `&[α]` to `[α; N]`: panics when the length is
not `N`. -/
def toArr (N : Nat) (s : List α) : Res (Fin N → α) :=
  if h : s.length = N then .ok (fun i => s[i.val]'(h ▸ i.isLt)) else .panic

/-- `a[..n].copy_from_slice(&s[..n])` into a fresh `[pad; M]`, for `s` of length `n`:
panics when `n > M` (e.g. `/repo/src/multilinear/regular_recursive.rs` 219-224). -/
def padTo (M : Nat) (pad : α) (s : List α) : Res (Fin M → α) :=
  if s.length ≤ M then .ok (fun i => s.getD i.val pad) else .panic

/-- `s.iter().all(p)`, short-circuiting, for a predicate that may panic. -/
def allRes (p : α → Res Bool) : List α → Res Bool
  | [] => .ok true
  | a :: as => do if ← p a then allRes p as else return false

/-- `store[j][p] = v` for `store : [[T; FP]; N]`. -/
def setStore {T : Type} {FP : Nat} (store : Fin N → Fin FP → T) (j p : Nat) (v : T) :
    Res (Fin N → Fin FP → T) := do
  aset store j (← aset (← aget store j) p v)

/-- `for i in 0..n { state = body(i, state)? }`. -/
def forRange (n : Nat) (init : σ) (body : Nat → σ → Res σ) : Res σ :=
  match n with
  | 0 => .ok init
  | n + 1 => do body n (← forRange n init body)

end

/-! ### Flat indexing (`/repo/src/lib.rs`) -/

/-- `index_arr`, `/repo/src/lib.rs` 117-126: `i = Σ_j loc[j] * dimprod[j]` with checked
`usize` arithmetic, then `data[i]`. Simplification: `loc` and `dimprod`, slices in the
source, are both given as arrays of the same length `n`; every caller passes slices cut to
the same `ndims`. -/
def indexArr {T : Type} {n : Nat} (loc dimprod : Fin n → Nat) (data : List T) : Res T := do
  let i ← forRange n 0 fun j i => do
    uadd i (← umul (← aget loc j) (← aget dimprod j))
  lget data i

/-- `index_arr_fixed_dims`, `/repo/src/lib.rs` 128-144: the same for arrays. Not modelled:
the unroll limit 7 (`N < 7` by the compile-time assertion of every caller). -/
def indexArrFixedDims {T : Type} {N : Nat} (loc dimprod : Fin N → Nat) (data : List T) :
    Res T := do
  let i ← forRange N 0 fun j i => do
    uadd i (← umul (← aget loc j) (← aget dimprod j))
  lget data i

/-! ### Batch loop, entry points -/

/-- The batch loop shared by all `interp` methods and `Interp1D::eval`:
`for i in 0..n { out[i] = point(i)?; }`. Returns the outcome together with the
final contents of `out`; on an error or panic at `i` the buffer keeps what was
written for the first `i` entries. `k` counts the remaining iterations. -/
def batchLoop {T : Type} (point : Nat → Res T) : (k i : Nat) → List T → Res Unit × List T
  | 0, _, out => (.ok (), out)
  | k + 1, i, out =>
    match point i with
    | .ok v => if i < out.length then batchLoop point k (i + 1) (out.set i v) else (.panic, out)
    | .err e => (.err e, out)
    | .panic => (.panic, out)

/-- `f()?` in a function with an output buffer: an error or panic before the
buffer is touched. -/
def tryOut {α : Type} {T : Type} (r : Res α) (out : List T)
    (f : α → Res Unit × List T) : Res Unit × List T :=
  match r with
  | .ok a => f a
  | .err e => (.err e, out)
  | .panic => (.panic, out)

/-- Error of the `interpn` functions limited to 8 dimensions
(`/repo/src/multilinear/regular.rs` 112-114 and the same text in the other modules). -/
def errMax8 : String :=
  "Dimension exceeds maximum (8). Use interpolator struct directly for higher dimensions."

/-- `interpn_alloc` of every module (e.g. `/repo/src/multilinear/regular.rs` 124-134):
allocate `obs[0].len()` zeros (indexing `obs[0]` panics when empty), run
`interpn`, return the buffer. -/
def allocRun {T : Type} (zero : T) (obs : List (List T))
    (run : List T → Res Unit × List T) : Res (List T) := do
  let o0 ← lget obs 0
  let r := run (List.replicate o0.length zero)
  let _ ← r.1
  return r.2

end Interpn
