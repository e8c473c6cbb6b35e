import Verif.Model.Core

/-! Machine integers without overflow checks.

`/repo/Cargo.toml` 45 sets `overflow-checks = true` for the release profile, but Cargo reads
profiles only from the root package of a build: a program that depends on the crate gets the
release default, `overflow-checks = false`, in which `+ - *` on `usize` and `isize` wrap
modulo `2^64` (Rust reference, "Overflow"). `Verif/Model/Unchecked/` models such a build: each
file has the text of its counterpart in `Verif/Model/`, and only the operations below differ.
Indexing stays checked in every profile, so `aget`, `lget`, slices and loops are shared. -/

set_option autoImplicit false

namespace Interpn.Unchecked

/-- `usize` addition, wrapping. -/
def uadd (a b : Nat) : Res Nat := .ok ((a + b) % 2 ^ 64)

/-- `usize` multiplication, wrapping. -/
def umul (a b : Nat) : Res Nat := .ok ((a * b) % 2 ^ 64)

/-- `usize` subtraction, wrapping (both operands are `usize`, below `2^64`). -/
def usub (a b : Nat) : Res Nat := .ok (if b ≤ a then a - b else a + 2 ^ 64 - b)

/-- `isize` subtraction, wrapping: the representative of `a - b` in the range of `isize`. -/
def isub (a b : Int) : Res Int := .ok ((a - b + 2 ^ 63) % 2 ^ 64 - 2 ^ 63)

/-- `dims.iter().product::<usize>()`: left-to-right wrapping product
(`Product for usize` in the standard library inherits the overflow checks of the caller). -/
def uprodFrom : Nat → List Nat → Res Nat
  | acc, [] => .ok acc
  | acc, d :: ds => do uprodFrom (← umul acc d) ds

/-- `dims.iter().product::<usize>()`, starting from 1. -/
def uprod (ds : List Nat) : Res Nat := uprodFrom 1 ds

/-- `index_arr`, `/repo/src/lib.rs` 117-126. -/
def indexArr {T : Type} {n : Nat} (loc dimprod : Fin n → Nat) (data : List T) : Res T := do
  let i ← forRange n 0 fun j i => do
    uadd i (← umul (← aget loc j) (← aget dimprod j))
  lget data i

/-- `index_arr_fixed_dims`, `/repo/src/lib.rs` 128-144. -/
def indexArrFixedDims {T : Type} {N : Nat} (loc dimprod : Fin N → Nat) (data : List T) :
    Res T := do
  let i ← forRange N 0 fun j i => do
    uadd i (← umul (← aget loc j) (← aget dimprod j))
  lget data i

end Interpn.Unchecked
