import Verif.Model.Core

/-! Model of `/repo/src/utils.rs`. -/

set_option autoImplicit false

namespace Interpn
open FloatOps

/-- `T::from(n).unwrap()`. -/
def ofUsizeUnwrap {T : Type} [FloatOps T] (n : Nat) : Res T :=
  match ofUsize n with
  | some f => .ok f
  | none => .panic

/-- `(0..n).map(f).collect()` with a possibly panicking `f`; `k` counts the remaining
iterations. -/
def mapRange {α : Type} (f : Nat → Res α) : (k i : Nat) → Res (List α)
  | 0, _ => .ok []
  | k + 1, i => do
    let a ← f i
    let as ← mapRange f k (i + 1)
    return a :: as

/-- `linspace`, `/repo/src/utils.rs` 8-14: panics for `n = 0` (`n - 1` overflows). -/
def linspace {T : Type} [FloatOps T] (start stop : T) (n : Nat) : Res (List T) := do
  let dx := (stop -. start) /. (← ofUsizeUnwrap (← usub n 1))
  mapRange (fun i => do return start +. (← ofUsizeUnwrap i) *. dx) n 0

/-- `meshgrid`, `/repo/src/utils.rs` 17-25. `itertools::multi_cartesian_product` is
modelled by its documented behaviour (0.14): all combinations, last iterator fastest; the
product of no iterators is one empty combination. -/
def meshgrid {T : Type} : List (List T) → List (List T)
  | [] => [[]]
  | xs :: rest => xs.flatMap fun a => (meshgrid rest).map (a :: ·)

end Interpn
