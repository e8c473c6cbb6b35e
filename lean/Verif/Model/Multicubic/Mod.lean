import Verif.Model.Core

/-! Model of `/repo/src/multicubic/mod.rs`. -/

set_option autoImplicit false

namespace Interpn
open FloatOps

variable {T : Type} [FloatOps T]

/-- `enum Saturation`, `/repo/src/multicubic/mod.rs` 59-66. -/
inductive Saturation where
  | none | insideLow | outsideLow | insideHigh | outsideHigh
  deriving DecidableEq, Repr

/-- `normalized_hermite_spline`, `/repo/src/multicubic/mod.rs` 72-91. -/
def hermite (fma : Bool) (t y0 dy k0 k1 : T) : T :=
  let a := k0 -. dy
  let b := (-. k1) +. dy
  let c1 := dy +. a
  let c2 := b -. (a +. a)
  let c3 := a -. b
  if fma then mulAdd (mulAdd (mulAdd c3 t c2) t c1) t y0
  else y0 +. t *. (c1 +. t *. (c2 +. t *. c3))

/-- `centered_difference_nonuniform`, `/repo/src/multicubic/mod.rs` 103-117. -/
def centeredDiff (fma : Bool) (y0 y1 y2 h01 h12 : T) : T :=
  let a := h01 /. (h01 +. h12)
  let b := (y2 -. y1) /. h12
  let c := h12 /. (h12 +. h01)
  let d := (y1 -. y0) /. h01
  if fma then mulAdd a b (c *. d) else a *. b +. c *. d

/-- The slice `grid[o..o + 4]` as an array of four; panics when out of range
(`/repo/src/multicubic/rectilinear.rs` 329 and 347,
`multicubic/rectilinear_recursive.rs` 370). -/
def gridCell (grid : List T) (o : Nat) : Res (Fin 4 → T) := do
  let e ← uadd o 4
  if h : e ≤ grid.length ∧ o + 4 = e then
    .ok (fun p => grid[o + p.val]'(by omega))
  else .panic

end Interpn
