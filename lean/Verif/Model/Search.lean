import Verif.Model.Core

/-! `slice::partition_point` of the Rust standard library. -/

set_option autoImplicit false

namespace Interpn

variable {T : Type}

/-- The `while size > 1` loop of `binary_search_by` (Rust 1.85+):
`half = size / 2; mid = base + half; base = if pred(s[mid]) { mid } else { base };
size -= half`. Returns the final `base` and the number of calls of `pred`
(`calls` accumulates it; instrumentation only). An out-of-range `mid` (never
reached) counts as `pred = false`. -/
def bisectLoop (s : List T) (pred : T → Bool) (size base calls : Nat) : Nat × Nat :=
  if h : 1 < size then
    let half := size / 2
    let mid := base + half
    let base' := if (s[mid]?).any pred then mid else base
    bisectLoop s pred (size - half) base' (calls + 1)
  else (base, calls)
termination_by size
decreasing_by omega

/-- `partition_point` with the number of calls of `pred`. -/
def partitionPointCounted (s : List T) (pred : T → Bool) : Nat × Nat :=
  if s.length = 0 then (0, 0)
  else
    let r := bisectLoop s pred s.length 0 0
    (r.1 + (if (s[r.1]?).any pred then 1 else 0), r.2 + 1)

/-- `s.partition_point(pred)` of the Rust standard library, used at e.g.
`/repo/src/multilinear/rectilinear.rs` 363. Not part of `/repo`: the loop is the
one of `core::slice::binary_search_by`, from which `partition_point` is
defined. -/
def partitionPoint (s : List T) (pred : T → Bool) : Nat :=
  (partitionPointCounted s pred).1

end Interpn
