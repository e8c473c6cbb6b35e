import Verif.Lemmas.CountedOneDim
import Verif.Lemmas.RatOps

/-! C115: what an evaluation of the one-dimensional interpolators costs. -/

set_option autoImplicit false

open Interpn.FloatOps

namespace Interpn
variable {T : Type} [FloatOps T]

/-- C115, the five interpolators of `/repo/src/one_dim` on a regular grid: dropping the counts gives the
model; a successful batch of `n` observations takes `n` passes, reads `2 n` values and compares with no
grid coordinate during a search; `Linear1D` interpolates in a cell once for every observation,
`LinearHoldLast1D` once for every observation that is not outside the grid, the others never. A batch that
fails does at most that. -/
theorem C115_1d_regular (fma : Bool) (kind : Kind1D) (g : RegularGrid1D T) (locs out : List T) :
    let r := Counted.eval1D (Counted.evalOne fma kind (Counted.RegularGrid1D.at g)) locs out
    let c := charge out.length (out.length * 2)
      (locs.map fun x => Counted.kernels1D kind (!(g.stop <. x) && !(x <. g.start))).sum 0
    r.1 = eval1D (kind.evalOne fma g.at) locs out ∧
    (∀ o, r.2 o ≤ c o) ∧ (r.1.1 = .ok () → ∀ o, r.2 o = c o) := by
  intro r c
  refine ⟨Counted.outcome_eval1D (Counted.outcome_evalOne fma kind
    (Counted.RegularGrid1D.outcome_at g)) locs out, ?_⟩
  exact Counted.charged_eval1D (c := 0) (fun loc => Counted.costs_evalOne fma kind
    (Counted.RegularGrid1D.costs_at g loc) fun s hs =>
      Counted.RegularGrid1D.at_inside ((Counted.RegularGrid1D.outcome_at g loc).symm.trans hs)) locs out

/-- C115, the five interpolators on a rectilinear grid: as on regular ones, but each observation is
compared with exactly `⌈log₂ n⌉ + 1` grid coordinates during the search. -/
theorem C115_1d_rectilinear (fma : Bool) (kind : Kind1D) {grid vals : List T} {g : RectilinearGrid1D T}
    (h : RectilinearGrid1D.new grid vals = .ok g) (locs out : List T) :
    let r := Counted.eval1D (Counted.evalOne fma kind (Counted.RectilinearGrid1D.at g)) locs out
    let c := charge out.length (out.length * 2)
      (locs.map fun x => Counted.kernels1D kind
        (!(x <. grid.getD 0 zero) && !(grid.getD (grid.length - 1) zero <. x))).sum
      (out.length * (Nat.clog 2 grid.length + 1))
    r.1 = eval1D (kind.evalOne fma g.at) locs out ∧
    (∀ o, r.2 o ≤ c o) ∧ (r.1.1 = .ok () → ∀ o, r.2 o = c o) := by
  unfold RectilinearGrid1D.new at h
  split at h
  · cases h
  next hl =>
  cases h
  intro r c
  refine ⟨Counted.outcome_eval1D (Counted.outcome_evalOne fma kind
    (Counted.RectilinearGrid1D.outcome_at _)) locs out, ?_⟩
  exact Counted.charged_eval1D (fun loc => Counted.costs_evalOne fma kind
    (Counted.RectilinearGrid1D.costs_at ⟨grid, vals⟩ (show 0 < grid.length by omega) loc) fun s hs =>
      Counted.RectilinearGrid1D.at_inside
        ((Counted.RectilinearGrid1D.outcome_at _ loc).symm.trans hs)) locs out

section Examples
attribute [local instance] ratOps

/-- The outcome of a run with its counts of passes, reads, one-cell interpolations, comparisons. -/
private def tally1D {α : Type} (r : (Res Unit × α) × (Op → Nat)) : Res Unit × Nat × Nat × Nat × Nat :=
  (r.1.1, r.2 .pass, r.2 .read, r.2 .kernel, r.2 .compare)

/-- Three observations, the last two outside the grid: `⌈log₂ 5⌉ + 1 = 4` comparisons each. -/
example : ∀ k ∈ [(Kind1D.linear, 3), (.linearHoldLast, 1), (.left, 0), (.right, 0), (.nearest, 0)],
    (RectilinearGrid1D.new [0, 1, 2, 4, 5] [0, 1, 4, 9, (16 : ℚ)] >>= fun g => .ok (tally1D
      (Counted.eval1D (Counted.evalOne true k.1 (Counted.RectilinearGrid1D.at g))
        [1 / 2, 7, -1] [0, 0, 0]))) = .ok (.ok (), 3, 3 * 2, k.2, 3 * 4) := by
  decide +kernel

/-- The same on a regular grid. -/
example : ∀ k ∈ [(Kind1D.linear, 3), (.linearHoldLast, 1), (.left, 0), (.right, 0), (.nearest, 0)],
    (RegularGrid1D.new 0 1 [0, 1, 4, 9, (16 : ℚ)] >>= fun g => .ok (tally1D
      (Counted.eval1D (Counted.evalOne true k.1 (Counted.RegularGrid1D.at g))
        [1 / 2, 7, -1] [0, 0, 0]))) = .ok (.ok (), 3, 3 * 2, k.2, 0) := by
  decide +kernel

end Examples

end Interpn
