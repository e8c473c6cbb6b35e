import Verif.Lemmas.CountedCosts
import Verif.Lemmas.New
import Verif.Lemmas.RatOps
import Mathlib.Algebra.Order.Ring.GeomSum

/-! C115: what an evaluation costs. -/

set_option autoImplicit false

open Interpn.FloatOps Finset

namespace Interpn
variable {T : Type} [FloatOps T] {N M : Nat}

private theorem kernels2 (n : Nat) : ∑ j ∈ range n, 2 ^ j = 2 ^ n - 1 := by
  rw [Nat.geomSum_eq (le_refl 2)]
  simp

private theorem kernels4 (n : Nat) : ∑ j ∈ range n, 4 ^ j = (4 ^ n - 1) / 3 := by
  rw [Nat.geomSum_eq (by decide)]

private theorem MultilinearRectilinearRecursive.grids_of_new {grids : List (List T)}
    {vals : List T} {s : MultilinearRectilinearRecursive T M}
    (h : MultilinearRectilinearRecursive.new M grids vals = .ok s) :
    s.grids = grids ∧ ∀ g ∈ grids, 0 < g.length := by
  have h' := h
  rw [MultilinearRectilinearRecursive.new_form, Res.bind_eq_ok] at h'
  obtain ⟨d, h1, _⟩ := h'
  obtain ⟨h0, hM⟩ := checkRectilinearRec_ok h1
  rw [MultilinearRectilinearRecursive.new_eq h0 hM, Res.bind_eq_ok] at h
  obtain ⟨_, hc, hs⟩ := h
  obtain ⟨_, _, hmin, _⟩ := (checkRectilinear_eq_ok (by omega)).1 hc
  cases hs
  exact ⟨rfl, fun g hg => lt_of_lt_of_le (by decide) (hmin g hg)⟩

private theorem MulticubicRectilinearRecursive.grids_of_new {grids : List (List T)}
    {vals : List T} {lin : Bool} {s : MulticubicRectilinearRecursive T M}
    (h : MulticubicRectilinearRecursive.new M grids vals lin = .ok s) :
    s.grids = grids ∧ ∀ g ∈ grids, 0 < g.length := by
  have h' := h
  rw [MulticubicRectilinearRecursive.new_form, Res.bind_eq_ok] at h'
  obtain ⟨d, h1, _⟩ := h'
  obtain ⟨h0, hM⟩ := checkRectilinearRec_ok h1
  rw [MulticubicRectilinearRecursive.new_eq h0 hM, Res.bind_eq_ok] at h
  obtain ⟨_, hc, hs⟩ := h
  obtain ⟨_, _, hmin, _⟩ := (checkRectilinear_eq_ok (by omega)).1 hc
  cases hs
  exact ⟨rfl, fun g hg => lt_of_lt_of_le (by decide) (hmin g hg)⟩

/-- C115, `MultilinearRegular::interp`: dropping the counts gives the model, and each observation takes the
stated number of passes, reads, one-axis interpolations and comparisons. -/
theorem C115_multilinear_regular (hN : 0 < N) (fma : Bool) (s : MultilinearRegular T N)
    (x : Fin N → List T) (out : List T) :
    (Counted.MultilinearRegular.interp fma s x out).1 = s.interp fma x out ∧
    ChargedBatch (Counted.MultilinearRegular.interp fma s x out) out.length
      (charge (1 + 2 * N + 2 ^ N * (3 * N + 1)) (2 ^ N) (2 ^ N - 1) 0) := by
  refine ⟨Counted.MultilinearRegular.outcome_interp fma s x out, ?_⟩
  rw [← kernels2]
  exact Counted.MultilinearRegular.charged_interp hN fma s x out

/-- C115, `MultilinearRegularRecursive::interp`. -/
theorem C115_multilinear_regular_recursive (fma : Bool) (s : MultilinearRegularRecursive T M)
    (x : List (List T)) (out : List T) :
    (Counted.MultilinearRegularRecursive.interp fma s x out).1 = s.interp fma x out ∧
    ChargedBatch (Counted.MultilinearRegularRecursive.interp fma s x out) out.length
      (charge (1 + 4 * s.ndims + (2 ^ s.ndims * s.ndims + 2 * (2 ^ s.ndims - 1)))
        (2 ^ s.ndims) (2 ^ s.ndims - 1) 0) := by
  refine ⟨Counted.MultilinearRegularRecursive.outcome_interp fma s x out, ?_⟩
  rw [← kernels2]
  exact Counted.MultilinearRegularRecursive.charged_interp fma s x out

/-- C115, `MultilinearRectilinear::interp`. -/
theorem C115_multilinear_rectilinear (hN : 0 < N) (fma : Bool) {grids : Fin N → List T}
    {vals : List T} {s : MultilinearRectilinear T N} (h : MultilinearRectilinear.new grids vals = .ok s)
    (x : Fin N → List T) (out : List T) :
    (Counted.MultilinearRectilinear.interp fma s x out).1 = s.interp fma x out ∧
    ChargedBatch (Counted.MultilinearRectilinear.interp fma s x out) out.length
      (charge (1 + 2 * N + 2 ^ N * (3 * N + 1)) (2 ^ N) (2 ^ N - 1)
        (∑ k, (Nat.clog 2 (grids k).length + 1))) := by
  obtain ⟨rfl, hg, _⟩ := MultilinearRectilinear.new_ok h
  refine ⟨Counted.MultilinearRectilinear.outcome_interp fma _ x out, ?_⟩
  rw [← kernels2]
  exact Counted.MultilinearRectilinear.charged_interp hN fma _
    (fun k => lt_of_lt_of_le (by decide) (hg.min k)) x out

/-- C115, `MultilinearRectilinearRecursive::interp`. -/
theorem C115_multilinear_rectilinear_recursive (fma : Bool) {grids : List (List T)}
    {vals : List T} {s : MultilinearRectilinearRecursive T M}
    (h : MultilinearRectilinearRecursive.new M grids vals = .ok s)
    (x : List (List T)) (out : List T) :
    (Counted.MultilinearRectilinearRecursive.interp fma s x out).1 = s.interp fma x out ∧
    ChargedBatch (Counted.MultilinearRectilinearRecursive.interp fma s x out) out.length
      (charge (1 + 3 * grids.length + (2 ^ grids.length * grids.length + 2 * (2 ^ grids.length - 1)))
        (2 ^ grids.length) (2 ^ grids.length - 1)
        (grids.map fun g => Nat.clog 2 g.length + 1).sum) := by
  refine ⟨Counted.MultilinearRectilinearRecursive.outcome_interp fma s x out, ?_⟩
  rw [← kernels2]
  have hg := MultilinearRectilinearRecursive.grids_of_new h
  have e := Counted.MultilinearRectilinearRecursive.charged_interp fma s (by
    rw [hg.1]; exact hg.2) x out
  rw [hg.1] at e
  exact e

/-- C115, `MulticubicRegular::interp`: dropping the counts gives the model, and each observation takes the
stated number of passes, reads, one-axis interpolations and comparisons. -/
theorem C115_multicubic_regular (hN : 0 < N) (fma : Bool) (s : MulticubicRegular T N)
    (x : Fin N → List T) (out : List T) :
    (Counted.MulticubicRegular.interp fma s x out).1 = s.interp fma x out ∧
    ChargedBatch (Counted.MulticubicRegular.interp fma s x out) out.length
      (charge (1 + 2 * N + 4 ^ N * (3 * N + 1)) (4 ^ N) ((4 ^ N - 1) / 3) 0) := by
  refine ⟨Counted.MulticubicRegular.outcome_interp fma s x out, ?_⟩
  rw [← kernels4]
  exact Counted.MulticubicRegular.charged_interp hN fma s x out

/-- C115, `MulticubicRegularRecursive::interp`. -/
theorem C115_multicubic_regular_recursive (fma : Bool) (s : MulticubicRegularRecursive T M)
    (x : List (List T)) (out : List T) :
    (Counted.MulticubicRegularRecursive.interp fma s x out).1 = s.interp fma x out ∧
    ChargedBatch (Counted.MulticubicRegularRecursive.interp fma s x out) out.length
      (charge (1 + 4 * s.ndims + (4 ^ s.ndims * s.ndims + 4 * ((4 ^ s.ndims - 1) / 3)))
        (4 ^ s.ndims) ((4 ^ s.ndims - 1) / 3) 0) := by
  refine ⟨Counted.MulticubicRegularRecursive.outcome_interp fma s x out, ?_⟩
  rw [← kernels4]
  exact Counted.MulticubicRegularRecursive.charged_interp fma s x out

/-- C115, `MulticubicRectilinear::interp`. -/
theorem C115_multicubic_rectilinear (hN : 0 < N) (fma : Bool) {grids : Fin N → List T}
    {vals : List T} {lin : Bool} {s : MulticubicRectilinear T N} (h : MulticubicRectilinear.new grids vals lin = .ok s)
    (x : Fin N → List T) (out : List T) :
    (Counted.MulticubicRectilinear.interp fma s x out).1 = s.interp fma x out ∧
    ChargedBatch (Counted.MulticubicRectilinear.interp fma s x out) out.length
      (charge (1 + 2 * N + 4 ^ N * (3 * N + 1)) (4 ^ N) ((4 ^ N - 1) / 3)
        (∑ k, (Nat.clog 2 (grids k).length + 1))) := by
  obtain ⟨rfl, hg, _⟩ := MulticubicRectilinear.new_ok h
  refine ⟨Counted.MulticubicRectilinear.outcome_interp fma _ x out, ?_⟩
  rw [← kernels4]
  exact Counted.MulticubicRectilinear.charged_interp hN fma _
    (fun k => lt_of_lt_of_le (by decide) (hg.min k)) x out

/-- C115, `MulticubicRectilinearRecursive::interp`. -/
theorem C115_multicubic_rectilinear_recursive (fma : Bool) {grids : List (List T)}
    {vals : List T} {lin : Bool} {s : MulticubicRectilinearRecursive T M}
    (h : MulticubicRectilinearRecursive.new M grids vals lin = .ok s)
    (x : List (List T)) (out : List T) :
    (Counted.MulticubicRectilinearRecursive.interp fma s x out).1 = s.interp fma x out ∧
    ChargedBatch (Counted.MulticubicRectilinearRecursive.interp fma s x out) out.length
      (charge (1 + 3 * grids.length + (4 ^ grids.length * grids.length + 4 * ((4 ^ grids.length - 1) / 3)))
        (4 ^ grids.length) ((4 ^ grids.length - 1) / 3)
        (grids.map fun g => Nat.clog 2 g.length + 1).sum) := by
  refine ⟨Counted.MulticubicRectilinearRecursive.outcome_interp fma s x out, ?_⟩
  rw [← kernels4]
  have hg := MulticubicRectilinearRecursive.grids_of_new h
  have e := Counted.MulticubicRectilinearRecursive.charged_interp fma s (by
    rw [hg.1]; exact hg.2) x out
  rw [hg.1] at e
  exact e

/-- C115, `NearestRegular::interp`: dropping the counts gives the model, and each observation takes the
stated number of passes, reads, one-axis interpolations and comparisons. -/
theorem C115_nearest_regular (fma : Bool) (s : NearestRegular T N)
    (x : Fin N → List T) (out : List T) :
    (Counted.NearestRegular.interp fma s x out).1 = s.interp fma x out ∧
    ChargedBatch (Counted.NearestRegular.interp fma s x out) out.length
      (charge (1 + 3 * N) 1 0 0) := by
  refine ⟨Counted.NearestRegular.outcome_interp fma s x out, ?_⟩
  exact Counted.NearestRegular.charged_interp fma s x out

/-- C115, `NearestRectilinear::interp`. -/
theorem C115_nearest_rectilinear {grids : Fin N → List T}
    {vals : List T} {s : NearestRectilinear T N} (h : NearestRectilinear.new grids vals = .ok s)
    (x : Fin N → List T) (out : List T) :
    (Counted.NearestRectilinear.interp s x out).1 = s.interp x out ∧
    ChargedBatch (Counted.NearestRectilinear.interp s x out) out.length
      (charge (1 + 3 * N) 1 0
        (∑ k, (Nat.clog 2 (grids k).length + 1))) := by
  obtain ⟨rfl, hg, _⟩ := NearestRectilinear.new_ok h
  refine ⟨Counted.NearestRectilinear.outcome_interp _ x out, ?_⟩
  exact Counted.NearestRectilinear.charged_interp _
    (fun k => lt_of_lt_of_le (by decide) (hg.min k)) x out

section Examples
attribute [local instance] ratOps

/-- The outcome of a run with its counts of passes, reads, one-axis interpolations, comparisons. -/
private def tally {α : Type} (r : (Res Unit × α) × (Op → Nat)) :
    Res Unit × Nat × Nat × Nat × Nat :=
  (r.1.1, r.2 .pass, r.2 .read, r.2 .kernel, r.2 .compare)

/-- C115 on a 3×2 regular grid, two observations, the second outside the grid: both cost
`1 + 2·2 + 4·7 = 33` passes, `4` reads and `3` one-axis interpolations; with the recursive method
`1 + 4·2 + (4·2 + 2·3) = 23` passes. -/
example :
    (MultilinearRegular.new ![3, 2] ![0, 0] ![1, 1] [0, 0, 1, 2, 3, 5] >>= fun s =>
      .ok (tally (Counted.MultilinearRegular.interp false s ![[1/2, 7], [1/2, -1]] [0, (0 : ℚ)]))) =
      .ok (.ok (), 2 * 33, 2 * 4, 2 * 3, 0) ∧
    (MultilinearRegularRecursive.new 8 [3, 2] [0, 0] [1, 1] [0, 0, 1, 2, 3, 5] >>= fun s =>
      .ok (tally (Counted.MultilinearRegularRecursive.interp false s [[1/2, 7], [1/2, -1]] [0, (0 : ℚ)]))) =
      .ok (.ok (), 2 * 23, 2 * 4, 2 * 3, 0) := by
  decide +kernel

/-- The same shape as a rectilinear grid: `⌈log₂ 3⌉ + 1 + ⌈log₂ 2⌉ + 1 = 5` comparisons each. -/
example :
    (MultilinearRectilinear.new ![[0, 1, 3], [0, 1]] [0, 0, 1, 2, 3, 5] >>= fun s =>
      .ok (tally (Counted.MultilinearRectilinear.interp false s ![[1/2, 7], [1/2, -1]] [0, (0 : ℚ)]))) =
      .ok (.ok (), 2 * 33, 2 * 4, 2 * 3, 2 * 5) ∧
    (MultilinearRectilinearRecursive.new 8 [[0, 1, 3], [0, 1]] [0, 0, 1, 2, 3, 5] >>= fun s =>
      .ok (tally (Counted.MultilinearRectilinearRecursive.interp false s [[1/2, 7], [1/2, -1]] [0, (0 : ℚ)]))) =
      .ok (.ok (), 2 * 21, 2 * 4, 2 * 3, 2 * 5) ∧
    (NearestRectilinear.new ![[0, 1, 3], [0, 1]] [0, 0, 1, 2, 3, 5] >>= fun s =>
      .ok (tally (Counted.NearestRectilinear.interp s ![[1/2, 7], [1/2, -1]] [0, (0 : ℚ)]))) =
      .ok (.ok (), 2 * 7, 2 * 1, 0, 2 * 5) := by
  refine ⟨?_, ?_, ?_⟩ <;> decide +kernel

/-- A cubic of one axis with five nodes: `4` reads, one interpolation, `⌈log₂ 5⌉ + 1 = 4`
comparisons. -/
example :
    (MulticubicRegular.new ![5] ![0] ![1] [0, 1, 4, 9, 16] true >>= fun s =>
      .ok (tally (Counted.MulticubicRegular.interp false s ![[1/2, 7]] [0, (0 : ℚ)]))) =
      .ok (.ok (), 2 * 19, 2 * 4, 2 * 1, 0) ∧
    (MulticubicRectilinear.new ![[0, 1, 2, 4, 5]] [0, 1, 4, 9, 16] true >>= fun s =>
      .ok (tally (Counted.MulticubicRectilinear.interp false s ![[1/2, 7]] [0, (0 : ℚ)]))) =
      .ok (.ok (), 2 * 19, 2 * 4, 2 * 1, 2 * 4) := by
  decide +kernel

/-- A batch that fails, the axes having different lengths, is charged nothing. -/
example :
    ((MultilinearRegular.new ![3, 2] ![0, 0] ![1, 1] [0, 0, 1, 2, 3, 5] >>= fun s =>
      .ok (tally (Counted.MultilinearRegular.interp false s ![[1/2, 7], [1/2]] [0, (0 : ℚ)])))
      >>= fun t => .ok t.2) = .ok (0, 0, 0, 0) := by
  decide +kernel

end Examples

end Interpn
