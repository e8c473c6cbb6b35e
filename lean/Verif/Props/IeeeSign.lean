import Verif.Lemmas.IeeeSign
import Verif.Lemmas.IeeeExamples

/-! C84: the sign of multilinear results in IEEE 754 arithmetic. -/

set_option autoImplicit false
set_option exponentiation.threshold 1100

namespace Interpn
open FloatOps Ieee

section
variable {f : Format} {N : Nat}

/-- C84: multilinear interpolation on a rectilinear grid of finite nodes, at an observation in the
grid range, never turns values none of which is negative into a negative result. The arithmetic is
IEEE 754 with rounding; nothing is assumed about the size of grid nodes or values, so intermediate
results may overflow or underflow, and the values may include infinities and NaN. -/
theorem C84_nonneg (e : Evaluator) (he : e.Fits N) (fma : Bool)
    (grids : Fin N → List (Ieee f)) (vals : List (Ieee f))
    (hG : (Axes.rectilinear fun k => (grids k).map val).Valid 2 (vals.map val))
    (hgrid : ∀ k, ∀ a ∈ grids k, Finite a) (hvals : ∀ v ∈ vals, (v <. zero) = false)
    (x : Fin N → Ieee f) (hx : ∀ k, Finite (x k))
    (hin : ∀ k, InRange (grids k).length (fun i => ((grids k).map val).getD i 0) (val (x k))) :
    ∃ r, multilinearRectilinearAt e fma grids vals x = .ok r ∧ (r <. zero) = false := by
  obtain ⟨r, h1, h2⟩ := multilinearRectilinear_closed NotNeg e he fma
    (fun _ _ ht h0 h1 => lerp_NotNeg fma ht h0 h1) grids vals hG hgrid
    (fun v hv => (NotNeg_iff v).2 (hvals v hv)) x hx hin
  exact ⟨r, h1, (NotNeg_iff r).1 h2⟩

/-- C84, values none of which is positive. -/
theorem C84_nonpos (e : Evaluator) (he : e.Fits N) (fma : Bool)
    (grids : Fin N → List (Ieee f)) (vals : List (Ieee f))
    (hG : (Axes.rectilinear fun k => (grids k).map val).Valid 2 (vals.map val))
    (hgrid : ∀ k, ∀ a ∈ grids k, Finite a) (hvals : ∀ v ∈ vals, (zero <. v) = false)
    (x : Fin N → Ieee f) (hx : ∀ k, Finite (x k))
    (hin : ∀ k, InRange (grids k).length (fun i => ((grids k).map val).getD i 0) (val (x k))) :
    ∃ r, multilinearRectilinearAt e fma grids vals x = .ok r ∧ (zero <. r) = false := by
  obtain ⟨r, h1, h2⟩ := multilinearRectilinear_closed NotPos e he fma
    (fun _ _ ht h0 h1 => lerp_NotPos fma ht h0 h1) grids vals hG hgrid
    (fun v hv => (NotPos_iff v).2 (hvals v hv)) x hx hin
  exact ⟨r, h1, (NotPos_iff r).1 h2⟩

end

/-- Hypotheses of `C84_nonneg` are satisfied, also with infinite and NaN values and a cell wider than
the largest float. -/
example : ∃ r, multilinearRectilinearAt (.recursive 8) true
      ![[q64 (-2 ^ 1023), q64 (2 ^ 1023), q64 (2 ^ 1023 + 2 ^ 1000)], [q64 1, q64 3]]
      [q64 0, q64 6, q64 7, .inf false, .nan, q64 (1 / 3)]
      ![q64 (1 / 3), q64 (5 / 3)] = .ok r ∧ (r <. zero) = false :=
  C84_nonneg (.recursive 8) (show 0 < 2 ∧ 2 ≤ 8 by decide) true _ _
    (valid_of_check (by decide +kernel)) (by decide +kernel) (by decide +kernel) _ (by decide +kernel)
    (by unfold InRange; decide +kernel)

/-- Hypotheses of `C84_nonpos` are satisfied. -/
example : ∃ r, multilinearRectilinearAt .flat false exGrids32
      [q32 0, q32 (-6), q32 (-7), q32 (-1 / 2 ^ 149), q32 0, q32 (-1 / 3)]
      ![q32 (1 / 3), q32 (5 / 3)] = .ok r ∧ (zero <. r) = false :=
  C84_nonpos .flat (show 0 < 2 by decide) false _ _
    (valid_of_check (by decide +kernel)) (by decide +kernel) (by decide +kernel) _ (by decide +kernel)
    (by unfold InRange; decide +kernel)

/-- The statement of C84 is false of regular grids: with start -1 and step 0.1, the `f64` -0.2 is in
range, and the values 0, 0, 0, 0, 0, 0, 0, 0, 0, 1, 1 give a negative result there, with and without
fused multiply-add. (The cell index `floor((x - start) / step)` is 8, but `start + step * 8` is
rounded to a number greater than -0.2.) -/
theorem C84_regular_counterexample (fma : Bool) :
    ∃ r : F64, multilinearRegularAt .flat fma ![11] ![q64 (-1)] ![q64 (1 / 10)]
      [q64 0, q64 0, q64 0, q64 0, q64 0, q64 0, q64 0, q64 0, q64 0, q64 1, q64 1]
      ![q64 (-2 / 10)] = .ok r ∧ (r <. zero) = true ∧
      InRange 11 (fun i => val (q64 (-1)) + val (q64 (1 / 10)) * (i : ℚ)) (val (q64 (-2 / 10))) := by
  cases fma
  · exact ⟨q64 (-1 / 2 ^ 51 * (5 / 4)), by decide +kernel, by decide +kernel, by unfold InRange; decide +kernel⟩
  · exact ⟨q64 (-1 / 2 ^ 51 * (5 / 4)), by decide +kernel, by decide +kernel, by unfold InRange; decide +kernel⟩

end Interpn
