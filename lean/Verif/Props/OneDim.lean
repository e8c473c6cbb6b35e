import Verif.Lemmas.OneDim
import Verif.Lemmas.RatOps

/-! C45: outcomes of the 1-D grids, for every arithmetic. -/

set_option autoImplicit false

namespace Interpn
open FloatOps

variable {T : Type} [FloatOps T]

theorem Kind1D.evalOne_bind (fma : Bool) (kind : Kind1D) (at' : T → Res (GridSample T)) (loc : T) :
    ∃ F : GridSample T → T, kind.evalOne fma at' loc = (at' loc >>= fun g => .ok (F g)) := by
  cases kind
  · exact ⟨fun g => linear1 fma g loc, rfl⟩
  · refine ⟨fun g => match g.extrap with
      | .inside => linear1 fma g loc
      | .outsideLow => g.y0
      | .outsideHigh => g.y1, ?_⟩
    unfold Kind1D.evalOne LinearHoldLast1D.evalOne
    simp only
    congr 1; funext g
    cases g.extrap <;> rfl
  · refine ⟨fun g => match g.extrap with
      | .outsideHigh => g.y1
      | _ => g.y0, ?_⟩
    unfold Kind1D.evalOne Left1D.evalOne
    simp only
    congr 1; funext g
    cases g.extrap <;> rfl
  · refine ⟨fun g => match g.extrap with
      | .outsideLow => g.y0
      | _ => g.y1, ?_⟩
    unfold Kind1D.evalOne Right1D.evalOne
    simp only
    congr 1; funext g
    cases g.extrap <;> rfl
  · exact ⟨fun g => if FloatOps.abs (loc -. g.x0) <=. FloatOps.abs (loc -. g.x1) then g.y0
      else g.y1, rfl⟩

omit [FloatOps T] in
/-- `RectilinearGrid1D::new` succeeds exactly for two slices of the same length, at least 2, and
stores them. -/
theorem C45_rectilinear_new (grid vals : List T) :
    (grid.length = vals.length → 2 ≤ grid.length →
      RectilinearGrid1D.new grid vals = .ok ⟨grid, vals⟩) ∧
    (grid.length ≠ vals.length ∨ grid.length < 2 →
      RectilinearGrid1D.new grid vals = .err "Length mismatch") := by
  unfold RectilinearGrid1D.new
  exact ⟨fun h h2 => if_neg (by omega), fun h => if_pos h⟩

/-- Evaluation on a constructed rectilinear grid always succeeds (any observation, any grid
contents, all five interpolators). -/
theorem C45_rectilinear_eval (fma : Bool) (kind : Kind1D) (grid vals : List T) (hs : IsSlice grid)
    (hl : grid.length = vals.length) (h2 : 2 ≤ grid.length) (loc : T) :
    ∃ v, rectilinear1DAt (kind.evalOne fma) grid vals loc = .ok v := by
  unfold rectilinear1DAt
  rw [(C45_rectilinear_new grid vals).1 hl h2, Res.ok_bind]
  obtain ⟨F, hF⟩ := kind.evalOne_bind fma (RectilinearGrid1D.at ⟨grid, vals⟩) loc
  rw [hF, RectilinearGrid1D.at_ok h2 hs hl.symm]
  exact ⟨_, rfl⟩

/-- `RegularGrid1D::new` panics without values and succeeds otherwise, for any start and step. -/
theorem C45_regular_new (hT : TotalOfUsize T) (start step : T) (vals : List T)
    (hs : IsSlice vals) :
    (vals = [] → RegularGrid1D.new start step vals = .panic) ∧
    (vals ≠ [] → ∃ m, ofUsize (vals.length - 1) = some m ∧
      RegularGrid1D.new start step vals = .ok ⟨start, start +. step *. m, step, vals⟩) := by
  constructor
  · rintro rfl; rfl
  · intro h
    have h1 : 1 ≤ vals.length := by have := List.length_pos_iff.2 h; omega
    obtain ⟨m, hm⟩ := hT (vals.length - 1) (by
      rw [isSlice_iff] at hs; simp only [isizeMax, usizeMax] at *; omega)
    exact ⟨m, hm, RegularGrid1D.new_ok h1 hm⟩

/-- Evaluation on a regular grid, all five interpolators: an unrepresentable cell number is an
error whatever the number of values; otherwise a single value panics and two or more succeed. -/
theorem C45_regular_eval (fma : Bool) (kind : Kind1D) (hT : TotalOfUsize T) (start step : T)
    (vals : List T) (hs : IsSlice vals) (hne : vals ≠ []) (loc : T) :
    (toIsize (floor ((loc -. start) /. step)) = none →
      regular1DAt (kind.evalOne fma) start step vals loc = .err "Unrepresentable number") ∧
    (toIsize (floor ((loc -. start) /. step)) ≠ none → vals.length = 1 →
      regular1DAt (kind.evalOne fma) start step vals loc = .panic) ∧
    (toIsize (floor ((loc -. start) /. step)) ≠ none → 2 ≤ vals.length →
      ∃ v, regular1DAt (kind.evalOne fma) start step vals loc = .ok v) := by
  obtain ⟨m, hm, hn⟩ := (C45_regular_new hT start step vals hs).2 hne
  unfold regular1DAt
  rw [hn, Res.ok_bind]
  obtain ⟨F, hF⟩ := kind.evalOne_bind fma
    (RegularGrid1D.at ⟨start, start +. step *. m, step, vals⟩) loc
  rw [hF]
  refine ⟨fun h => ?_, fun h h1 => ?_, fun h h2 => ?_⟩
  · rw [RegularGrid1D.at_err (show rawCell start step loc = none from h)]; rfl
  · rw [RegularGrid1D.at_panic (by omega) (show rawCell start step loc ≠ none from h)]; rfl
  · obtain ⟨z, hz⟩ := Option.ne_none_iff_exists'.1 h
    obtain ⟨f, hf⟩ := hT (clampIdx z (vals.length - 2)) (by
      have := clampIdx_le z (vals.length - 2)
      rw [isSlice_iff] at hs; simp only [isizeMax, usizeMax] at *; omega)
    rw [RegularGrid1D.at_ok h2 hs (show rawCell start step loc = some z from hz) hf]
    exact ⟨_, rfl⟩

section Examples
attribute [local instance] ratOps

example : (RegularGrid1D.new (0 : ℚ) 1 [] >>= fun _ => Res.ok ()) = .panic ∧
    regular1DAt (Kind1D.evalOne false .linear) (0 : ℚ) 1 [5] 0 = .panic ∧
    regular1DAt (Kind1D.evalOne false .linear) (0 : ℚ) 1 [5] (10 ^ 30) =
      .err "Unrepresentable number" ∧
    regular1DAt (Kind1D.evalOne false .linear) (0 : ℚ) 1 [5, 7] (1/2) = .ok 6 ∧
    rectilinear1DAt (Kind1D.evalOne false .linear) [(0 : ℚ), 2] [5, 7] 1 = .ok 6 ∧
    rectilinear1DAt (Kind1D.evalOne false .linear) [(0 : ℚ), 2] [5, 7, 8] 1 =
      .err "Length mismatch" := by
  decide +kernel

end Examples

end Interpn
