import Verif.Lemmas.ValueScaleOneDim
import Verif.Props.ValueScale

/-! C124 for the interpolators of `/repo/src/one_dim`. -/

set_option autoImplicit false
set_option exponentiation.threshold 1100

namespace Interpn
open FloatOps Ieee

section
variable {f : Format} (k : Nat) {vals vals' : List (Ieee f)}

/-- C124, all five one-dimensional interpolators on rectilinear grids. `vals'` is `vals` multiplied by
`2^k`. The linear ones need that no digit is lost below the subnormal range: the values are multiples of
`2^m`, no cell is wider than `2^r`, the distances of the observation to the nodes have at most `s` binary
places, and `2^(m - r - s - p + 1)` is not below the smallest subnormal number. -/
theorem C124_1d_rectilinear (r s : Nat) (m : Int) (kind : Kind1D) (fma : Bool) (grid : List (Ieee f))
    (hs : IsSlice vals) (hv : List.Forall₂ (ScaledBy k) vals vals') (x : Ieee f)
    (hk : kind = .linear ∨ kind = .linearHoldLast →
      (∀ v ∈ vals, Multiple m (val v)) ∧
      (∀ i a b, grid[i]? = some a → grid[i + 1]? = some b →
        |val (b -. a)| ≤ 2 ^ r ∧ Multiple (-s) (val (x -. a))) ∧
      f.emin - (f.p - 1 : Int) ≤ m - (r + s + f.p - 1 : Int)) :
    SameOutcome (fun y y' => Ieee.Finite y' → ScaledBy k y y')
      (rectilinear1DAt (kind.evalOne fma) grid vals x)
      (rectilinear1DAt (kind.evalOne fma) grid vals' x) := by
  rw [rectilinear1DAt_sample, rectilinear1DAt_sample]
  refine evalOne_pair fma kind x (rectilinear_samplesPair grid x vals.length ((isSlice_iff _).1 hs)) hv
    rfl (fun a b h _ => h) ?_
  intro hlin x0 x1 y0 y1 y0' y1' ex hsam m0 m1 e0 e1 hfin
  obtain ⟨hm, hg, hl⟩ := hk hlin
  obtain ⟨i, i0, i1⟩ := rectilinear_sample_nodes hs hsam
  obtain ⟨hw, hx⟩ := hg i _ _ i0 i1
  exact (Up.linear1 (k := k) (m := m) fma hw hx hl (fun _ => ⟨e0, hm _ m0⟩) (fun _ => ⟨e1, hm _ m1⟩) hfin).1

/-- C124, all five one-dimensional interpolators on regular grids. -/
theorem C124_1d_regular (r s : Nat) (m : Int) (kind : Kind1D) (fma : Bool) (start step : Ieee f)
    (hs : IsSlice vals) (hv : List.Forall₂ (ScaledBy k) vals vals') (x : Ieee f)
    (hk : kind = .linear ∨ kind = .linearHoldLast →
      (∀ v ∈ vals, Multiple m (val v)) ∧
      (∀ i n a, i + 1 < vals.length → ofUsize i = some n → a = start +. step *. n →
        |val ((a +. step) -. a)| ≤ 2 ^ r ∧ Multiple (-s) (val (x -. a))) ∧
      f.emin - (f.p - 1 : Int) ≤ m - (r + s + f.p - 1 : Int)) :
    SameOutcome (fun y y' => Ieee.Finite y' → ScaledBy k y y')
      (regular1DAt (kind.evalOne fma) start step vals x)
      (regular1DAt (kind.evalOne fma) start step vals' x) := by
  rw [regular1DAt_sample, regular1DAt_sample]
  refine evalOne_pair fma kind x (regular_samplesPair start step x vals.length ((isSlice_iff _).1 hs)) hv
    rfl (fun a b h _ => h) ?_
  intro hlin x0 x1 y0 y1 y0' y1' ex hsam m0 m1 e0 e1 hfin
  obtain ⟨hm, hg, hl⟩ := hk hlin
  obtain ⟨i, n, hi, hn, i0, i1⟩ := regular_sample_nodes hs hsam
  dsimp only at i0 i1
  obtain ⟨hw, hx⟩ := hg i n x0 hi hn i0
  subst i1
  exact (Up.linear1 (k := k) (m := m) fma hw hx hl (fun _ => ⟨e0, hm _ m0⟩) (fun _ => ⟨e1, hm _ m1⟩) hfin).1

/-- C124, the interpolators that return a stored value: the factor is exact even where the scaled value
is not finite, and no condition is needed. -/
theorem C124_1d_stored (kind : Kind1D) (hk : kind ≠ .linear ∧ kind ≠ .linearHoldLast) (fma : Bool)
    (hs : IsSlice vals) (hv : List.Forall₂ (ScaledBy k) vals vals') (x : Ieee f) :
    (∀ grid : List (Ieee f), SameOutcome (ScaledBy k) (rectilinear1DAt (kind.evalOne fma) grid vals x)
      (rectilinear1DAt (kind.evalOne fma) grid vals' x)) ∧
    ∀ start step : Ieee f, SameOutcome (ScaledBy k) (regular1DAt (kind.evalOne fma) start step vals x)
      (regular1DAt (kind.evalOne fma) start step vals' x) := by
  have hno : ¬ (kind = .linear ∨ kind = .linearHoldLast) := fun h => h.elim hk.1 hk.2
  refine ⟨fun grid => ?_, fun start step => ?_⟩
  · rw [rectilinear1DAt_sample, rectilinear1DAt_sample]
    exact evalOne_pair fma kind x (rectilinear_samplesPair grid x vals.length ((isSlice_iff _).1 hs)) hv
      rfl (fun a b h => h) fun h => absurd h hno
  · rw [regular1DAt_sample, regular1DAt_sample]
    exact evalOne_pair fma kind x (regular_samplesPair start step x vals.length ((isSlice_iff _).1 hs)) hv
      rfl (fun a b h => h) fun h => absurd h hno

end

section Examples

/-- Uneven cells, values with rounding errors. -/
example (kind : Kind1D) (fma : Bool) :
    let v := exUnits [2, 1 / 3, 1 / 10, -7]
    let grid := [q64 0, q64 (1 / 10), q64 1, q64 3]
    SameOutcome (fun y y' => Ieee.Finite y' → ScaledBy 10 y y')
      (rectilinear1DAt (kind.evalOne fma) grid v.1 (q64 (1 / 7)))
      (rectilinear1DAt (kind.evalOne fma) grid v.2 (q64 (1 / 7))) := by
  intro v grid
  have hg : ∀ p ∈ grid.zip grid.tail, |val (p.2 -. p.1)| ≤ 2 ^ 2 ∧
      (val (q64 (1 / 7) -. p.1) * 2 ^ 60).den = 1 := by decide +kernel
  have hm : ∀ u ∈ v.1, (val u * 2 ^ 60).den = 1 := by decide +kernel
  have hv : List.Forall₂ (ScaledBy 10) v.1 v.2 := by decide +kernel
  refine C124_1d_rectilinear 10 2 60 (-(60 : Nat)) kind fma grid (by unfold IsSlice; decide) hv _
    fun _ => ⟨fun u hu => multiple_check (hm u hu), fun i a b ha hb => ?_, by decide⟩
  have := hg (a, b) (List.mem_of_getElem? (i := i) (by
    rw [List.getElem?_zip_eq_some]
    exact ⟨ha, by rw [List.getElem?_tail]; exact hb⟩))
  exact ⟨this.1, multiple_check this.2⟩

/-- The two calls with `Linear1D` succeed in this case and the result is not stored anywhere. -/
example : let v := exUnits [2, 1 / 3, 1 / 10, -7]
    let r := fun w => rectilinear1DAt (Kind1D.linear.evalOne true)
      [q64 0, q64 (1 / 10), q64 1, q64 3] w (q64 (1 / 7))
    ∃ y y' : F64, y'.Finite ∧ y ∉ v.1 ∧ ScaledBy 10 y y' ∧ r v.1 = .ok y ∧ r v.2 = .ok y' := by
  intro v r
  exact ⟨Res.getOr zero (r v.1), Res.getOr zero (r v.2),
    by decide +kernel, by decide +kernel, by decide +kernel, by decide +kernel, by decide +kernel⟩

/-- A regular grid with a step that is not exactly representable. -/
example (kind : Kind1D) (fma : Bool) :
    let v := exUnits [2, 1 / 3, 1 / 10, -7]
    SameOutcome (fun y y' => Ieee.Finite y' → ScaledBy 10 y y')
      (regular1DAt (kind.evalOne fma) (q64 (-1)) (q64 (1 / 10)) v.1 (q64 (-5 / 7)))
      (regular1DAt (kind.evalOne fma) (q64 (-1)) (q64 (1 / 10)) v.2 (q64 (-5 / 7))) := by
  intro v
  have hg : ∀ i : Fin 4, ∀ n ∈ (ofUsize i.val : Option F64), ∀ a ∈ [q64 (-1) +. q64 (1 / 10) *. n],
      |val ((a +. q64 (1 / 10)) -. a)| ≤ 2 ^ 0 ∧ (val (q64 (-5 / 7) -. a) * 2 ^ 60).den = 1 := by
    decide +kernel
  have hm : ∀ u ∈ v.1, (val u * 2 ^ 60).den = 1 := by decide +kernel
  have hv : List.Forall₂ (ScaledBy 10) v.1 v.2 := by decide +kernel
  refine C124_1d_regular 10 0 60 (-(60 : Nat)) kind fma _ _ (by unfold IsSlice; decide) hv _
    fun _ => ⟨fun u hu => multiple_check (hm u hu), fun i n a hi hn ha => ?_, by decide⟩
  have := hg ⟨i, Nat.lt_of_succ_lt hi⟩ n hn a (by simp [ha])
  exact ⟨this.1, multiple_check this.2⟩

/-- The condition cannot be dropped: the slope of a wide cell can underflow. -/
theorem C124_1d_counterexample :
    let g := [q64 0, q64 4]
    let u := q64 (1 / 2 ^ 1073)
    let u' := q64 (1 / 2 ^ 1072)
    ScaledBy 1 u u' ∧
      rectilinear1DAt (Kind1D.linear.evalOne false) g [q64 0, u] (q64 4) = .ok (q64 0) ∧
      rectilinear1DAt (Kind1D.linear.evalOne false) g [q64 0, u'] (q64 4) = .ok u' ∧
      ¬ ScaledBy 1 (q64 0) u' := by
  decide +kernel

/-- The interpolators that return stored values, even with an infinite one. -/
example (fma : Bool) (x : F64) (grid : List F64) :
    SameOutcome (ScaledBy 10) (rectilinear1DAt (Kind1D.nearest.evalOne fma) grid
      [q64 2, .inf false, q64 (1 / 2 ^ 1074)] x) (rectilinear1DAt (Kind1D.nearest.evalOne fma) grid
      [q64 2048, .inf false, q64 (1 / 2 ^ 1064)] x) :=
  (C124_1d_stored 10 .nearest ⟨by decide, by decide⟩ fma (by unfold IsSlice; decide)
    (by decide +kernel) x).1 grid

end Examples

end Interpn
