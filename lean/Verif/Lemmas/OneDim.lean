import Verif.Lemmas.Eval
import Verif.Spec.Api

/-! Closed forms of the 1-D grids. -/

set_option autoImplicit false

namespace Interpn
open FloatOps

variable {T : Type} [FloatOps T]

/-- Where `loc` lies relative to the closed range `lo..hi` (upper end tested first). -/
def extrapHL (lo hi loc : T) : Extrap :=
  if hi <. loc then .outsideHigh else if loc <. lo then .outsideLow else .inside

/-- The same with the lower end tested first. -/
def extrapLH (lo hi loc : T) : Extrap :=
  if loc <. lo then .outsideLow else if hi <. loc then .outsideHigh else .inside

theorem RegularGrid1D.new_ok {start step m : T} {vals : List T} (h1 : 1 ≤ vals.length)
    (hm : ofUsize (vals.length - 1) = some m) :
    RegularGrid1D.new start step vals = .ok ⟨start, start +. step *. m, step, vals⟩ := by
  unfold RegularGrid1D.new; rw [usub_ok h1, Res.ok_bind, hm]; rfl

theorem RegularGrid1D.index_ok {start stop step loc : T} {vals : List T}
    (h2 : 2 ≤ vals.length) (hs : IsSlice vals) {z : Int} (hz : rawCell start step loc = some z) :
    RegularGrid1D.index ⟨start, stop, step, vals⟩ loc =
      .ok (clampIdx z (vals.length - 2), extrapHL start stop loc) := by
  unfold RegularGrid1D.index
  unfold rawCell at hz
  have has : asUsize (min (max z 0) (asIsize (vals.length - 2))) =
      clampIdx z (vals.length - 2) := by
    rw [asIsize_eq (by rw [isSlice_iff] at hs; omega), asUsize_clamp]
  simp only [hz, usub_ok h2, Res.ok_bind, has, Res.pure_eq]
  rfl

theorem RegularGrid1D.at_ok {start stop step loc f : T} {vals : List T}
    (h2 : 2 ≤ vals.length) (hs : IsSlice vals) {z : Int} (hz : rawCell start step loc = some z)
    (hf : ofUsize (clampIdx z (vals.length - 2)) = some f) :
    RegularGrid1D.at ⟨start, stop, step, vals⟩ loc =
      .ok ⟨start +. step *. f, vals.getD (clampIdx z (vals.length - 2)) zero,
        (start +. step *. f) +. step, vals.getD (clampIdx z (vals.length - 2) + 1) zero,
        extrapHL start stop loc⟩ := by
  unfold RegularGrid1D.at
  have hle := clampIdx_le z (vals.length - 2)
  have hu : clampIdx z (vals.length - 2) + 1 ≤ usizeMax := by
    rw [isSlice_iff] at hs; simp only [isizeMax, usizeMax] at *; omega
  rw [RegularGrid1D.index_ok h2 hs hz, Res.ok_bind]
  simp only [hf]
  rw [lget_lt _ (by omega), Res.ok_bind, uadd_ok hu, Res.ok_bind, lget_lt _ (by omega),
    Res.ok_bind, Res.pure_eq]
  rw [List.getD_eq_getElem vals zero (n := clampIdx z (vals.length - 2)) (by omega),
    List.getD_eq_getElem vals zero (n := clampIdx z (vals.length - 2) + 1) (by omega)]

theorem RegularGrid1D.at_err {start stop step loc : T} {vals : List T}
    (hz : rawCell start step loc = none) :
    RegularGrid1D.at ⟨start, stop, step, vals⟩ loc = .err "Unrepresentable number" := by
  unfold RegularGrid1D.at RegularGrid1D.index
  unfold rawCell at hz
  simp [hz]

theorem RegularGrid1D.at_panic {start stop step loc : T} {vals : List T}
    (h2 : vals.length < 2) (hz : rawCell start step loc ≠ none) :
    RegularGrid1D.at ⟨start, stop, step, vals⟩ loc = .panic := by
  unfold RegularGrid1D.at RegularGrid1D.index usub
  unfold rawCell at hz
  cases h : toIsize (floor ((loc -. start) /. step)) with
  | none => exact absurd h hz
  | some z => simp only [h, if_neg (show ¬ 2 ≤ vals.length by omega)]; rfl

theorem RectilinearGrid1D.index_ok {grid vals : List T} (h2 : 2 ≤ grid.length)
    (hg : IsSlice grid) (loc : T) : RectilinearGrid1D.index ⟨grid, vals⟩ loc =
      .ok (linCell grid loc,
        extrapLH (grid.getD 0 zero) (grid.getD (grid.length - 1) zero) loc) := by
  unfold RectilinearGrid1D.index
  have h1 := cellsBelow_le grid loc
  have hi : (cellsBelow grid loc : Int) ≤ isizeMax := by rw [isSlice_iff] at hg; omega
  have e : partitionPoint grid (fun v => v <. loc) = cellsBelow grid loc := rfl
  simp only [e]
  rw [asIsize_eq hi, isub_ok (by simp only [isizeMin]; omega) (by omega), Res.ok_bind,
    usub_ok h2, Res.ok_bind, lget_lt _ (by omega), Res.ok_bind, usub_ok (by omega), Res.ok_bind,
    lget_lt _ (by omega), Res.ok_bind]
  have hc : min (asUsize (max ((cellsBelow grid loc : Int) - 1) 0)) (grid.length - 2) =
      linCell grid loc := by
    unfold asUsize linCell
    rw [if_pos (by omega)]
    omega
  rw [hc, List.getD_eq_getElem _ _ (by omega), List.getD_eq_getElem _ _ (by omega)]
  unfold extrapLH
  by_cases h : loc <. grid[0]
  · simp [h]
  · by_cases h' : grid[grid.length - 1] <. loc
    · simp [h, h']
    · simp [h, h']

theorem RectilinearGrid1D.at_ok {grid vals : List T} (h2 : 2 ≤ grid.length) (hg : IsSlice grid)
    (hl : vals.length = grid.length) (loc : T) : RectilinearGrid1D.at ⟨grid, vals⟩ loc =
      .ok ⟨grid.getD (linCell grid loc) zero, vals.getD (linCell grid loc) zero,
        grid.getD (linCell grid loc + 1) zero, vals.getD (linCell grid loc + 1) zero,
        extrapLH (grid.getD 0 zero) (grid.getD (grid.length - 1) zero) loc⟩ := by
  unfold RectilinearGrid1D.at
  have hb := linCell_bound h2 loc
  have hu : linCell grid loc + 1 ≤ usizeMax := by
    rw [isSlice_iff] at hg; simp only [isizeMax, usizeMax] at *; omega
  rw [RectilinearGrid1D.index_ok h2 hg, Res.ok_bind]
  simp only
  rw [uadd_ok hu, Res.ok_bind, lget_lt _ (by omega), Res.ok_bind, lget_lt _ (by omega),
    Res.ok_bind, lget_lt _ (by omega), Res.ok_bind, lget_lt _ (by omega), Res.ok_bind,
    Res.pure_eq, List.getD_eq_getElem grid zero (n := linCell grid loc) (by omega),
    List.getD_eq_getElem grid zero (n := linCell grid loc + 1) (by omega),
    List.getD_eq_getElem vals zero (n := linCell grid loc) (by omega),
    List.getD_eq_getElem vals zero (n := linCell grid loc + 1) (by omega)]

/-- A 1-D sampling of `n` values fails in the same way whatever the values are, or yields two
consecutive values at a fixed position, together with fixed coordinates. -/
def SamplesPair (n : Nat) (sample : List T → Res (GridSample T)) : Prop :=
  (∃ i x0 x1 ex, i + 1 < n ∧ ∀ vals : List T, vals.length = n → ∃ y0 y1, vals[i]? = some y0 ∧
    vals[i + 1]? = some y1 ∧ sample vals = .ok ⟨x0, y0, x1, y1, ex⟩) ∨
  (∀ vals vals' : List T, vals.length = n → vals'.length = n →
    sample vals = sample vals' ∧ ∀ v, sample vals ≠ .ok v)

theorem regular_samplesPair (start step loc : T) (n : Nat) (hn : (n : Int) ≤ isizeMax) :
    SamplesPair n fun vals => RegularGrid1D.new start step vals >>= fun g => g.at loc := by
  have hbad : ∀ r : Res (GridSample T), (∀ v, r ≠ .ok v) →
      (∀ vals : List T, vals.length = n →
        (RegularGrid1D.new start step vals >>= fun g => g.at loc) = r) →
      SamplesPair n fun vals => RegularGrid1D.new start step vals >>= fun g => g.at loc := by
    intro r hr h
    right
    intro v v' hl hl'
    simp only
    rw [h v hl, h v' hl']
    exact ⟨rfl, hr⟩
  have hsl : ∀ vals : List T, vals.length = n → IsSlice vals := by
    intro v h; rw [isSlice_iff, h]; exact hn
  by_cases h1 : 1 ≤ n
  case neg =>
    refine hbad .panic (by simp) ?_
    intro v hl; unfold RegularGrid1D.new usub; rw [hl, if_neg (by omega)]; rfl
  cases hm : (ofUsize (n - 1) : Option T) with
  | none =>
    refine hbad (.err "Unrepresentable number") (by simp) ?_
    intro v hl; unfold RegularGrid1D.new; rw [hl, usub_ok h1, Res.ok_bind, hm]; rfl
  | some m =>
    have hnew : ∀ v : List T, v.length = n →
        RegularGrid1D.new start step v = .ok ⟨start, start +. step *. m, step, v⟩ :=
      fun v hl => RegularGrid1D.new_ok (by omega) (by rw [hl]; exact hm)
    cases hi : rawCell start step loc with
    | none =>
      refine hbad (.err "Unrepresentable number") (by simp) ?_
      intro v hl
      rw [hnew v hl, Res.ok_bind, RegularGrid1D.at_err hi]
    | some z =>
      by_cases h2 : 2 ≤ n
      case neg =>
        refine hbad .panic (by simp) ?_
        intro v hl
        rw [hnew v hl, Res.ok_bind, RegularGrid1D.at_panic (by omega) (by simp [hi])]
      have hle := clampIdx_le z (n - 2)
      cases hf : (ofUsize (clampIdx z (n - 2)) : Option T) with
      | none =>
        refine hbad (.err "Unrepresentable number") (by simp) ?_
        intro v hl
        rw [hnew v hl, Res.ok_bind]
        unfold RegularGrid1D.at
        rw [RegularGrid1D.index_ok (by omega) (hsl v hl) hi, Res.ok_bind]
        simp only [hl, hf]
      | some f =>
        left
        refine ⟨clampIdx z (n - 2), start +. step *. f, (start +. step *. f) +. step,
          extrapHL start (start +. step *. m) loc, by omega, ?_⟩
        intro v hl
        refine ⟨v[clampIdx z (n - 2)], v[clampIdx z (n - 2) + 1], by simp, by simp, ?_⟩
        simp only
        rw [hnew v hl, Res.ok_bind,
          RegularGrid1D.at_ok (by omega) (hsl v hl) hi (by rw [hl]; exact hf)]
        subst hl
        rw [List.getD_eq_getElem v zero (n := clampIdx z (v.length - 2)) (by omega),
          List.getD_eq_getElem v zero (n := clampIdx z (v.length - 2) + 1) (by omega)]

theorem rectilinear_samplesPair (grid : List T) (loc : T) (n : Nat) (hn : (n : Int) ≤ isizeMax) :
    SamplesPair n fun vals => RectilinearGrid1D.new grid vals >>= fun g => g.at loc := by
  by_cases h : grid.length = n ∧ 2 ≤ n
  · obtain ⟨rfl, h2⟩ := h
    left
    have hb := linCell_bound h2 loc
    refine ⟨linCell grid loc, grid.getD (linCell grid loc) zero,
      grid.getD (linCell grid loc + 1) zero,
      extrapLH (grid.getD 0 zero) (grid.getD (grid.length - 1) zero) loc, by omega,
      fun v hl => ⟨v[linCell grid loc], v[linCell grid loc + 1], by simp, by simp, ?_⟩⟩
    unfold RectilinearGrid1D.new
    simp only
    rw [if_neg (by omega), Res.ok_bind, RectilinearGrid1D.at_ok h2 ((isSlice_iff _).2 hn) hl,
      List.getD_eq_getElem v zero (n := linCell grid loc) (by omega),
      List.getD_eq_getElem v zero (n := linCell grid loc + 1) (by omega)]
  · right
    intro v v' hl hl'
    unfold RectilinearGrid1D.new
    simp only
    rw [if_pos (by omega), if_pos (by omega)]
    simp

end Interpn
