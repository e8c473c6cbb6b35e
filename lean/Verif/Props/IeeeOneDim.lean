import Verif.Spec.IeeeGrid1D
import Verif.Lemmas.RoundingOneDimRegular
import Verif.Lemmas.RoundingNearest
import Verif.Lemmas.IeeeConst
import Verif.Lemmas.IeeeExamples
import Verif.Props.OneDimExact

/-! C90: the 1-D interpolators in IEEE 754 arithmetic. -/

set_option autoImplicit false
set_option exponentiation.threshold 1100

namespace Interpn
open FloatOps Ieee

section
variable {f : Format} {grid vals : List (Ieee f)} {x : Ieee f}

theorem left_ok {x0 y0 x1 y1 : Ieee f} {ex : Extrap} (fma : Bool) (h : ex ≠ .outsideHigh) :
    Kind1D.left.evalOne fma (fun _ => .ok ⟨x0, y0, x1, y1, ex⟩) x = .ok y0 := by
  cases ex <;> first | rfl | exact absurd rfl h

theorem right_ok {x0 y0 x1 y1 : Ieee f} {ex : Extrap} (fma : Bool) (h : ex ≠ .outsideLow) :
    Kind1D.right.evalOne fma (fun _ => .ok ⟨x0, y0, x1, y1, ex⟩) x = .ok y1 := by
  cases ex <;> first | rfl | exact absurd rfl h

theorem nodes1D_eq {i : Nat} (h : i < grid.length) : nodes1D grid i = val (grid.getD i zero) := by
  unfold nodes1D
  rw [List.getD_eq_getElem _ _ (by simpa using h), List.getElem_map, List.getD_eq_getElem _ _ h]

theorem Grid1DOk.incr (h : Grid1DOk grid vals) : Incr grid.length (nodes1D grid) := h.increasing

theorem Grid1DOk.finite_node (h : Grid1DOk grid vals) {i : Nat} (hi : i < grid.length) :
    Finite (grid.getD i zero) := by
  rw [List.getD_eq_getElem _ _ hi]; exact h.finite _ (List.getElem_mem hi)

theorem Grid1DOk.inCell (h : Grid1DOk grid vals) (hx : Finite x) :
    InCell grid.length (nodes1D grid) (val x) (linCell grid x) :=
  float_linCell (exactCompare f) hx h.big h.finite h.incr

theorem Grid1DOk.valid (h : Grid1DOk grid vals) :
    (Axes.rectilinear fun _ : Fin 1 => grid.map val).Valid 2 (vals.map val) := by
  refine ⟨?_, ?_, ?_, ?_⟩
  · have := h.slice; rw [isSlice_iff] at this ⊢; simpa using this
  · simp [Axes.size, h.len]
  · intro k; simpa [Axes.size] using h.big
  · intro k i hi; exact h.increasing i (by simpa [Axes.size] using hi)

/-- Where an observation lies relative to the grid range. -/
theorem Grid1DOk.extrap (h : Grid1DOk grid vals) (hx : Finite x) :
    extrapLH (grid.getD 0 zero) (grid.getD (grid.length - 1) zero) x =
      extrapOf (nodes1D grid 0) (nodes1D grid (grid.length - 1)) (val x) := by
  have h2 := h.big
  rw [nodes1D_eq (by omega), nodes1D_eq (by omega)]
  have h0 := exactCompare f x (grid.getD 0 zero) hx (h.finite_node (by omega))
  have h1 := exactCompare f (grid.getD (grid.length - 1) zero) x (h.finite_node (by omega)) hx
  unfold extrapLH extrapOf
  by_cases c0 : val x < val (grid.getD 0 zero)
  · rw [if_pos (h0.2 c0), if_pos c0]
  · rw [if_neg (fun hh => c0 (h0.1 hh)), if_neg c0]
    by_cases c1 : val (grid.getD (grid.length - 1) zero) < val x
    · rw [if_pos (h1.2 c1), if_pos c1]
    · rw [if_neg (fun hh => c1 (h1.1 hh)), if_neg c1]

/-- What the interpolators see of a rectilinear 1-D grid. -/
theorem Grid1DOk.eval (h : Grid1DOk grid vals) (kind : Kind1D) (fma : Bool) (hx : Finite x) :
    rectilinear1DAt (kind.evalOne fma) grid vals x = kind.evalOne fma (fun _ => .ok
      ⟨grid.getD (linCell grid x) zero, vals.getD (linCell grid x) zero,
        grid.getD (linCell grid x + 1) zero, vals.getD (linCell grid x + 1) zero,
        extrapOf (nodes1D grid 0) (nodes1D grid (grid.length - 1)) (val x)⟩) x := by
  have h2 := h.big
  have hl := h.len
  have hsg : IsSlice grid := by have := h.slice; rw [isSlice_iff] at this ⊢; omega
  unfold rectilinear1DAt RectilinearGrid1D.new
  rw [if_neg (by omega), Res.ok_bind]
  have hat := RectilinearGrid1D.at_ok h2 hsg hl x
  rw [h.extrap hx] at hat
  cases kind <;>
    simp only [Kind1D.evalOne, Linear1D.evalOne, LinearHoldLast1D.evalOne, Left1D.evalOne,
      Right1D.evalOne, Nearest1D.evalOne, hat]

/-- The cell found is the one strictly left of which nothing smaller than `x` is missed: its left
node is below `x` unless it is the first. -/
theorem Grid1DOk.cell_lt (h : Grid1DOk grid vals) (hx : Finite x) :
    linCell grid x = 0 ∨ nodes1D grid (linCell grid x) < val x := by
  have h2 := h.big
  by_cases hc : cellsBelow grid x ≤ 1
  · left; unfold linCell; omega
  · right
    have hb := linCell_bound h2 x
    have hlt : ∀ (i : Nat) (hi : i < grid.length),
        (grid[i] <. x) = true ↔ nodes1D grid i < val x := fun i hi => by
      rw [nodes1D_eq hi, List.getD_eq_getElem _ _ hi]
      exact exactCompare f _ _ (h.finite _ (List.getElem_mem hi)) hx
    rw [← hlt _ (by omega)]
    refine (cellsBelow_iff (fun i j hij hj hb => ?_) _ (by omega)).2 (by unfold linCell; omega)
    rw [hlt j hj] at hb
    rw [hlt i (by omega)]
    exact lt_of_le_of_lt (h.incr.le hij hj) hb

/-- C90, `Left1D` on a rectilinear grid, every finite observation: the stored value of the last node
strictly before the observation, the first value at or below the start, the last value strictly above
the grid, without rounding. -/
theorem C90_left_rectilinear (h : Grid1DOk grid vals) (fma : Bool) (hx : Finite x) :
    (val x ≤ nodes1D grid 0 →
      some (rectilinear1DAt (Kind1D.left.evalOne fma) grid vals x) = (vals[0]?).map .ok) ∧
    (∀ i, i + 1 < grid.length → nodes1D grid i < val x → val x ≤ nodes1D grid (i + 1) →
      some (rectilinear1DAt (Kind1D.left.evalOne fma) grid vals x) = (vals[i]?).map .ok) ∧
    (nodes1D grid (grid.length - 1) < val x →
      some (rectilinear1DAt (Kind1D.left.evalOne fma) grid vals x) =
        (vals[grid.length - 1]?).map .ok) := by
  have h2 := h.big
  have hl := h.len
  have hc := h.inCell hx
  have hlt := h.cell_lt hx
  have hi := h.incr
  have h01 := hi.lt (show 0 < grid.length - 1 by omega) (by omega)
  have hget : ∀ i < grid.length, vals[i]? = some (vals.getD i zero) := fun i hi => by
    rw [List.getElem?_eq_getElem (by omega), List.getD_eq_getElem _ _ (by omega)]
  rw [h.eval _ fma hx]
  set c := linCell grid x
  have hcn := hc.1
  refine ⟨fun h1 => ?_, fun i hin h1 h3 => ?_, fun h1 => ?_⟩
  · have hc0 : c = 0 := by
      rcases hlt with h | h
      · exact h
      · have := hi.le (show 0 ≤ c by omega) (by omega); linarith
    rw [hget 0 (by omega), hc0]
    have hex : extrapOf (nodes1D grid 0) (nodes1D grid (grid.length - 1)) (val x) ≠ .outsideHigh := by
      unfold extrapOf
      split
      · simp
      · rw [if_neg (by linarith)]; simp
    rw [left_ok fma hex]
    rfl
  · have hci : c = i := by
      rcases lt_trichotomy c i with h | h | h
      · have h4 := hi.le (show c + 1 ≤ i by omega) (by omega)
        rcases hc.2.2 with h5 | h5
        · omega
        · linarith
      · exact h
      · have h4 := hi.le (show i + 1 ≤ c by omega) (by omega)
        rcases hlt with h5 | h5
        · omega
        · linarith
    rw [hget i (by omega), ← hci]
    have hex : extrapOf (nodes1D grid 0) (nodes1D grid (grid.length - 1)) (val x) ≠ .outsideHigh := by
      have := hi.le (show i + 1 ≤ grid.length - 1 by omega) (by omega)
      unfold extrapOf
      split
      · simp
      · rw [if_neg (by linarith)]; simp
    rw [left_ok fma hex]
    rfl
  · have hcl : c + 1 = grid.length - 1 := by
      rcases hc.2.2 with h5 | h5
      · omega
      · have := hi.le (show c + 1 ≤ grid.length - 1 by omega) (by omega)
        by_contra hne
        have := hi.lt (show c + 1 < grid.length - 1 by omega) (by omega)
        linarith
    have hex : extrapOf (nodes1D grid 0) (nodes1D grid (grid.length - 1)) (val x) = .outsideHigh := by
      unfold extrapOf
      rw [if_neg (by linarith), if_pos h1]
    rw [hget _ (by omega), hex, ← hcl]
    rfl

/-- C90, `Right1D` on a rectilinear grid, every finite observation: the stored value of the first node
not before the observation, the first value below the start, the last value above the grid. -/
theorem C90_right_rectilinear (h : Grid1DOk grid vals) (fma : Bool) (hx : Finite x) :
    (val x < nodes1D grid 0 →
      some (rectilinear1DAt (Kind1D.right.evalOne fma) grid vals x) = (vals[0]?).map .ok) ∧
    (val x = nodes1D grid 0 →
      some (rectilinear1DAt (Kind1D.right.evalOne fma) grid vals x) = (vals[1]?).map .ok) ∧
    (∀ i, i + 1 < grid.length → nodes1D grid i < val x → val x ≤ nodes1D grid (i + 1) →
      some (rectilinear1DAt (Kind1D.right.evalOne fma) grid vals x) = (vals[i + 1]?).map .ok) ∧
    (nodes1D grid (grid.length - 1) < val x →
      some (rectilinear1DAt (Kind1D.right.evalOne fma) grid vals x) =
        (vals[grid.length - 1]?).map .ok) := by
  have h2 := h.big
  have hl := h.len
  have hc := h.inCell hx
  have hlt := h.cell_lt hx
  have hi := h.incr
  have h01 := hi.lt (show 0 < grid.length - 1 by omega) (by omega)
  have hget : ∀ i < grid.length, vals[i]? = some (vals.getD i zero) := fun i hi => by
    rw [List.getElem?_eq_getElem (by omega), List.getD_eq_getElem _ _ (by omega)]
  rw [h.eval _ fma hx]
  set c := linCell grid x
  have hcn := hc.1
  have hnot : ∀ {lo hi : ℚ}, ¬ val x < lo → extrapOf lo hi (val x) ≠ .outsideLow := by
    intro lo hi hh
    unfold extrapOf
    rw [if_neg hh]
    split <;> simp
  have hzero : val x ≤ nodes1D grid 0 → c = 0 := fun h1 => by
    rcases hlt with h | h
    · exact h
    · have := hi.le (show 0 ≤ c by omega) (by omega); linarith
  refine ⟨fun h1 => ?_, fun h1 => ?_, fun i hin h1 h3 => ?_, fun h1 => ?_⟩
  · have hex : extrapOf (nodes1D grid 0) (nodes1D grid (grid.length - 1)) (val x) = .outsideLow := by
      unfold extrapOf; rw [if_pos h1]
    rw [hget 0 (by omega), hzero h1.le, hex]
    rfl
  · rw [right_ok fma (hnot (by linarith)), hzero h1.le, hget 1 (by omega)]
    rfl
  · have hci : c = i := by
      rcases lt_trichotomy c i with h | h | h
      · have h4 := hi.le (show c + 1 ≤ i by omega) (by omega)
        rcases hc.2.2 with h5 | h5
        · omega
        · linarith
      · exact h
      · have h4 := hi.le (show i + 1 ≤ c by omega) (by omega)
        rcases hlt with h5 | h5
        · omega
        · linarith
    have := hi.le (show 0 ≤ i by omega) (by omega)
    rw [right_ok fma (hnot (by linarith)), hci, hget (i + 1) (by omega)]
    rfl
  · have hcl : c + 1 = grid.length - 1 := by
      rcases hc.2.2 with h5 | h5
      · omega
      · by_contra hne
        have := hi.lt (show c + 1 < grid.length - 1 by omega) (by omega)
        linarith
    rw [right_ok fma (hnot (by linarith)), hcl, hget _ (by omega)]
    rfl

/-- C90, `LinearHoldLast1D` on a rectilinear grid: outside the range the first or the last stored
value, without rounding; inside it is `Linear1D`. -/
theorem C90_hold_last_rectilinear (h : Grid1DOk grid vals) (fma : Bool) (hx : Finite x) :
    (val x < nodes1D grid 0 →
      some (rectilinear1DAt (Kind1D.linearHoldLast.evalOne fma) grid vals x) =
        (vals[0]?).map .ok) ∧
    (nodes1D grid (grid.length - 1) < val x →
      some (rectilinear1DAt (Kind1D.linearHoldLast.evalOne fma) grid vals x) =
        (vals[grid.length - 1]?).map .ok) ∧
    (InRange grid.length (nodes1D grid) (val x) →
      rectilinear1DAt (Kind1D.linearHoldLast.evalOne fma) grid vals x =
        rectilinear1DAt (Kind1D.linear.evalOne fma) grid vals x) := by
  have h2 := h.big
  have hl := h.len
  have hc := h.inCell hx
  have hlt := h.cell_lt hx
  have hi := h.incr
  have h01 := hi.lt (show 0 < grid.length - 1 by omega) (by omega)
  have hget : ∀ i < grid.length, vals[i]? = some (vals.getD i zero) := fun i hi => by
    rw [List.getElem?_eq_getElem (by omega), List.getD_eq_getElem _ _ (by omega)]
  rw [h.eval _ fma hx, h.eval _ fma hx]
  set c := linCell grid x
  have hcn := hc.1
  refine ⟨fun h1 => ?_, fun h1 => ?_, fun hin => ?_⟩
  · have hex : extrapOf (nodes1D grid 0) (nodes1D grid (grid.length - 1)) (val x) = .outsideLow := by
      unfold extrapOf; rw [if_pos h1]
    have hc0 : c = 0 := by
      rcases hlt with h | h
      · exact h
      · have := hi.le (show 0 ≤ c by omega) (by omega); linarith
    rw [hget 0 (by omega), hc0, hex]
    rfl
  · have hex : extrapOf (nodes1D grid 0) (nodes1D grid (grid.length - 1)) (val x) = .outsideHigh := by
      unfold extrapOf; rw [if_neg (by linarith), if_pos h1]
    have hcl : c + 1 = grid.length - 1 := by
      rcases hc.2.2 with h5 | h5
      · omega
      · by_contra hne
        have := hi.lt (show c + 1 < grid.length - 1 by omega) (by omega)
        linarith
    rw [hget _ (by omega), hex, ← hcl]
    rfl
  · have hex : extrapOf (nodes1D grid 0) (nodes1D grid (grid.length - 1)) (val x) = .inside := by
      unfold extrapOf; rw [if_neg (not_lt.2 hin.1), if_neg (not_lt.2 hin.2)]
    rw [hex]
    rfl

theorem abs_fin {a : Ieee f} (h : Finite a) : Finite (FloatOps.abs a) ∧ val (FloatOps.abs a) = |val a| := by
  cases a with
  | fin neg q hr hs => exact ⟨trivial, rfl⟩
  | inf neg => exact h.elim
  | nan => exact h.elim

/-- C90, `Nearest1D` on a rectilinear grid: the stored value of a node such that no node is closer by
a factor of more than `1 + 3u`; in particular at a node the value stored there. -/
theorem C90_nearest_rectilinear (h : Grid1DOk grid vals) (hu : f.unitRoundoff ≤ 1 / 100) (fma : Bool)
    (hgrid : ∀ a ∈ grid, 2 * |val a| ≤ f.omega) (hx : Finite x) (hxs : 2 * |val x| ≤ f.omega) :
    ∃ i v, vals[i]? = some v ∧ rectilinear1DAt (Kind1D.nearest.evalOne fma) grid vals x = .ok v ∧
      ∀ j < grid.length,
        |val x - nodes1D grid i| ≤ (1 + 3 * f.unitRoundoff) * |val x - nodes1D grid j| := by
  have h2 := h.big
  have hl := h.len
  have hc := h.inCell hx
  have hcn := hc.1
  have hu0 := (rounds f).u_nonneg
  rw [h.eval _ fma hx]
  set c := linCell grid x
  have hnode : ∀ i < grid.length, Finite (grid.getD i zero) ∧
      nodes1D grid i = val (grid.getD i zero) ∧ 2 * |val (grid.getD i zero)| ≤ f.omega := fun i hi => by
    refine ⟨h.finite_node hi, nodes1D_eq hi, ?_⟩
    rw [List.getD_eq_getElem _ _ hi]; exact hgrid _ (List.getElem_mem hi)
  have hdist : ∀ i < grid.length, Finite (FloatOps.abs (x -. grid.getD i zero)) ∧
      |val (FloatOps.abs (x -. grid.getD i zero)) - (|val x - nodes1D grid i|)| ≤
        f.unitRoundoff * |val x - nodes1D grid i| := fun i hi => by
    obtain ⟨h1, h3, h4⟩ := hnode i hi
    have h5 := (rounds f).sub x _ hx h1 (by have := abs_sub (val x) (val (grid.getD i zero)); linarith)
    obtain ⟨h6, h7⟩ := abs_fin h5.1
    refine ⟨h6, ?_⟩
    rw [h7, h3]
    exact (abs_abs_sub_abs_le _ _).trans h5.2
  have hget : ∀ i < grid.length, vals[i]? = some (vals.getD i zero) := fun i hi => by
    rw [List.getElem?_eq_getElem (by omega), List.getD_eq_getElem _ _ (by omega)]
  have hnear : ∀ j < grid.length, ∃ i, (i = c ∨ i = c + 1) ∧
      |val x - nodes1D grid i| ≤ |val x - nodes1D grid j| := fun j hj => by
    have := nearestOffset_exact h.incr hc
    refine ⟨_, ?_, this.2.1 j hj⟩
    unfold nearestOffset
    split
    · left; rfl
    · right; rfl
  have hfac : ∀ {a b : ℚ}, 0 ≤ b → (1 - f.unitRoundoff) * a ≤ (1 + f.unitRoundoff) * b →
      a ≤ (1 + 3 * f.unitRoundoff) * b := by
    intro a b hb hab
    have : (1 + f.unitRoundoff) * b ≤ (1 - f.unitRoundoff) * ((1 + 3 * f.unitRoundoff) * b) := by
      have : 0 ≤ f.unitRoundoff * b := by positivity
      nlinarith [mul_nonneg hu0 this]
    exact le_of_mul_le_mul_left (hab.trans this) (by linarith)
  have hgrow : ∀ b : ℚ, 0 ≤ b → b ≤ (1 + 3 * f.unitRoundoff) * b := fun b hb => by nlinarith
  obtain ⟨hf0, hd0⟩ := hdist c (by omega)
  obtain ⟨hf1, hd1⟩ := hdist (c + 1) hcn
  have hd0 := abs_le.1 hd0
  have hd1 := abs_le.1 hd1
  have hle := exactCompareLe f _ _ hf0 hf1
  simp only [Kind1D.evalOne, Nearest1D.evalOne, Res.ok_bind, Res.pure_eq]
  by_cases hb : val (FloatOps.abs (x -. grid.getD c zero)) ≤
      val (FloatOps.abs (x -. grid.getD (c + 1) zero))
  · rw [if_pos (hle.2 hb)]
    refine ⟨c, _, hget c (by omega), rfl, fun j hj => ?_⟩
    obtain ⟨i, hi, hij⟩ := hnear j hj
    have hmul : (1 + 3 * f.unitRoundoff) * |val x - nodes1D grid i| ≤
        (1 + 3 * f.unitRoundoff) * |val x - nodes1D grid j| := by gcongr
    rcases hi with rfl | rfl
    · exact (hgrow _ (abs_nonneg _)).trans hmul
    · exact (hfac (abs_nonneg _) (by linarith)).trans hmul
  · rw [if_neg fun hh => hb (hle.1 hh)]
    refine ⟨c + 1, _, hget (c + 1) hcn, rfl, fun j hj => ?_⟩
    obtain ⟨i, hi, hij⟩ := hnear j hj
    have hmul : (1 + 3 * f.unitRoundoff) * |val x - nodes1D grid i| ≤
        (1 + 3 * f.unitRoundoff) * |val x - nodes1D grid j| := by gcongr
    rcases hi with rfl | rfl
    · exact (hfac (abs_nonneg _) (by linarith)).trans hmul
    · exact (hgrow _ (abs_nonneg _)).trans hmul

/-- `Linear1D` on a rectilinear grid, for a format of moderate precision. -/
theorem linear1D_rectilinear_ieee (h : Grid1DOk grid vals) (hu : f.unitRoundoff ≤ 1 / 1000)
    (hη : f.underflow ≤ f.unitRoundoff / 100) (hΩ1 : 2 ≤ f.omega)
    (fma : Bool) (hgrid : ∀ a ∈ grid, 2 * |val a| ≤ f.omega) (M W : ℚ) (hM : 6 * M + 2 ≤ f.omega)
    (hvals : ∀ v ∈ vals, Finite v ∧ |val v| ≤ M)
    (hwidth : ∀ i, i + 1 < grid.length → nodes1D grid (i + 1) - nodes1D grid i ≤ W ∧
      3 * M ≤ f.omega * (nodes1D grid (i + 1) - nodes1D grid i))
    (hx : Finite x) (hin : InRange grid.length (nodes1D grid) (val x)) :
    ∃ r y, rectilinear1DAt (Kind1D.linear.evalOne fma) grid vals x = .ok r ∧ Finite r ∧
      interp1DAt .linear fma (.rectilinear fun _ => grid.map val) (vals.map val) (val x) = .ok y ∧
      |val r - y| ≤ 15 * f.unitRoundoff * M + 2 * f.underflow * (1 + W) := by
  have h2 := h.big
  have hl := h.len
  have hc := h.inCell hx
  have hcn := hc.1
  have hη0 := (rounds f).η_nonneg
  have hu0 := (rounds f).u_nonneg
  have hi := h.incr
  have hG := h.valid
  have hlin := interp1DAt_linear (c := linCell grid x) fma hG (val x) trivial
    (by
      have e : (Axes.rectilinear fun _ : Fin 1 => grid.map val).size 0 = grid.length := by
        simp [Axes.size]
      rw [e]; exact hc)
  rw [h.eval _ fma hx]
  set c := linCell grid x
  have hmem : ∀ i < grid.length, Finite (vals.getD i zero) ∧ |val (vals.getD i zero)| ≤ M ∧
      (vals.map val).getD i 0 = val (vals.getD i zero) := fun i hi => by
    have hiv : i < vals.length := by omega
    rw [List.getD_eq_getElem _ _ hiv, List.getD_eq_getElem _ _ (by simpa using hiv),
      List.getElem_map]
    exact ⟨(hvals _ (List.getElem_mem hiv)).1, (hvals _ (List.getElem_mem hiv)).2, rfl⟩
  obtain ⟨hy0, hy0M, hy0e⟩ := hmem c (by omega)
  obtain ⟨hy1, hy1M, hy1e⟩ := hmem (c + 1) hcn
  have hx0 := nodes1D_eq (grid := grid) (i := c) (by omega)
  have hx1 := nodes1D_eq hcn
  have hlt := hi c hcn
  have hM0 := (abs_nonneg _).trans hy0M
  have hsmall : ∀ i < grid.length, 2 * |val (grid.getD i zero)| ≤ f.omega := fun i hi => by
    rw [List.getD_eq_getElem _ _ hi]; exact hgrid _ (List.getElem_mem hi)
  -- the observation is in the cell
  have hle0 : nodes1D grid c ≤ val x := by
    rcases hc.2.1 with h0 | h0
    · rw [h0]; exact hin.1
    · exact h0
  have hle1 : val x ≤ nodes1D grid (c + 1) := by
    rcases hc.2.2 with h0 | h0
    · have := hin.2; rwa [show grid.length - 1 = c + 1 by omega] at this
    · exact h0
  obtain ⟨hw, hsl⟩ := hwidth c hcn
  rw [hx0, hx1] at hlt hw hsl
  rw [hx0] at hle0
  rw [hx1] at hle1
  have hpos := sub_pos.2 hlt
  have hwΩ : val (grid.getD (c + 1) zero) - val (grid.getD c zero) ≤ f.omega := by
    have h3 := hsmall c (by omega)
    have h4 := hsmall (c + 1) hcn
    have := le_abs_self (val (grid.getD (c + 1) zero))
    have := neg_abs_le (val (grid.getD c zero))
    linarith
  have hηw : f.underflow * (val (grid.getD (c + 1) zero) - val (grid.getD c zero)) ≤
      1 / 100 * (1 / 1000) * f.omega := by
    have : f.underflow ≤ 1 / 100 * (1 / 1000) := by linarith
    gcongr
  have key := rounds_linear1 (rounds f) hu fma
    (extrapOf (nodes1D grid 0) (nodes1D grid (grid.length - 1)) (val x)) (h.finite_node (by omega))
    (h.finite_node hcn) hy0 hy1 hx hlt hy0M hy1M (R := 1) (by
      rw [abs_of_nonneg (div_nonneg (by linarith) hpos.le), div_le_one hpos]; linarith) hwΩ
    (by rw [abs_of_nonneg (by linarith)]; linarith) hsl (by linarith)
  refine ⟨_, _, rfl, key.1, hlin, ?_⟩
  have e : linPiece ((Axes.rectilinear fun _ : Fin 1 => grid.map val).node 0)
      (fun i => (vals.map val).getD i 0) c (val x) =
      val (vals.getD c zero) + (val (vals.getD (c + 1) zero) - val (vals.getD c zero)) *
        ((val x - val (grid.getD c zero)) /
          (val (grid.getD (c + 1) zero) - val (grid.getD c zero))) := by
    show (vals.map val).getD c 0 + (val x - nodes1D grid c) / (nodes1D grid (c + 1) - nodes1D grid c) *
      ((vals.map val).getD (c + 1) 0 - (vals.map val).getD c 0) = _
    rw [hx0, hx1, hy0e, hy1e]
    ring
  rw [e]
  refine key.2.trans ?_
  have : f.underflow * (val (grid.getD (c + 1) zero) - val (grid.getD c zero)) ≤ f.underflow * W := by
    gcongr
  linarith

end

section
variable {f : Format} {start step : Ieee f} {vals : List (Ieee f)} {x : Ieee f} {κ : ℚ}

/-- The nodes of a regular 1-D grid. -/
theorem regular1DAt_of_sample (kind : Kind1D) (fma : Bool) {g : GridSample (Ieee f)}
    (h : (RegularGrid1D.new start step vals >>= fun g => g.at x) = .ok g) :
    regular1DAt (kind.evalOne fma) start step vals x = kind.evalOne fma (fun _ => .ok g) x := by
  unfold regular1DAt
  cases hn : RegularGrid1D.new start step vals with
  | ok r =>
    rw [hn, Res.ok_bind] at h
    rw [Res.ok_bind]
    cases kind <;>
      simp only [Kind1D.evalOne, Linear1D.evalOne, LinearHoldLast1D.evalOne, Left1D.evalOne,
        Right1D.evalOne, Nearest1D.evalOne, h]
  | err e => rw [hn] at h; cases h
  | panic => rw [hn] at h; cases h

theorem Regular1DOk.sample (h : Regular1DOk κ start step vals.length) (hs : IsSlice vals)
    (hu : f.unitRoundoff ≤ 1 / 1000) (hη : f.underflow ≤ f.unitRoundoff / 100)
    (hΩ1 : 2 ^ 70 ≤ f.omega) (hp : f.p ≤ 53) (hx : Finite x)
    (hin : InRange vals.length (fun i : Nat => val start + val step * (i : ℚ)) (val x)) :
    ∃ (c : Nat) (x0 x1 : Ieee f) (ex : Extrap) (q' : ℚ),
      (RegularGrid1D.new start step vals >>= fun g => g.at x) =
        .ok ⟨x0, vals.getD c zero, x1, vals.getD (c + 1) zero, ex⟩ ∧
      InCell vals.length (fun i : Nat => val start + val step * (i : ℚ)) (val start + val step * q') c ∧
      |q' - (val x - val start) / val step| ≤
        402 / 100 * (f.unitRoundoff * κ) + f.unitRoundoff / 100 ∧
      -(402 / 100 * (f.unitRoundoff * κ) + f.unitRoundoff / 100) ≤
        (val x - val start) / val step - c ∧
      (val x - val start) / val step - c ≤
        1 + (402 / 100 * (f.unitRoundoff * κ) + f.unitRoundoff / 100) ∧
      Finite x0 ∧ Finite x1 ∧
      |val x0 - (val start + val step * (c : ℚ))| ≤
        (301 / 100 * (f.unitRoundoff * κ) + 101 / 100 * f.unitRoundoff) * val step ∧
      |val x1 - val x0 - val step| ≤
        (f.unitRoundoff * κ + 105 / 100 * f.unitRoundoff) * val step ∧
      ex ≠ .outsideLow ∧
      (ex = .outsideHigh → c + 2 = vals.length ∧ ((vals.length - 1 : Nat) : ℚ) -
        (301 / 100 * (f.unitRoundoff * κ) + 101 / 100 * f.unitRoundoff) ≤
          (val x - val start) / val step) := by
  have hu0 := (rounds f).u_nonneg
  obtain ⟨-, huκ', hκ53, hdim⟩ := regular_setup hp h.size.1 (by linarith [h.size.2])
  have hunits := regular_units h.pos h.nodes hin
  exact regular_sample_close (rounds f) (exactCompare f) (exactWhole f (n := 2 ^ f.p + 1) le_rfl)
    (hdim _ hunits.1) h.big hs h.finite.1 h.finite.2 hx h.pos h.size.1 hu huκ' hη h.normal h.nodes
    h.large hκ53 hΩ1 hin

/-- The exact counterpart of a regular grid. -/
theorem Regular1DOk.valid (h : Regular1DOk κ start step vals.length) (hs : IsSlice vals) :
    (Axes.regular (fun _ : Fin 1 => vals.length) (fun _ => val start) fun _ => val step).Valid 2
      (vals.map val) := by
  refine ⟨?_, ?_, ?_, ?_⟩
  · rw [isSlice_iff] at hs ⊢; simpa using hs
  · simp [Axes.size]
  · intro k; simpa [Axes.size] using h.big
  · intro k i hi
    have := h.pos
    show val start + val step * (i : ℚ) < val start + val step * ((i + 1 : Nat) : ℚ)
    push_cast
    linarith

/-- In exact arithmetic `Linear1D` gives the piecewise linear interpolant in range. -/
theorem Regular1DOk.exact_linear (h : Regular1DOk κ start step vals.length) (hs : IsSlice vals)
    (fma : Bool) (kind : Kind1D) (hk : kind = .linear ∨ kind = .linearHoldLast)
    (hin : InRange vals.length (fun i : Nat => val start + val step * (i : ℚ)) (val x)) :
    ∃ d, InCell vals.length (fun i : Nat => val start + val step * (i : ℚ)) (val x) d ∧
      interp1DAt kind fma (.regular (fun _ => vals.length) (fun _ => val start) fun _ => val step)
        (vals.map val) (val x) = .ok (linPiece (fun i : Nat => val start + val step * (i : ℚ))
          (fun i => (vals.map val).getD i 0) d (val x)) := by
  have hG := h.valid hs
  have hpos := h.pos
  obtain ⟨d, hd⟩ := exists_inCell (p := fun i : Nat => val start + val step * (i : ℚ)) h.big (val x)
  have hlen : ((vals.length : Nat) : ℚ) ≤ 2 ^ 63 := by
    rw [isSlice_iff] at hs
    have : vals.length ≤ 2 ^ 63 := by simp only [isizeMax] at hs; omega
    exact_mod_cast this
  have hrep : (Axes.regular (fun _ : Fin 1 => vals.length) (fun _ => val start)
      fun _ => val step).Representable fun _ => val x := by
    intro k
    have h1 := hin.1
    have h3 := hin.2
    simp only [Nat.cast_zero, mul_zero, add_zero] at h1
    have hq1 : 0 ≤ (val x - val start) / val step := div_nonneg (by linarith) hpos.le
    have hq2 : (val x - val start) / val step ≤ ((vals.length - 1 : Nat) : ℚ) := by
      rw [div_le_iff₀ hpos]; linarith
    constructor
    · exact le_trans (by decide) (Int.floor_nonneg.2 hq1)
    · have h5 := Int.floor_le ((val x - val start) / val step)
      have h6 : ((vals.length - 1 : Nat) : ℚ) ≤ (isizeMax : Int) := by
        rw [isSlice_iff] at hs
        exact_mod_cast (by omega : ((vals.length - 1 : Nat) : Int) ≤ isizeMax)
      exact_mod_cast (h5.trans hq2).trans h6
  have hlin := interp1DAt_linear fma hG (val x) hrep hd
  refine ⟨d, hd, ?_⟩
  rcases hk with rfl | rfl
  · exact hlin
  · rw [(C41_cases fma hG (val x) hrep).2.2 hin]; exact hlin

/-- `Linear1D` and `LinearHoldLast1D` on a regular grid, for a format of moderate precision. -/
theorem linear1D_regular_ieee (h : Regular1DOk κ start step vals.length) (hs : IsSlice vals)
    (hu : f.unitRoundoff ≤ 1 / 1000) (hη : f.underflow ≤ f.unitRoundoff / 100)
    (hΩ1 : 2 ^ 70 ≤ f.omega) (hp : f.p ≤ 53)
    (fma : Bool) (kind : Kind1D) (hk : kind = .linear ∨ kind = .linearHoldLast)
    (M : ℚ) (hM : 7 * M + 2 ≤ f.omega) (hslope : 4 * M ≤ f.omega * val step)
    (hvals : ∀ v ∈ vals, Finite v ∧ |val v| ≤ M) (hx : Finite x)
    (hin : InRange vals.length (fun i : Nat => val start + val step * (i : ℚ)) (val x)) :
    ∃ r y, regular1DAt (kind.evalOne fma) start step vals x = .ok r ∧ Finite r ∧
      interp1DAt kind fma (.regular (fun _ => vals.length) (fun _ => val start) fun _ => val step)
        (vals.map val) (val x) = .ok y ∧
      |val r - y| ≤ 25 * (1 + κ) * f.unitRoundoff * M + 3 * f.underflow * (1 + val step) := by
  have h2 := h.big
  have hη0 := (rounds f).η_nonneg
  have hu0 := (rounds f).u_nonneg
  have hpos := h.pos
  have hκ := h.size.1
  obtain ⟨c, x0, x1, ex, q', hsmp, hcell, hq', ht1, ht2, hx0, hx1, he0, he1, hlow, hhigh⟩ :=
    h.sample hs hu hη hΩ1 hp hx hin
  obtain ⟨d, hd, hexact⟩ := h.exact_linear hs fma kind hk hin
  have huκ : f.unitRoundoff * κ ≤ 1 / 100 := by have := h.size.2; nlinarith
  have huκ0 : 0 ≤ f.unitRoundoff * κ := by positivity
  obtain ⟨hw1, hw2, hE, hR⟩ := sample_weight hu0 hpos hκ hu huκ ht1 ht2 he0 he1
  have hmem : ∀ i < vals.length, Finite (vals.getD i zero) ∧ |val (vals.getD i zero)| ≤ M ∧
      (vals.map val).getD i 0 = val (vals.getD i zero) := fun i hi => by
    rw [List.getD_eq_getElem _ _ hi, List.getD_eq_getElem _ _ (by simpa using hi), List.getElem_map]
    exact ⟨(hvals _ (List.getElem_mem hi)).1, (hvals _ (List.getElem_mem hi)).2, rfl⟩
  have hcn := hcell.1
  obtain ⟨hy0, hy0M, hy0e⟩ := hmem c (by omega)
  obtain ⟨hy1, hy1M, hy1e⟩ := hmem (c + 1) hcn
  have hM0 := (abs_nonneg _).trans hy0M
  have hfM : ∀ i < vals.length, |(vals.map val).getD i 0| ≤ M := fun i hi => by
    rw [(hmem i hi).2.2]; exact (hmem i hi).2.1
  have hκ12 : (1 : ℚ) / 2 ≤ κ := by
    have h3 := (regular_units hpos h.nodes hin).1
    have : (1 : ℚ) ≤ ((vals.length - 1 : Nat) : ℚ) := by exact_mod_cast (by omega : 1 ≤ vals.length - 1)
    linarith
  have hstΩ : 2 * val step + 1 ≤ f.omega := by
    have := h.large
    have : 1 / 2 * val step ≤ κ * val step := by gcongr
    linarith
  have hlarge := h.large
  have hunits := (regular_units hpos h.nodes hin).2
  have hηs : f.underflow * val step ≤ 1 / 100 * (1 / 1000) * val step := by
    have : f.underflow ≤ 1 / 100 * (1 / 1000) := by linarith
    gcongr
  have hηw : f.underflow * (val x1 - val x0) ≤ f.underflow * (103 / 100 * val step) := by gcongr
  have hηs0 : 0 ≤ f.underflow * val step := by positivity
  -- the linear formula
  have hlin : ∃ r, linear1 fma ⟨x0, vals.getD c zero, x1, vals.getD (c + 1) zero, ex⟩ x = r ∧
      Finite r ∧ |val r - linPiece (fun i : Nat => val start + val step * (i : ℚ))
        (fun i => (vals.map val).getD i 0) d (val x)| ≤
        25 * (1 + κ) * f.unitRoundoff * M + 3 * f.underflow * (1 + val step) := by
    have key := rounds_linear1 (rounds f) hu fma ex hx0 hx1 hy0 hy1 hx (by linarith) hy0M hy1M hR
      (by linarith) (by
        have h3 : |(val x - val x0) / (val x1 - val x0)| * (val x1 - val x0) ≤
            6 / 5 * (103 / 100 * val step) := by gcongr; linarith
        rw [abs_div, abs_of_pos (show 0 < val x1 - val x0 by linarith),
          div_mul_cancel₀ _ (by linarith)] at h3
        linarith) (by
        have : f.omega * (97 / 100 * val step) ≤ f.omega * (val x1 - val x0) := by
          have : 0 ≤ f.omega := by linarith
          gcongr
        linarith) (by linarith)
    refine ⟨_, rfl, key.1, ?_⟩
    have hrule := regular_rule_close hpos hd hcell hq' hE hfM
    rw [hy0e, hy1e] at hrule
    have h5 := abs_add_le (val (linear1 fma ⟨x0, vals.getD c zero, x1, vals.getD (c + 1) zero, ex⟩ x) -
      (val (vals.getD c zero) + (val (vals.getD (c + 1) zero) - val (vals.getD c zero)) *
        ((val x - val x0) / (val x1 - val x0))))
      ((1 - (val x - val x0) / (val x1 - val x0)) * val (vals.getD c zero) +
        (val x - val x0) / (val x1 - val x0) * val (vals.getD (c + 1) zero) -
        linPiece (fun i : Nat => val start + val step * (i : ℚ))
          (fun i => (vals.map val).getD i 0) d (val x))
    rw [show ∀ a b t r y : ℚ, r - (a + (b - a) * t) + ((1 - t) * a + t * b - y) = r - y by
      intros; ring] at h5
    have h6 : 0 ≤ f.unitRoundoff * M := by positivity
    have h7 : 0 ≤ f.unitRoundoff * κ * M := by positivity
    refine h5.trans ((add_le_add key.2 hrule).trans ?_)
    linarith
  rw [regular1DAt_of_sample kind fma hsmp]
  obtain ⟨r, hr, hrf, hre⟩ := hlin
  rcases hk with rfl | rfl
  · exact ⟨r, _, by rw [← hr]; rfl, hrf, hexact, hre⟩
  · cases ex with
    | inside => exact ⟨r, _, by rw [← hr]; rfl, hrf, hexact, hre⟩
    | outsideLow => exact absurd rfl hlow
    | outsideHigh =>
      refine ⟨vals.getD (c + 1) zero, _, rfl, hy1, hexact, ?_⟩
      obtain ⟨hc2, hq⟩ := hhigh rfl
      have hincr : Incr vals.length fun i : Nat => val start + val step * (i : ℚ) := fun i _ => by
        show val start + val step * (i : ℚ) < val start + val step * ((i + 1 : Nat) : ℚ)
        push_cast; linarith
      set q := (val x - val start) / val step with hqd
      have hxq : val x = val start + val step * q := by
        rw [hqd, mul_div_cancel₀ _ hpos.ne']; ring
      have hc1 : (((vals.length - 1 : Nat) : ℚ)) = (c : ℚ) + 1 := by
        rw [show vals.length - 1 = c + 1 by omega]; push_cast; rfl
      rw [hc1] at hq
      have hq2 : q ≤ (c : ℚ) + 1 := by
        rw [hqd, div_le_iff₀ hpos, ← hc1]
        have := hin.2
        simp only at this
        linarith
      have hdc : InCell vals.length (fun i : Nat => val start + val step * (i : ℚ)) (val x) c := by
        refine ⟨hcn, .inr ?_, .inl (by omega)⟩
        show val start + val step * (c : ℚ) ≤ val x
        rw [hxq]
        have : (c : ℚ) ≤ q := by linarith
        have : val step * (c : ℚ) ≤ val step * q := by gcongr
        linarith
      rw [linPiece_unique hincr _ hd hdc]
      have e : val (vals.getD (c + 1) zero) - linPiece (fun i : Nat => val start + val step * (i : ℚ))
          (fun i => (vals.map val).getD i 0) c (val x) =
          (val (vals.getD (c + 1) zero) - val (vals.getD c zero)) * ((c : ℚ) + 1 - q) := by
        unfold linPiece
        simp only [hy0e, hy1e]
        rw [hxq]
        push_cast
        rw [show val start + val step * q - (val start + val step * (c : ℚ)) = val step * (q - c) by ring,
          show val start + val step * ((c : ℚ) + 1) - (val start + val step * c) = val step by ring,
          mul_div_cancel_left₀ _ hpos.ne']
        ring
      rw [e, abs_mul]
      have h3 : |val (vals.getD (c + 1) zero) - val (vals.getD c zero)| ≤ 2 * M := by
        have := abs_sub (val (vals.getD (c + 1) zero)) (val (vals.getD c zero)); linarith
      have h4 : |(c : ℚ) + 1 - q| ≤
          301 / 100 * (f.unitRoundoff * κ) + 101 / 100 * f.unitRoundoff := by
        rw [abs_of_nonneg (by linarith)]; linarith
      have h5 : |val (vals.getD (c + 1) zero) - val (vals.getD c zero)| * |(c : ℚ) + 1 - q| ≤
          2 * M * (301 / 100 * (f.unitRoundoff * κ) + 101 / 100 * f.unitRoundoff) := by gcongr
      have h6 : 0 ≤ f.unitRoundoff * M := by positivity
      have h7 : 0 ≤ f.unitRoundoff * κ * M := by positivity
      linarith

/-- A node near `x` is almost as close as every node, if it is one of two neighbours around `x`. -/
theorem close_of_cell {q δ : ℚ} {c j : Nat} (h1 : -δ ≤ q - c) (h2 : q - c ≤ 1 + δ) (hδ : 0 ≤ δ) :
    |q - c| ≤ |q - j| + δ ∨ |q - (c + 1 : Nat)| ≤ |q - j| + δ := by
  rcases Nat.lt_or_ge c j with h | h
  · right
    have hj : (c : ℚ) + 1 ≤ j := by exact_mod_cast h
    push_cast
    rcases abs_cases (q - (c + 1 : ℚ)) with ⟨ha, ha'⟩ | ⟨ha, ha'⟩ <;>
      rcases abs_cases (q - (j : ℚ)) with ⟨hb, hb'⟩ | ⟨hb, hb'⟩ <;> rw [ha, hb] <;> linarith
  · left
    have hj : (j : ℚ) ≤ c := by exact_mod_cast h
    rcases abs_cases (q - (c : ℚ)) with ⟨ha, ha'⟩ | ⟨ha, ha'⟩ <;>
      rcases abs_cases (q - (j : ℚ)) with ⟨hb, hb'⟩ | ⟨hb, hb'⟩ <;> rw [ha, hb] <;> linarith

/-- `Left1D`, `Right1D` and `Nearest1D` on a regular grid, for a format of moderate precision. -/
theorem hold1D_regular_ieee (h : Regular1DOk κ start step vals.length) (hs : IsSlice vals)
    (hu : f.unitRoundoff ≤ 1 / 1000) (hη : f.underflow ≤ f.unitRoundoff / 100)
    (hΩ1 : 2 ^ 70 ≤ f.omega) (hp : f.p ≤ 53) (fma : Bool) (hx : Finite x)
    (hin : InRange vals.length (fun i : Nat => val start + val step * (i : ℚ)) (val x)) :
    (∃ (i : Nat) (v : _), vals[i]? = some v ∧ regular1DAt (Kind1D.left.evalOne fma) start step vals x = .ok v ∧
      val start + val step * (i : ℚ) ≤ val x + 5 * (1 + κ) * f.unitRoundoff * val step ∧
      val x ≤ val start + val step * ((i + 1 : Nat) : ℚ) +
        5 * (1 + κ) * f.unitRoundoff * val step) ∧
    (∃ (i : Nat) (v : _), vals[i + 1]? = some v ∧
      regular1DAt (Kind1D.right.evalOne fma) start step vals x = .ok v ∧
      val start + val step * (i : ℚ) ≤ val x + 5 * (1 + κ) * f.unitRoundoff * val step ∧
      val x ≤ val start + val step * ((i + 1 : Nat) : ℚ) +
        5 * (1 + κ) * f.unitRoundoff * val step) ∧
    (∃ (i : Nat) (v : _), vals[i]? = some v ∧ regular1DAt (Kind1D.nearest.evalOne fma) start step vals x = .ok v ∧
      NearestWithin vals.length (fun i : Nat => val start + val step * (i : ℚ)) (val x)
        (12 * (1 + κ) * f.unitRoundoff * val step) i) := by
  have h2 := h.big
  have hu0 := (rounds f).u_nonneg
  have hpos := h.pos
  have hκ := h.size.1
  obtain ⟨c, x0, x1, ex, q', hsmp, hcell, hq', ht1, ht2, hx0, hx1, he0, he1, hlow, hhigh⟩ :=
    h.sample hs hu hη hΩ1 hp hx hin
  have huκ : f.unitRoundoff * κ ≤ 1 / 100 := by have := h.size.2; nlinarith
  have huκ0 : 0 ≤ f.unitRoundoff * κ := by positivity
  obtain ⟨hw1, hw2, hE, hR⟩ := sample_weight hu0 hpos hκ hu huκ ht1 ht2 he0 he1
  have hcn := hcell.1
  have hget : ∀ i < vals.length, vals[i]? = some (vals.getD i zero) := fun i hi => by
    rw [List.getElem?_eq_getElem hi, List.getD_eq_getElem _ _ hi]
  set q := (val x - val start) / val step with hqd
  have hxq : val x = val start + val step * q := by
    rw [hqd, mul_div_cancel₀ _ hpos.ne']; ring
  set u := f.unitRoundoff with hud
  have hus : 0 ≤ u * val step := by positivity
  have huκs : 0 ≤ u * κ * val step := by positivity
  have hlo : val start + val step * (c : ℚ) ≤ val x + 5 * (1 + κ) * u * val step := by
    have : val step * (-(402 / 100 * (u * κ) + u / 100)) ≤ val step * (q - c) := by gcongr
    linarith
  have hhi : val x ≤ val start + val step * ((c + 1 : Nat) : ℚ) + 5 * (1 + κ) * u * val step := by
    have : val step * (q - c) ≤ val step * (1 + (402 / 100 * (u * κ) + u / 100)) := by gcongr
    push_cast
    linarith
  refine ⟨?_, ?_, ?_⟩
  · rw [regular1DAt_of_sample _ fma hsmp]
    by_cases hex : ex = .outsideHigh
    · obtain ⟨hc2, hq⟩ := hhigh hex
      have hc1 : (((vals.length - 1 : Nat) : ℚ)) = ((c + 1 : Nat) : ℚ) := by
        rw [show vals.length - 1 = c + 1 by omega]
      rw [hc1] at hq
      refine ⟨c + 1, _, hget _ hcn, by rw [hex]; rfl, ?_, ?_⟩
      · have : val step * (((c + 1 : Nat) : ℚ) - (301 / 100 * (u * κ) + 101 / 100 * u)) ≤
            val step * q := by gcongr
        linarith
      · have := hin.2
        simp only at this
        rw [hc1] at this
        push_cast at this ⊢
        linarith
    · exact ⟨c, _, hget _ (by omega), left_ok fma hex, hlo, hhi⟩
  · rw [regular1DAt_of_sample _ fma hsmp]
    exact ⟨c, _, hget _ hcn, right_ok fma hlow, hlo, hhi⟩
  · rw [regular1DAt_of_sample _ fma hsmp]
    simp only [Kind1D.evalOne, Nearest1D.evalOne, Res.ok_bind, Res.pure_eq]
    have hΩ0 : 2 * val step + 1 ≤ f.omega := by
      have h3 := h.large
      have h4 := (regular_units hpos h.nodes hin).1
      have h5 : (1 : ℚ) ≤ ((vals.length - 1 : Nat) : ℚ) := by
        exact_mod_cast (by omega : 1 ≤ vals.length - 1)
      have : 1 / 2 * val step ≤ κ * val step := by gcongr; linarith
      linarith
    have hw0 : 0 < val x1 - val x0 := by linarith
    have hd0 : |val x - val x0| ≤ 125 / 100 * val step := by
      have h3 : |(val x - val x0) / (val x1 - val x0)| * (val x1 - val x0) ≤
          6 / 5 * (103 / 100 * val step) := by gcongr
      rw [abs_div, abs_of_pos hw0, div_mul_cancel₀ _ hw0.ne'] at h3
      linarith
    have hd1 : |val x - val x1| ≤ 125 / 100 * val step := by
      have e0 := abs_le.1 he0
      have e1 := abs_le.1 he1
      have b0 : (301 / 100 * (u * κ) + 101 / 100 * u) * val step ≤ 5 / 100 * val step := by
        gcongr; linarith
      have b1 : (u * κ + 105 / 100 * u) * val step ≤ 2 / 100 * val step := by gcongr; linarith
      have b2 : val step * (q - c) ≤ val step * (1 + 5 / 100) := by gcongr; linarith
      have b3 : val step * (-(5 / 100)) ≤ val step * (q - c) := by gcongr; linarith
      rw [abs_le]
      constructor <;> linarith
    have hs0 := (rounds f).sub x x0 hx hx0 (by linarith [mul_nonneg hκ hpos.le])
    have hs1 := (rounds f).sub x x1 hx hx1 (by linarith [mul_nonneg hκ hpos.le])
    obtain ⟨hf0, ha0⟩ := abs_fin hs0.1
    obtain ⟨hf1, ha1⟩ := abs_fin hs1.1
    have hle := exactCompareLe f _ _ hf0 hf1
    rw [ha0, ha1] at hle
    -- computed distances in units of the step
    have hdist : ∀ {a b : ℚ} {e : ℚ} {i : Nat}, |a - (val x - b)| ≤ u * |val x - b| →
        |val x - b| ≤ 125 / 100 * val step → |b - (val start + val step * (i : ℚ))| ≤ e * val step →
        |(|a|) - |q - i| * val step| ≤ (e + 125 / 100 * u) * val step := by
      intro a b e i hab hb he
      have h3 : |q - i| * val step = |val x - (val start + val step * (i : ℚ))| := by
        rw [hxq, show val start + val step * q - (val start + val step * (i : ℚ)) = (q - i) * val step by
          ring, abs_mul, abs_of_pos hpos]
      rw [h3]
      refine (abs_abs_sub_abs_le _ _).trans ?_
      have h4 := abs_add_le (a - (val x - b)) (-(b - (val start + val step * (i : ℚ))))
      rw [abs_neg] at h4
      rw [show a - (val x - b) + -(b - (val start + val step * (i : ℚ))) =
        a - (val x - (val start + val step * (i : ℚ))) by ring] at h4
      have h5 : u * |val x - b| ≤ u * (125 / 100 * val step) := by gcongr
      linarith
    have g0 := hdist hs0.2 hd0 he0
    have he1' : |val x1 - (val start + val step * ((c + 1 : Nat) : ℚ))| ≤
        (401 / 100 * (u * κ) + 206 / 100 * u) * val step := by
      have h4 := abs_add_le (val x1 - val x0 - val step) (val x0 - (val start + val step * (c : ℚ)))
      rw [show val x1 - val x0 - val step + (val x0 - (val start + val step * (c : ℚ))) =
        val x1 - (val start + val step * ((c + 1 : Nat) : ℚ)) by push_cast; ring] at h4
      linarith
    have g1 := hdist hs1.2 hd1 he1'
    have g0 := abs_le.1 g0
    have g1 := abs_le.1 g1
    have hfinal : ∀ i j : Nat, |q - i| * val step ≤
        (|q - j| + (1104 / 100 * (u * κ) + 57 / 10 * u)) * val step →
        |val x - (val start + val step * (i : ℚ))| ≤
          |val x - (val start + val step * (j : ℚ))| + 12 * (1 + κ) * u * val step := by
      intro i j hij
      have h3 : ∀ i : Nat, |q - i| * val step = |val x - (val start + val step * (i : ℚ))| := fun i => by
        rw [hxq, show val start + val step * q - (val start + val step * (i : ℚ)) = (q - i) * val step by
          ring, abs_mul, abs_of_pos hpos]
      rw [← h3, ← h3]
      linarith
    have hδ0 : 0 ≤ 402 / 100 * (u * κ) + u / 100 := by positivity
    by_cases hb : |val (x -. x0)| ≤ |val (x -. x1)|
    · rw [if_pos (hle.2 hb)]
      refine ⟨c, _, hget c (by omega), rfl, by omega, fun j hj => hfinal c j ?_⟩
      rcases close_of_cell (j := j) ht1 ht2 hδ0 with hc | hc
      · have := mul_le_mul_of_nonneg_right hc hpos.le
        linarith
      · have := mul_le_mul_of_nonneg_right hc hpos.le
        linarith
    · rw [if_neg fun hh => hb (hle.1 hh)]
      refine ⟨c + 1, _, hget (c + 1) hcn, rfl, hcn, fun j hj => hfinal (c + 1) j ?_⟩
      rcases close_of_cell (j := j) ht1 ht2 hδ0 with hc | hc
      · have := mul_le_mul_of_nonneg_right hc hpos.le
        linarith
      · have := mul_le_mul_of_nonneg_right hc hpos.le
        linarith

end

/-! ### The formats -/

section
variable {grid vals : List F64} {x : F64} {κ : ℚ}

/-- C90, `f64`: `Linear1D` and `LinearHoldLast1D` on a rectilinear grid with cells at most `W` wide,
in range. No cell may be so narrow that the slope overflows. -/
theorem C90_linear_rectilinear_f64 (h : Grid1DOk grid vals) (fma : Bool) (kind : Kind1D)
    (hk : kind = .linear ∨ kind = .linearHoldLast) (hgrid : ∀ a ∈ grid, |val a| ≤ 2 ^ 1022)
    (M W : ℚ) (hM : M ≤ 2 ^ 1020) (hvals : ∀ v ∈ vals, Finite v ∧ |val v| ≤ M)
    (hwidth : ∀ i, i + 1 < grid.length → nodes1D grid (i + 1) - nodes1D grid i ≤ W ∧
      3 * M ≤ 2 ^ 1023 * (nodes1D grid (i + 1) - nodes1D grid i))
    (hx : Finite x) (hin : InRange grid.length (nodes1D grid) (val x)) :
    ∃ r y, rectilinear1DAt (kind.evalOne fma) grid vals x = .ok r ∧ Finite r ∧
      interp1DAt kind fma (.rectilinear fun _ => grid.map val) (vals.map val) (val x) = .ok y ∧
      |val r - y| ≤ 15 * (1 / 2 ^ 53) * M + 2 * (1 / 2 ^ 1075) * (1 + W) := by
  have hΩ := binary64_Ω
  obtain ⟨r, y, h1, h2, h3, h4⟩ := linear1D_rectilinear_ieee h (by rw [binary64_u]; norm_num)
    (by rw [binary64_u, binary64_η]; norm_num) (le_trans (by norm_num) hΩ) fma
    (fun a ha => le_trans (by have := hgrid a ha; linarith) hΩ) M W (le_trans (by linarith) hΩ) hvals
    (fun i hi => ⟨(hwidth i hi).1, (hwidth i hi).2.trans (by
      have := h.increasing i hi
      have : 0 ≤ nodes1D grid (i + 1) - nodes1D grid i := by linarith
      gcongr)⟩) hx hin
  rw [binary64_u, binary64_η] at h4
  rcases hk with rfl | rfl
  · exact ⟨r, y, h1, h2, h3, h4⟩
  · refine ⟨r, y, by rw [(C90_hold_last_rectilinear h fma hx).2.2 hin]; exact h1, h2, ?_, h4⟩
    rw [(C41_cases fma h.valid (val x) trivial).2.2 (by
      have e : (Axes.rectilinear fun _ : Fin 1 => grid.map val).size 0 = grid.length := by
        simp [Axes.size]
      rw [e]; exact hin)]
    exact h3

/-- C90, `f64`: `Linear1D` and `LinearHoldLast1D` on a regular grid, in range. -/
theorem C90_linear_regular_f64 {start step : F64} (h : Regular1DOk κ start step vals.length)
    (hs : IsSlice vals) (fma : Bool) (kind : Kind1D) (hk : kind = .linear ∨ kind = .linearHoldLast)
    (M : ℚ) (hM : M ≤ 2 ^ 1020) (hslope : 4 * M ≤ 2 ^ 1023 * val step)
    (hvals : ∀ v ∈ vals, Finite v ∧ |val v| ≤ M) (hx : Finite x)
    (hin : InRange vals.length (fun i : Nat => val start + val step * (i : ℚ)) (val x)) :
    ∃ r y, regular1DAt (kind.evalOne fma) start step vals x = .ok r ∧ Finite r ∧
      interp1DAt kind fma (.regular (fun _ => vals.length) (fun _ => val start) fun _ => val step)
        (vals.map val) (val x) = .ok y ∧
      |val r - y| ≤ 25 * (1 + κ) * (1 / 2 ^ 53) * M + 3 * (1 / 2 ^ 1075) * (1 + val step) := by
  have hΩ := binary64_Ω
  have := linear1D_regular_ieee h hs (by rw [binary64_u]; norm_num)
    (by rw [binary64_u, binary64_η]; norm_num) (le_trans (by norm_num) hΩ) le_rfl fma kind hk M
    (le_trans (by linarith) hΩ) (hslope.trans (by have := h.pos; gcongr)) hvals hx hin
  rwa [binary64_u, binary64_η] at this

/-- C90, `f64`: `Left1D`, `Right1D` and `Nearest1D` on a regular grid, in range, choose the node that
exact arithmetic chooses, or one as good up to rounding. -/
theorem C90_hold_regular_f64 {start step : F64} (h : Regular1DOk κ start step vals.length)
    (hs : IsSlice vals) (fma : Bool) (hx : Finite x)
    (hin : InRange vals.length (fun i : Nat => val start + val step * (i : ℚ)) (val x)) :
    (∃ (i : Nat) (v : _), vals[i]? = some v ∧ regular1DAt (Kind1D.left.evalOne fma) start step vals x = .ok v ∧
      val start + val step * (i : ℚ) ≤ val x + 5 * (1 + κ) * (1 / 2 ^ 53) * val step ∧
      val x ≤ val start + val step * ((i + 1 : Nat) : ℚ) + 5 * (1 + κ) * (1 / 2 ^ 53) * val step) ∧
    (∃ (i : Nat) (v : _), vals[i + 1]? = some v ∧
      regular1DAt (Kind1D.right.evalOne fma) start step vals x = .ok v ∧
      val start + val step * (i : ℚ) ≤ val x + 5 * (1 + κ) * (1 / 2 ^ 53) * val step ∧
      val x ≤ val start + val step * ((i + 1 : Nat) : ℚ) + 5 * (1 + κ) * (1 / 2 ^ 53) * val step) ∧
    (∃ (i : Nat) (v : _), vals[i]? = some v ∧ regular1DAt (Kind1D.nearest.evalOne fma) start step vals x = .ok v ∧
      NearestWithin vals.length (fun i : Nat => val start + val step * (i : ℚ)) (val x)
        (12 * (1 + κ) * (1 / 2 ^ 53) * val step) i) := by
  have hΩ := binary64_Ω
  have := hold1D_regular_ieee h hs (by rw [binary64_u]; norm_num)
    (by rw [binary64_u, binary64_η]; norm_num) (le_trans (by norm_num) hΩ) le_rfl fma hx hin
  rwa [binary64_u] at this

end

section
variable {grid vals : List F32} {x : F32} {κ : ℚ}

/-- C90, `f32`: as `C90_linear_rectilinear_f64`. -/
theorem C90_linear_rectilinear_f32 (h : Grid1DOk grid vals) (fma : Bool) (kind : Kind1D)
    (hk : kind = .linear ∨ kind = .linearHoldLast) (hgrid : ∀ a ∈ grid, |val a| ≤ 2 ^ 126)
    (M W : ℚ) (hM : M ≤ 2 ^ 124) (hvals : ∀ v ∈ vals, Finite v ∧ |val v| ≤ M)
    (hwidth : ∀ i, i + 1 < grid.length → nodes1D grid (i + 1) - nodes1D grid i ≤ W ∧
      3 * M ≤ 2 ^ 127 * (nodes1D grid (i + 1) - nodes1D grid i))
    (hx : Finite x) (hin : InRange grid.length (nodes1D grid) (val x)) :
    ∃ r y, rectilinear1DAt (kind.evalOne fma) grid vals x = .ok r ∧ Finite r ∧
      interp1DAt kind fma (.rectilinear fun _ => grid.map val) (vals.map val) (val x) = .ok y ∧
      |val r - y| ≤ 15 * (1 / 2 ^ 24) * M + 2 * (1 / 2 ^ 150) * (1 + W) := by
  have hΩ := binary32_Ω
  obtain ⟨r, y, h1, h2, h3, h4⟩ := linear1D_rectilinear_ieee h (by rw [binary32_u]; norm_num)
    (by rw [binary32_u, binary32_η]; norm_num) (le_trans (by norm_num) hΩ) fma
    (fun a ha => le_trans (by have := hgrid a ha; linarith) hΩ) M W (le_trans (by linarith) hΩ) hvals
    (fun i hi => ⟨(hwidth i hi).1, (hwidth i hi).2.trans (by
      have := h.increasing i hi
      have : 0 ≤ nodes1D grid (i + 1) - nodes1D grid i := by linarith
      gcongr)⟩) hx hin
  rw [binary32_u, binary32_η] at h4
  rcases hk with rfl | rfl
  · exact ⟨r, y, h1, h2, h3, h4⟩
  · refine ⟨r, y, by rw [(C90_hold_last_rectilinear h fma hx).2.2 hin]; exact h1, h2, ?_, h4⟩
    rw [(C41_cases fma h.valid (val x) trivial).2.2 (by
      have e : (Axes.rectilinear fun _ : Fin 1 => grid.map val).size 0 = grid.length := by
        simp [Axes.size]
      rw [e]; exact hin)]
    exact h3

/-- C90, `f32`: as `C90_linear_regular_f64`. -/
theorem C90_linear_regular_f32 {start step : F32} (h : Regular1DOk κ start step vals.length)
    (hs : IsSlice vals) (fma : Bool) (kind : Kind1D) (hk : kind = .linear ∨ kind = .linearHoldLast)
    (M : ℚ) (hM : M ≤ 2 ^ 124) (hslope : 4 * M ≤ 2 ^ 127 * val step)
    (hvals : ∀ v ∈ vals, Finite v ∧ |val v| ≤ M) (hx : Finite x)
    (hin : InRange vals.length (fun i : Nat => val start + val step * (i : ℚ)) (val x)) :
    ∃ r y, regular1DAt (kind.evalOne fma) start step vals x = .ok r ∧ Finite r ∧
      interp1DAt kind fma (.regular (fun _ => vals.length) (fun _ => val start) fun _ => val step)
        (vals.map val) (val x) = .ok y ∧
      |val r - y| ≤ 25 * (1 + κ) * (1 / 2 ^ 24) * M + 3 * (1 / 2 ^ 150) * (1 + val step) := by
  have hΩ := binary32_Ω
  have := linear1D_regular_ieee h hs (by rw [binary32_u]; norm_num)
    (by rw [binary32_u, binary32_η]; norm_num) (le_trans (by norm_num) hΩ) (by decide) fma kind hk M
    (le_trans (by linarith) hΩ) (hslope.trans (by have := h.pos; gcongr)) hvals hx hin
  rwa [binary32_u, binary32_η] at this

/-- C90, `f32`: as `C90_hold_regular_f64`. -/
theorem C90_hold_regular_f32 {start step : F32} (h : Regular1DOk κ start step vals.length)
    (hs : IsSlice vals) (fma : Bool) (hx : Finite x)
    (hin : InRange vals.length (fun i : Nat => val start + val step * (i : ℚ)) (val x)) :
    (∃ (i : Nat) (v : _), vals[i]? = some v ∧ regular1DAt (Kind1D.left.evalOne fma) start step vals x = .ok v ∧
      val start + val step * (i : ℚ) ≤ val x + 5 * (1 + κ) * (1 / 2 ^ 24) * val step ∧
      val x ≤ val start + val step * ((i + 1 : Nat) : ℚ) + 5 * (1 + κ) * (1 / 2 ^ 24) * val step) ∧
    (∃ (i : Nat) (v : _), vals[i + 1]? = some v ∧
      regular1DAt (Kind1D.right.evalOne fma) start step vals x = .ok v ∧
      val start + val step * (i : ℚ) ≤ val x + 5 * (1 + κ) * (1 / 2 ^ 24) * val step ∧
      val x ≤ val start + val step * ((i + 1 : Nat) : ℚ) + 5 * (1 + κ) * (1 / 2 ^ 24) * val step) ∧
    (∃ (i : Nat) (v : _), vals[i]? = some v ∧ regular1DAt (Kind1D.nearest.evalOne fma) start step vals x = .ok v ∧
      NearestWithin vals.length (fun i : Nat => val start + val step * (i : ℚ)) (val x)
        (12 * (1 + κ) * (1 / 2 ^ 24) * val step) i) := by
  have hΩ := binary32_Ω
  have := hold1D_regular_ieee h hs (by rw [binary32_u]; norm_num)
    (by rw [binary32_u, binary32_η]; norm_num) (le_trans (by norm_num) hΩ) (by decide) fma hx hin
  rwa [binary32_u] at this

end

/-! ### What does not hold -/

/-- C90: the slope of a narrow cell can overflow; `Linear1D` then gives NaN even at a node, where
`multilinear` returns the stored value. -/
theorem C90_slope_overflow :
    rectilinear1DAt (Kind1D.linear.evalOne false) [q64 0, q64 (1 / 2 ^ 100)] [q64 0, q64 (2 ^ 1000)]
      (q64 0) = .ok .nan ∧
    multilinearRectilinearAt .flat false (N := 1) (fun _ => [q64 0, q64 (1 / 2 ^ 100)])
      [q64 0, q64 (2 ^ 1000)] (fun _ => q64 0) = .ok (q64 0) := by
  decide +kernel

/-- C90: far above the grid `Nearest1D` returns the last value but one, since both distances round to
the same number; N-dimensional nearest-neighbor interpolation returns the last value. -/
theorem C90_nearest_far :
    rectilinear1DAt (Kind1D.nearest.evalOne false) [q64 0, q64 1] [q64 5, q64 7] (q64 (2 ^ 60)) =
      .ok (q64 5) ∧
    nearestRectilinearAt (N := 1) (fun _ => [q64 0, q64 1]) [q64 5, q64 7] (fun _ => q64 (2 ^ 60)) =
      .ok (q64 7) := by
  decide +kernel

/-- C90: `Linear1D` can exceed the largest stored value, in range: with values 0 and 0.9 at 0 and 7
the result at 7 is the next number after 0.9. -/
theorem C90_overshoot :
    rectilinear1DAt (Kind1D.linear.evalOne false) [q64 0, q64 7] [q64 0, q64 (9 / 10)]
      (q64 7) = .ok (q64 (9 / 10 + 1 / 2 ^ 53)) ∧
    val (q64 (9 / 10)) < val (q64 (9 / 10 + 1 / 2 ^ 53)) := by
  decide +kernel

/-! ### Concrete cases -/

theorem cells_of {n : Nat} {P : Nat → Prop} (h : ∀ i < n - 1, P i) : ∀ i, i + 1 < n → P i :=
  fun i hi => h i (by omega)

/-- The grid of the examples is usable. -/
theorem exGrid1D_ok : Grid1DOk [q64 0, q64 (1 / 10), q64 4] [q64 2, q64 6, q64 (-7)] :=
  ⟨(isSlice_iff _).2 (by decide), rfl, by decide, by decide +kernel, cells_of (by decide +kernel)⟩

/-- The same in `f32`. -/
theorem exGrid1D_ok32 : Grid1DOk [q32 0, q32 (1 / 10), q32 4] [q32 2, q32 6, q32 (-7)] :=
  ⟨(isSlice_iff _).2 (by decide), rfl, by decide, by decide +kernel, cells_of (by decide +kernel)⟩

/-- `C90_left_rectilinear` and `C90_right_rectilinear` at the middle node and above the grid. -/
example : rectilinear1DAt (Kind1D.left.evalOne true) [q64 0, q64 (1 / 10), q64 4]
      [q64 2, q64 6, q64 (-7)] (q64 (1 / 10)) = .ok (q64 2) ∧
    rectilinear1DAt (Kind1D.right.evalOne true) [q64 0, q64 (1 / 10), q64 4]
      [q64 2, q64 6, q64 (-7)] (q64 (1 / 10)) = .ok (q64 6) ∧
    rectilinear1DAt (Kind1D.linearHoldLast.evalOne true) [q64 0, q64 (1 / 10), q64 4]
      [q64 2, q64 6, q64 (-7)] (q64 9) = .ok (q64 (-7)) := by
  refine ⟨?_, ?_, ?_⟩
  · have := (C90_left_rectilinear exGrid1D_ok true (x := q64 (1 / 10)) (by decide +kernel)).2.1 0
      (by decide) (by decide +kernel) (by decide +kernel)
    exact Option.some.inj this
  · have := (C90_right_rectilinear exGrid1D_ok true (x := q64 (1 / 10)) (by decide +kernel)).2.2.1 0
      (by decide) (by decide +kernel) (by decide +kernel)
    exact Option.some.inj this
  · have := (C90_hold_last_rectilinear exGrid1D_ok true (x := q64 9) (by decide +kernel)).2.1
      (by decide +kernel)
    exact Option.some.inj this

/-- Hypotheses of `C90_nearest_rectilinear` are satisfied. -/
example : ∃ i v, [q64 2, q64 6, q64 (-7)][i]? = some v ∧
    rectilinear1DAt (Kind1D.nearest.evalOne true) [q64 0, q64 (1 / 10), q64 4]
      [q64 2, q64 6, q64 (-7)] (q64 3) = .ok v ∧
    |val (q64 3) - nodes1D [q64 0, q64 (1 / 10), q64 4] i| ≤ 11 / 10 := by
  obtain ⟨i, v, h1, h2, h3⟩ := C90_nearest_rectilinear exGrid1D_ok (by rw [binary64_u]; norm_num) true
    (fun a ha => le_trans (show 2 * |val a| ≤ 2 ^ 1023 by revert a; decide +kernel) binary64_Ω)
    (x := q64 3) (by decide +kernel) (le_trans (by decide +kernel) binary64_Ω)
  refine ⟨i, v, h1, h2, (h3 2 (by decide)).trans ?_⟩
  rw [binary64_u]
  decide +kernel

/-- Hypotheses of `C90_linear_rectilinear_f64` are satisfied. -/
example : ∃ r y, rectilinear1DAt (Kind1D.linear.evalOne true) [q64 0, q64 (1 / 10), q64 4]
      [q64 2, q64 6, q64 (-7)] (q64 (1 / 3)) = .ok r ∧
    interp1DAt .linear true (.rectilinear fun _ => [q64 0, q64 (1 / 10), q64 4].map val)
      ([q64 2, q64 6, q64 (-7)].map val) (val (q64 (1 / 3))) = .ok y ∧ |val r - y| ≤ 1 / 10 ^ 13 := by
  obtain ⟨r, y, h1, -, h3, h4⟩ := C90_linear_rectilinear_f64 exGrid1D_ok true .linear (.inl rfl)
    (by decide +kernel) 7 4 (by norm_num) (by decide +kernel) (cells_of (by decide +kernel))
    (x := q64 (1 / 3)) (by decide +kernel) (by unfold InRange; decide +kernel)
  exact ⟨r, y, h1, h3, h4.trans (by norm_num)⟩

/-- Hypotheses of `C90_linear_rectilinear_f32` are satisfied. -/
example : ∃ r y, rectilinear1DAt (Kind1D.linearHoldLast.evalOne true) [q32 0, q32 (1 / 10), q32 4]
      [q32 2, q32 6, q32 (-7)] (q32 (1 / 3)) = .ok r ∧
    interp1DAt .linearHoldLast true (.rectilinear fun _ => [q32 0, q32 (1 / 10), q32 4].map val)
      ([q32 2, q32 6, q32 (-7)].map val) (val (q32 (1 / 3))) = .ok y ∧ |val r - y| ≤ 1 / 10 ^ 4 := by
  obtain ⟨r, y, h1, -, h3, h4⟩ := C90_linear_rectilinear_f32 exGrid1D_ok32 true .linearHoldLast
    (.inr rfl) (by decide +kernel) 7 4 (by norm_num) (by decide +kernel) (cells_of (by decide +kernel))
    (x := q32 (1 / 3)) (by decide +kernel) (by unfold InRange; decide +kernel)
  exact ⟨r, y, h1, h3, h4.trans (by norm_num)⟩

/-- A regular grid with nodes 0.1, 0.2, 0.3. -/
theorem exRegular1D_ok : Regular1DOk 4 (q64 (1 / 10)) (q64 (1 / 10)) [q64 2, q64 6, q64 (-7)].length where
  big := by decide
  finite := by decide +kernel
  pos := by decide +kernel
  normal := by rw [binary64_u, binary64_η]; decide +kernel
  size := by rw [binary64_u]; norm_num
  nodes := by decide +kernel
  large := le_trans (by decide +kernel) binary64_Ω

/-- The same in `f32`. -/
theorem exRegular1D_ok32 :
    Regular1DOk 4 (q32 (1 / 10)) (q32 (1 / 10)) [q32 2, q32 6, q32 (-7)].length where
  big := by decide
  finite := by decide +kernel
  pos := by decide +kernel
  normal := by rw [binary32_u, binary32_η]; decide +kernel
  size := by rw [binary32_u]; norm_num
  nodes := by decide +kernel
  large := le_trans (by decide +kernel) binary32_Ω

/-- Hypotheses of `C90_linear_regular_f64` and `C90_hold_regular_f64` are satisfied. -/
example : ∃ r y, regular1DAt (Kind1D.linear.evalOne true) (q64 (1 / 10)) (q64 (1 / 10))
      [q64 2, q64 6, q64 (-7)] (q64 (2 / 7)) = .ok r ∧
    interp1DAt .linear true (.regular (fun _ => 3) (fun _ => val (q64 (1 / 10)))
      fun _ => val (q64 (1 / 10))) ([q64 2, q64 6, q64 (-7)].map val) (val (q64 (2 / 7))) = .ok y ∧
    |val r - y| ≤ 1 / 10 ^ 12 := by
  obtain ⟨r, y, h1, -, h3, h4⟩ := C90_linear_regular_f64 exRegular1D_ok
    ((isSlice_iff _).2 (by decide)) true .linear (.inl rfl) 7 (by norm_num) (by decide +kernel)
    (by decide +kernel) (x := q64 (2 / 7)) (by decide +kernel) (by unfold InRange; decide +kernel)
  refine ⟨r, y, h1, h3, h4.trans ?_⟩
  decide +kernel

/-- Hypotheses of `C90_hold_regular_f64` are satisfied. -/
example : ∃ (i : Nat) (v : F64), [q64 2, q64 6, q64 (-7)][i]? = some v ∧
    regular1DAt (Kind1D.nearest.evalOne true) (q64 (1 / 10)) (q64 (1 / 10)) [q64 2, q64 6, q64 (-7)]
      (q64 (2 / 7)) = .ok v ∧
    NearestWithin 3 (fun i : Nat => val (q64 (1 / 10)) + val (q64 (1 / 10)) * (i : ℚ))
      (val (q64 (2 / 7))) (12 * (1 + 4) * (1 / 2 ^ 53) * val (q64 (1 / 10))) i :=
  (C90_hold_regular_f64 exRegular1D_ok ((isSlice_iff _).2 (by decide)) true (x := q64 (2 / 7))
    (by decide +kernel) (by unfold InRange; decide +kernel)).2.2

/-- Hypotheses of `C90_linear_regular_f32` are satisfied. -/
example : ∃ r y, regular1DAt (Kind1D.linear.evalOne true) (q32 (1 / 10)) (q32 (1 / 10))
      [q32 2, q32 6, q32 (-7)] (q32 (2 / 7)) = .ok r ∧
    interp1DAt .linear true (.regular (fun _ => 3) (fun _ => val (q32 (1 / 10)))
      fun _ => val (q32 (1 / 10))) ([q32 2, q32 6, q32 (-7)].map val) (val (q32 (2 / 7))) = .ok y ∧
    |val r - y| ≤ 1 / 10 ^ 4 := by
  obtain ⟨r, y, h1, -, h3, h4⟩ := C90_linear_regular_f32 exRegular1D_ok32
    ((isSlice_iff _).2 (by decide)) true .linear (.inl rfl) 7 (by norm_num) (by decide +kernel)
    (by decide +kernel) (x := q32 (2 / 7)) (by decide +kernel) (by unfold InRange; decide +kernel)
  refine ⟨r, y, h1, h3, h4.trans ?_⟩
  decide +kernel

/-- Hypotheses of `C90_hold_regular_f32` are satisfied. -/
example : ∃ (i : Nat) (v : F32), [q32 2, q32 6, q32 (-7)][i]? = some v ∧
    regular1DAt (Kind1D.nearest.evalOne true) (q32 (1 / 10)) (q32 (1 / 10)) [q32 2, q32 6, q32 (-7)]
      (q32 (2 / 7)) = .ok v ∧
    NearestWithin 3 (fun i : Nat => val (q32 (1 / 10)) + val (q32 (1 / 10)) * (i : ℚ))
      (val (q32 (2 / 7))) (12 * (1 + 4) * (1 / 2 ^ 24) * val (q32 (1 / 10))) i :=
  (C90_hold_regular_f32 exRegular1D_ok32 ((isSlice_iff _).2 (by decide)) true (x := q32 (2 / 7))
    (by decide +kernel) (by unfold InRange; decide +kernel)).2.2

end Interpn
