import Verif.Props.FixedPoint
import Verif.Props.IeeeOneDim

/-! C118 for the interpolators of `/repo/src/one_dim/linear.rs`: exact on fixed-point data. -/

set_option autoImplicit false

namespace Interpn
open FloatOps Ieee

section
variable {f : Format}

/-- One cell of width `2^(j + c)`. -/
theorem linear1_dyadic {j q : Int} {s c : Nat} {B : ℚ} (hc : c ≤ s)
    (hgrid : Room f j (2 ^ (j + s))) (hroom : Room f (q - s) (2 * B))
    (hslope : Room f (q - s - j) (2 * B / 2 ^ j)) (fma : Bool) (g : GridSample (Ieee f)) {x : Ieee f}
    (hx : Finite x) (hxm : Multiple j (val x)) (h0 : Finite g.x0) (h0m : Multiple j (val g.x0))
    (h1 : Finite g.x1) (h1m : Multiple j (val g.x1)) (hw : val g.x1 - val g.x0 = 2 ^ (j + c))
    (hle0 : val g.x0 ≤ val x) (hle1 : val x ≤ val g.x1)
    (hy0 : Finite g.y0 ∧ Multiple q (val g.y0) ∧ |val g.y0| ≤ B)
    (hy1 : Finite g.y1 ∧ Multiple q (val g.y1) ∧ |val g.y1| ≤ B) :
    Finite (linear1 fma g x) ∧ val (linear1 fma g x) =
      val g.y0 + (val x - val g.x0) / (val g.x1 - val g.x0) * (val g.y1 - val g.y0) := by
  obtain ⟨f0, m0, b0⟩ := hy0
  obtain ⟨f1, m1, b1⟩ := hy1
  have hB : 0 ≤ B := (abs_nonneg _).trans b0
  have hj : (0 : ℚ) < 2 ^ j := zpow_pos (by norm_num) _
  have hwpos : (0 : ℚ) < 2 ^ (j + (c : Int)) := zpow_pos (by norm_num) _
  have hwle : (2 : ℚ) ^ (j + (c : Int)) ≤ 2 ^ (j + (s : Int)) :=
    zpow_le_zpow_right₀ (by norm_num) (by omega)
  have hwge : (2 : ℚ) ^ j ≤ 2 ^ (j + (c : Int)) := zpow_le_zpow_right₀ (by norm_num) (by omega)
  have hdb : |val g.y1 - val g.y0| ≤ 2 * B := by
    have := abs_sub (val g.y1) (val g.y0); linarith
  have hdy := hroom.sub f1 f0 ((m1.sub m0).of_le (by omega)) hdb
  have hdw := hgrid.sub h1 h0 (h1m.sub h0m) (by rw [hw, abs_of_pos hwpos]; exact hwle)
  have hdx := hgrid.sub hx h0 (hxm.sub h0m) (by rw [abs_of_nonneg (by linarith)]; linarith)
  have hsm : Multiple (q - s - j) ((val g.y1 - val g.y0) / (val g.x1 - val g.x0)) := by
    rw [hw]
    exact ((m1.sub m0).div_pow).of_le (by omega)
  have hsb : |(val g.y1 - val g.y0) / (val g.x1 - val g.x0)| ≤ 2 * B / 2 ^ j := by
    rw [hw, abs_div, abs_of_pos hwpos]
    gcongr
  have hsl := hslope.div hdy.1 hdw.1 (by rw [hdw.2, hw]; exact hwpos.ne')
    (by rwa [hdy.2, hdw.2]) (by rwa [hdy.2, hdw.2])
  rw [hdy.2, hdw.2] at hsl
  have hpe : (val g.y1 - val g.y0) / (val g.x1 - val g.x0) * (val x - val g.x0) =
      (val x - val g.x0) / (val g.x1 - val g.x0) * (val g.y1 - val g.y0) := by ring
  have hpm : Multiple (q - s) ((val g.y1 - val g.y0) / (val g.x1 - val g.x0) * (val x - val g.x0)) := by
    have := hsm.mul (hxm.sub h0m)
    rwa [show q - s - j + j = q - s by ring] at this
  have ht0 : 0 ≤ (val x - val g.x0) / (val g.x1 - val g.x0) :=
    div_nonneg (by linarith) (by rw [hw]; exact hwpos.le)
  have ht1 : (val x - val g.x0) / (val g.x1 - val g.x0) ≤ 1 := by
    rw [div_le_one (by rw [hw]; exact hwpos)]; linarith
  set t := (val x - val g.x0) / (val g.x1 - val g.x0) with ht
  have hpb : |(val g.y1 - val g.y0) / (val g.x1 - val g.x0) * (val x - val g.x0)| ≤ 2 * B := by
    rw [hpe, abs_mul, abs_of_nonneg ht0]
    calc t * |val g.y1 - val g.y0| ≤ 1 * (2 * B) := by gcongr
      _ = 2 * B := one_mul _
  have hrm : Multiple (q - s) (val g.y0 + t * (val g.y1 - val g.y0)) := by
    rw [← hpe]; exact (m0.of_le (by omega)).add hpm
  have hrb : |val g.y0 + t * (val g.y1 - val g.y0)| ≤ 2 * B := by
    have a0 := abs_le.1 b0
    have a1 := abs_le.1 b1
    rw [abs_le]
    constructor <;> nlinarith [mul_nonneg ht0 (by linarith : 0 ≤ B - val g.y1),
      mul_nonneg ht0 (by linarith : 0 ≤ B + val g.y1),
      mul_nonneg (sub_nonneg.2 ht1) (by linarith : 0 ≤ B - val g.y0),
      mul_nonneg (sub_nonneg.2 ht1) (by linarith : 0 ≤ B + val g.y0)]
  unfold linear1
  cases fma with
  | true =>
    have e1 : val ((g.y1 -. g.y0) /. (g.x1 -. g.x0)) * val (x -. g.x0) + val g.y0 =
        val g.y0 + t * (val g.y1 - val g.y0) := by rw [hsl.2, hdx.2, hpe]; ring
    have := hroom.mulAdd hsl.1 hdx.1 f0 (by rwa [e1]) (by rwa [e1])
    rw [e1] at this
    exact this
  | false =>
    have hp := hroom.mul hsl.1 hdx.1 (by rwa [hsl.2, hdx.2]) (by rwa [hsl.2, hdx.2])
    have e1 : val g.y0 + val (((g.y1 -. g.y0) /. (g.x1 -. g.x0)) *. (x -. g.x0)) =
        val g.y0 + t * (val g.y1 - val g.y0) := by rw [hp.2, hsl.2, hdx.2, hpe]
    have := hroom.add f0 hp.1 (by rwa [e1]) (by rwa [e1])
    rw [e1] at this
    exact this

/-- C118, `Linear1D` and `LinearHoldLast1D` on a rectilinear grid in fixed point: nodes and observation are
multiples of `2^j`, the cells are powers of two wide, at most `2^(j + s)`, the values are multiples of
`2^q`. If the format has room for the digits of values and slopes, the computed result is exactly the
number that the evaluation in exact arithmetic yields. -/
theorem C118_linear_1d {grid vals : List (Ieee f)} {x : Ieee f} (kind : Kind1D)
    (hk : kind = .linear ∨ kind = .linearHoldLast) (fma : Bool) (h : Grid1DOk grid vals)
    (j : Int) (s : Nat) (hgrid : FixedGrid f j s grid) (q : Int) (B : ℚ)
    (hvals : ∀ v ∈ vals, Finite v ∧ Multiple q (val v) ∧ |val v| ≤ B)
    (hroom : Room f (q - s) (2 * B)) (hslope : Room f (q - s - j) (2 * B / 2 ^ j))
    (hx : Finite x ∧ Multiple j (val x)) (hin : InRange grid.length (nodes1D grid) (val x)) :
    ∃ r, rectilinear1DAt (kind.evalOne fma) grid vals x = .ok r ∧ Finite r ∧
      ∀ fma', interp1DAt kind fma' (.rectilinear fun _ => grid.map val) (vals.map val) (val x) =
        .ok (val r) := by
  have h2 := h.big
  have hl := h.len
  have hc := h.inCell hx.1
  have hcn := hc.1
  have hG := h.valid
  have hsize : (Axes.rectilinear fun _ : Fin 1 => grid.map val).size 0 = grid.length := by
    simp [Axes.size]
  have hlin : ∀ fma', interp1DAt kind fma' (.rectilinear fun _ => grid.map val) (vals.map val) (val x) =
      .ok (linPiece (nodes1D grid) (fun i => (vals.map val).getD i 0) (linCell grid x) (val x)) := by
    intro fma'
    have h3 := interp1DAt_linear (c := linCell grid x) fma' hG (val x) trivial (by rw [hsize]; exact hc)
    rcases hk with rfl | rfl
    · exact h3
    · refine Eq.trans ((C41_cases fma' hG (val x) trivial).2.2 ?_) h3
      rw [hsize]; exact hin
  have hext : extrapOf (nodes1D grid 0) (nodes1D grid (grid.length - 1)) (val x) = .inside := by
    unfold extrapOf
    rw [if_neg (not_lt.2 hin.1), if_neg (not_lt.2 hin.2)]
  have hev := h.eval kind fma hx.1
  rw [hext] at hev
  set c := linCell grid x
  obtain ⟨b0, b1⟩ := inRange_of_inCell hc hin
  have e0 := nodes1D_eq (grid := grid) (i := c) (by omega)
  have e1 := nodes1D_eq hcn
  have hmem : ∀ i, i < grid.length → grid.getD i zero ∈ grid ∧ grid[i]? = some (grid.getD i zero) :=
    fun i h => by
      rw [List.getD_eq_getElem _ _ h]
      exact ⟨List.getElem_mem h, List.getElem?_eq_getElem h⟩
  have m0 := hmem c (by omega)
  have m1 := hmem (c + 1) hcn
  obtain ⟨n, hn, hw⟩ := hgrid.width c _ _ m0.2 m1.2
  have hvm : ∀ i < grid.length, vals.getD i zero ∈ vals ∧
      (vals.map val).getD i 0 = val (vals.getD i zero) := fun i hi => by
    have hiv : i < vals.length := by omega
    rw [List.getD_eq_getElem _ _ hiv, List.getD_eq_getElem _ _ (by simpa using hiv), List.getElem_map]
    exact ⟨List.getElem_mem hiv, rfl⟩
  rw [e0] at b0
  rw [e1] at b1
  have key := linear1_dyadic hn (room_pow hgrid.fine hgrid.digits hgrid.range) hroom hslope fma
    ⟨grid.getD c zero, vals.getD c zero, grid.getD (c + 1) zero, vals.getD (c + 1) zero, .inside⟩
    hx.1 hx.2 (hgrid.finite _ m0.1) (hgrid.node _ m0.1) (hgrid.finite _ m1.1) (hgrid.node _ m1.1) hw b0 b1
    (hvals _ (hvm c (by omega)).1) (hvals _ (hvm (c + 1) hcn).1)
  refine ⟨_, ?_, key.1, fun fma' => ?_⟩
  · rw [hev]
    rcases hk with rfl | rfl <;> rfl
  · rw [hlin fma', key.2]
    unfold linPiece
    rw [e0, e1]
    simp only [(hvm c (by omega)).2, (hvm (c + 1) hcn).2]

/-- C118, `Linear1D` and `LinearHoldLast1D` on a regular grid in fixed point: the start is a multiple of
`2^j` and the step is `2^(j + s)`. -/
theorem C118_linear_1d_regular {start step x : Ieee f} {vals : List (Ieee f)} (kind : Kind1D)
    (hk : kind = .linear ∨ kind = .linearHoldLast) (fma : Bool) (hs : IsSlice vals)
    (h2 : 2 ≤ vals.length) (j : Int) (s : Nat) (hgrid : FixedRegular f j s vals.length start step)
    (q : Int) (B : ℚ) (hvals : ∀ v ∈ vals, Finite v ∧ Multiple q (val v) ∧ |val v| ≤ B)
    (hroom : Room f (q - s) (2 * B)) (hslope : Room f (q - s - j) (2 * B / 2 ^ j))
    (hx : Finite x ∧ Multiple j (val x))
    (hin : InRange vals.length (fun i : Nat => val start + val step * (i : ℚ)) (val x)) :
    ∃ r, regular1DAt (kind.evalOne fma) start step vals x = .ok r ∧ Finite r ∧
      ∀ fma', interp1DAt kind fma' (.regular (fun _ => vals.length) (fun _ => val start)
        fun _ => val step) (vals.map val) (val x) = .ok (val r) := by
  have hpos := hgrid.step_pos
  have hd : (vals.length : Int) ≤ isizeMax := (isSlice_iff _).1 hs
  obtain ⟨hraw, hq0, hq1⟩ := hgrid.raw h2 hd hx.1 hx.2 hin
  have hcell := regular_inCell (x := val x) (start := val start) (step := val step) hpos h2
  have hG : (Axes.regular (fun _ : Fin 1 => vals.length) (fun _ => val start) fun _ => val step).Valid 2
      (vals.map val) := by
    refine ⟨?_, ?_, ?_, ?_⟩
    · rw [isSlice_iff] at hs ⊢; simpa using hs
    · simp [Axes.size]
    · intro k; simpa [Axes.size] using h2
    · intro k i hi
      show val start + val step * (i : ℚ) < val start + val step * ((i + 1 : Nat) : ℚ)
      push_cast
      linarith
  have hrep : (Axes.regular (fun _ : Fin 1 => vals.length) (fun _ => val start)
      fun _ => val step).Representable fun _ => val x := by
    intro k
    constructor
    · exact le_trans (by decide) (Int.floor_nonneg.2 hq0)
    · have h5 := Int.floor_le ((val x - val start) / val step)
      have h6 : ((vals.length - 1 : Nat) : ℚ) ≤ (isizeMax : Int) := by
        exact_mod_cast (by omega : ((vals.length - 1 : Nat) : Int) ≤ isizeMax)
      exact_mod_cast (h5.trans hq1).trans h6
  set z := ⌊(val x - val start) / val step⌋ with hz
  set c := clampIdx z (vals.length - 2) with hc
  have hc2 : c + 2 ≤ vals.length := by have := clampIdx_le z (vals.length - 2); omega
  have hlin : ∀ fma', interp1DAt kind fma' (.regular (fun _ => vals.length) (fun _ => val start)
      fun _ => val step) (vals.map val) (val x) =
      .ok (linPiece (fun i : Nat => val start + val step * (i : ℚ)) (fun i => (vals.map val).getD i 0) c
        (val x)) := by
    intro fma'
    have h3 := interp1DAt_linear fma' hG (val x) hrep hcell
    rcases hk with rfl | rfl
    · exact h3
    · exact Eq.trans ((C41_cases fma' hG (val x) hrep).2.2 hin) h3
  obtain ⟨n, hn, hnf, hnv, hnm⟩ := hgrid.node false (show c < vals.length by omega)
  obtain ⟨n1, hn1, -, hnv1, hnm1⟩ := hgrid.node false (show c + 1 < vals.length by omega)
  obtain ⟨nl, hnl, hnlf, hnlv, -⟩ := hgrid.node false (show vals.length - 1 < vals.length by omega)
  simp only [Bool.false_eq_true, if_false] at hnf hnv hnlf hnlv
  obtain ⟨b0, b1⟩ := inRange_of_inCell hcell hin
  have hroomg := hgrid.room
  -- the upper node is the lower one plus the step
  have hsum : val start + val step * (c : ℚ) + val step = val start + val step * ((c + 1 : Nat) : ℚ) := by
    push_cast; ring
  have hx1 : Finite ((start +. step *. n) +. step) ∧ val ((start +. step *. n) +. step) =
      val start + val step * ((c + 1 : Nat) : ℚ) := by
    have a0 := abs_le.1 hgrid.size.1
    have a1 := abs_le.1 hgrid.size.2
    have hcd : ((c + 1 : Nat) : ℚ) ≤ ((vals.length - 1 : Nat) : ℚ) := by
      exact_mod_cast (by omega : c + 1 ≤ vals.length - 1)
    have hc0 : (0 : ℚ) ≤ ((c + 1 : Nat) : ℚ) := Nat.cast_nonneg _
    have := hroomg.add hnf hgrid.finite.2 (by rw [hnv, hsum]; exact hnm1) (by
      rw [hnv, hsum, abs_le]
      constructor <;> nlinarith)
    rw [hnv, hsum] at this
    exact this
  have hext : extrapHL start (start +. step *. nl) x = .inside := by
    have h3 := exactCompare f (start +. step *. nl) x hnlf hx.1
    have h4 := exactCompare f x start hx.1 hgrid.finite.1
    have h5 := hin.1
    simp only [Nat.cast_zero, mul_zero, add_zero] at h5
    unfold extrapHL
    rw [if_neg (fun hh => by have := h3.1 hh; rw [hnlv] at this; exact absurd hin.2 (not_le.2 this)),
      if_neg (fun hh => absurd h5 (not_le.2 (h4.1 hh)))]
  have hsample : (RegularGrid1D.new start step vals >>= fun g => g.at x) = .ok
      ⟨start +. step *. n, vals.getD c zero, (start +. step *. n) +. step, vals.getD (c + 1) zero,
        .inside⟩ := by
    rw [RegularGrid1D.new_ok (by omega) hnl, Res.ok_bind, RegularGrid1D.at_ok h2 hs hraw hn, hext]
  have hvm : ∀ i < vals.length, vals.getD i zero ∈ vals ∧
      (vals.map val).getD i 0 = val (vals.getD i zero) := fun i hiv => by
    rw [List.getD_eq_getElem _ _ hiv, List.getD_eq_getElem _ _ (by simpa using hiv), List.getElem_map]
    exact ⟨List.getElem_mem hiv, rfl⟩
  have key := linear1_dyadic (c := s) le_rfl
    (room_pow hgrid.fine (hgrid.digits h2) (by have := hgrid.range; have := hgrid.digits h2; omega))
    hroom hslope fma
    ⟨start +. step *. n, vals.getD c zero, (start +. step *. n) +. step, vals.getD (c + 1) zero, .inside⟩
    hx.1 hx.2 hnf (by rw [hnv]; exact hnm) hx1.1 (by rw [hx1.2]; exact hnm1)
    (by rw [hx1.2, hnv, ← hgrid.spacing]; push_cast; ring) (by rw [hnv]; exact b0)
    (by rw [hx1.2]; exact b1) (hvals _ (hvm c (by omega)).1) (hvals _ (hvm (c + 1) (by omega)).1)
  refine ⟨_, ?_, key.1, fun fma' => ?_⟩
  · rw [regular1DAt_of_sample kind fma hsample]
    rcases hk with rfl | rfl <;> rfl
  · rw [hlin fma', key.2]
    unfold linPiece
    simp only [hnv, hx1.2, (hvm c (by omega)).2, (hvm (c + 1) (by omega)).2]

end

/-! ### Concrete cases -/

/-- In `f32`, cells of width 1/2 and 2: hypotheses of `C118_linear_1d`. -/
example : ∃ r, rectilinear1DAt (Kind1D.linear.evalOne false)
      [q32 0, q32 (1 / 2), q32 1, q32 3] [q32 2, q32 6, q32 (-7), q32 (63 / 4)] (q32 (25 / 16)) = .ok r ∧
    Finite r ∧ ∀ fma', interp1DAt .linear fma'
      (.rectilinear fun _ => [q32 0, q32 (1 / 2), q32 1, q32 3].map val)
      ([q32 2, q32 6, q32 (-7), q32 (63 / 4)].map val) (val (q32 (25 / 16))) = .ok (val r) :=
  C118_linear_1d .linear (.inl rfl) false
    ⟨by unfold IsSlice; decide, rfl, by decide, by decide +kernel,
      cells_of (by decide +kernel)⟩ (-4) 5
    (fixedGrid_of_check (by decide) (by decide +kernel) (by decide +kernel)) (-2) 16
    (fun v hv => ⟨by revert v; decide +kernel, multiple_of_check (by revert v; decide +kernel),
      by revert v; decide +kernel⟩) ⟨by decide, by decide +kernel, by decide +kernel⟩
    ⟨by decide, by decide +kernel, by decide +kernel⟩
    ⟨by decide +kernel, multiple_of_check (by decide +kernel)⟩ (by decide +kernel)

/-- In `f64`, steps of 1/4: hypotheses of `C118_linear_1d_regular`. -/
example : ∃ r, regular1DAt (Kind1D.linearHoldLast.evalOne true) (q64 (-3 / 8)) (q64 (1 / 4))
      [q64 2, q64 6, q64 (-7)] (q64 (-1 / 1024)) = .ok r ∧
    Finite r ∧ ∀ fma', interp1DAt .linearHoldLast fma' (.regular (fun _ => 3)
      (fun _ => val (q64 (-3 / 8))) fun _ => val (q64 (1 / 4)))
      ([q64 2, q64 6, q64 (-7)].map val) (val (q64 (-1 / 1024))) = .ok (val r) :=
  C118_linear_1d_regular (vals := [q64 2, q64 6, q64 (-7)]) .linearHoldLast (.inr rfl) true
    (by unfold IsSlice; decide) (by decide) (-10) 8
    ⟨by decide, by decide, by decide +kernel, multiple_of_check (by decide +kernel),
      by decide +kernel, by decide +kernel, by decide +kernel⟩ 0 8
    (fun v hv => ⟨by revert v; decide +kernel, multiple_of_check (by revert v; decide +kernel),
      by revert v; decide +kernel⟩) ⟨by decide, by decide +kernel, by decide +kernel⟩
    ⟨by decide, by decide +kernel, by decide +kernel⟩
    ⟨by decide +kernel, multiple_of_check (by decide +kernel)⟩ (by decide +kernel)

end Interpn
