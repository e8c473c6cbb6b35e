import Verif.Lemmas.OneDim
import Verif.Lemmas.RoundingRegular
import Verif.Lemmas.RoundingWeights

/-! Rounding error of the 1-D linear formula. -/

set_option autoImplicit false
set_option linter.unusedSectionVars false

namespace Interpn
open FloatOps

section
variable {T K : Type} [FloatOps T] [Field K] [LinearOrder K] [IsStrictOrderedRing K]
  {val : T → K} {fin : T → Prop} {u η Ω : K}

theorem weightCost_small (hu : 0 ≤ u) (hu1 : u ≤ 1 / 1000) : weightCost u ≤ 301 / 100 * u := by
  have : 0 < 1 - u := by linarith
  unfold weightCost
  rw [div_le_iff₀ this]
  nlinarith

/-- The product of a rounded slope and a rounded distance. -/
theorem slope_product {s σ d X τ P : K} (hu : 0 ≤ u) (hu1 : u ≤ 1 / 1000) (hη : 0 ≤ η)
    (hτ0 : 0 ≤ τ) (hτ : τ ≤ 301 / 100 * u)
    (hs : |s - σ| ≤ τ * |σ| + η) (hd : |d - X| ≤ u * |X|) (hP : |σ * X| ≤ P) :
    |s * d - σ * X| ≤ 403 / 100 * u * P + 1001 / 1000 * (η * |X|) := by
  have e : s * d - σ * X = (s - σ) * d + σ * (d - X) := by ring
  have hd' : |d| ≤ (1 + u) * |X| := by
    have := abs_sub_abs_le_abs_sub d X; linarith
  have h0 : 0 ≤ |σ * X| := abs_nonneg _
  have h1 : |(s - σ) * d| ≤ (τ * |σ| + η) * ((1 + u) * |X|) := by
    rw [abs_mul]; gcongr
  have h2 : |σ * (d - X)| ≤ u * |σ * X| := by
    rw [abs_mul, abs_mul]
    calc |σ| * |d - X| ≤ |σ| * (u * |X|) := by gcongr
      _ = _ := by ring
  have h3 : (τ * |σ| + η) * ((1 + u) * |X|) = τ * (1 + u) * |σ * X| + (1 + u) * (η * |X|) := by
    rw [abs_mul]; ring
  have h4 : τ * (1 + u) * |σ * X| ≤ 302 / 100 * u * |σ * X| := by
    have : τ * (1 + u) ≤ 302 / 100 * u := by nlinarith
    gcongr
  have h5 : (1 + u) * (η * |X|) ≤ 1001 / 1000 * (η * |X|) := by
    have : 0 ≤ η * |X| := by positivity
    nlinarith
  have h6 : u * |σ * X| ≤ u * P := by gcongr
  rw [e]
  have := abs_add_le ((s - σ) * d) (σ * (d - X))
  nlinarith

/-- The 1-D linear formula with rounding, for a point up to `R` cell widths from the left node:
`slope = (y1 - y0) / (x1 - x0)`, then `y0 + slope * (x - x0)`, fused or not. -/
theorem rounds_linear1 (h : Rounds val fin u η Ω) (hu1 : u ≤ 1 / 1000) (fma : Bool)
    {x0 x1 y0 y1 x : T} (ex : Extrap) (hx0 : fin x0) (hx1 : fin x1) (hy0 : fin y0) (hy1 : fin y1)
    (hx : fin x) (hlt : val x0 < val x1) {M R : K} (hM0 : |val y0| ≤ M) (hM1 : |val y1| ≤ M)
    (hR : |(val x - val x0) / (val x1 - val x0)| ≤ R)
    (hw : val x1 - val x0 ≤ Ω) (hX : |val x - val x0| ≤ Ω)
    (hslope : 3 * M ≤ Ω * (val x1 - val x0))
    (hΩ : (2 + 3 * R) * M + 2 * η * (1 + R * (val x1 - val x0)) ≤ Ω) :
    fin (linear1 fma ⟨x0, y0, x1, y1, ex⟩ x) ∧
    |val (linear1 fma ⟨x0, y0, x1, y1, ex⟩ x) -
      (val y0 + (val y1 - val y0) * ((val x - val x0) / (val x1 - val x0)))| ≤
      (13 * R + 2) * u * M + 2 * η * (1 + R * (val x1 - val x0)) := by
  have hu := h.u_nonneg
  have hη := h.η_nonneg
  have hM : 0 ≤ M := (abs_nonneg _).trans hM0
  have hRn : 0 ≤ R := (abs_nonneg _).trans hR
  have hw0 : 0 < val x1 - val x0 := sub_pos.2 hlt
  have hY : |val y1 - val y0| ≤ 2 * M := by
    have := abs_sub (val y1) (val y0); linarith
  have hRM : 0 ≤ R * M := by positivity
  have huM : 0 ≤ u * M := by positivity
  have huRM : 0 ≤ u * (R * M) := by positivity
  have hRw : 0 ≤ R * (val x1 - val x0) := by positivity
  have hηRw : 0 ≤ η * (R * (val x1 - val x0)) := by positivity
  have huM' : u * M ≤ 1 / 1000 * M := by gcongr
  have huRM' : u * (R * M) ≤ 1 / 1000 * (R * M) := by gcongr
  have huη : u * η ≤ 1 / 1000 * η := by gcongr
  have huη' : u * (η * (R * (val x1 - val x0))) ≤ 1 / 1000 * (η * (R * (val x1 - val x0))) := by
    gcongr
  have hτ0 := weightCost_nonneg hu (by linarith : u < 1)
  have hτ := weightCost_small hu hu1
  -- the slope
  have hσ : |(val y1 - val y0) / (val x1 - val x0)| ≤ 2 * M / (val x1 - val x0) := by
    rw [abs_div, abs_of_pos hw0]; gcongr
  obtain ⟨hsf, hse⟩ := rounds_ratio h (by linarith) hy1 hy0 hx1 hx0 hlt (hY.trans (by nlinarith))
    (by rw [abs_of_pos hw0]; exact hw) hσ (by
      rw [div_mul_eq_mul_div, div_le_iff₀ hw0]
      nlinarith)
  obtain ⟨hdf, hde⟩ := h.sub x x0 hx hx0 hX
  set σ := (val y1 - val y0) / (val x1 - val x0) with hσd
  set X := val x - val x0 with hXd
  set w := val x1 - val x0 with hwd
  have hXw : |X| ≤ R * w := by
    rw [abs_div, abs_of_pos hw0, div_le_iff₀ hw0] at hR; exact hR
  have hσX : σ * X = (val y1 - val y0) * (X / w) := by rw [hσd]; ring
  have hP : |σ * X| ≤ 2 * (R * M) := by
    rw [hσX, abs_mul]
    calc |val y1 - val y0| * |X / w| ≤ 2 * M * R := by gcongr
      _ = _ := by ring
  have hprod := slope_product hu hu1 hη hτ0 hτ hse hde hP
  have hηX : η * |X| ≤ η * (R * w) := by gcongr
  set s := val ((y1 -. y0) /. (x1 -. x0)) with hs
  set d := val (x -. x0) with hd
  have hE : |s * d - σ * X| ≤ 806 / 100 * (u * (R * M)) + 1001 / 1000 * (η * (R * w)) := by
    refine hprod.trans ?_
    linarith
  have hsd : |s * d| ≤ 2 * (R * M) + 806 / 100 * (u * (R * M)) + 1001 / 1000 * (η * (R * w)) := by
    have := abs_sub_abs_le_abs_sub (s * d) (σ * X); linarith
  have hy : |val y0 + σ * X| ≤ M + 2 * (R * M) := by
    have := abs_add_le (val y0) (σ * X); linarith
  rw [← hσX]
  unfold linear1
  cases fma with
  | true =>
    simp only [if_true]
    have hsum : |s * d + val y0| ≤
        M + 2 * (R * M) + 806 / 100 * (u * (R * M)) + 1001 / 1000 * (η * (R * w)) := by
      have := abs_add_le (s * d) (val y0); linarith
    obtain ⟨hf, he⟩ := h.mulAdd _ _ y0 hsf hdf hy0 (hsum.trans (by linarith))
    refine ⟨hf, ?_⟩
    have h1 : u * |s * d + val y0| ≤ u * (M + 2 * (R * M) + 806 / 100 * (u * (R * M)) +
        1001 / 1000 * (η * (R * w))) := by gcongr
    have h2 : u * (u * (R * M)) ≤ 1 / 1000 * (u * (R * M)) := by gcongr
    have h3 := abs_add_le (val (FloatOps.mulAdd ((y1 -. y0) /. (x1 -. x0)) (x -. x0) y0) -
      (s * d + val y0)) (s * d - σ * X)
    rw [show val (FloatOps.mulAdd ((y1 -. y0) /. (x1 -. x0)) (x -. x0) y0) - (s * d + val y0) +
      (s * d - σ * X) = val (FloatOps.mulAdd ((y1 -. y0) /. (x1 -. x0)) (x -. x0) y0) -
      (val y0 + σ * X) by ring] at h3
    linarith
  | false =>
    simp only [Bool.false_eq_true, if_false]
    obtain ⟨hpf, hpe⟩ := h.mul _ _ hsf hdf (hsd.trans (by linarith))
    have h1 : u * |s * d| ≤ u * (2 * (R * M) + 806 / 100 * (u * (R * M)) +
        1001 / 1000 * (η * (R * w))) := by gcongr
    have h2 : u * (u * (R * M)) ≤ 1 / 1000 * (u * (R * M)) := by gcongr
    set p := val (((y1 -. y0) /. (x1 -. x0)) *. (x -. x0)) with hp
    have hpE : |p - σ * X| ≤ 1008 / 100 * (u * (R * M)) + 1003 / 1000 * (η * (R * w)) + η := by
      have h3 := abs_add_le (p - s * d) (s * d - σ * X)
      rw [sub_add_sub_cancel] at h3
      linarith
    have hsum : |val y0 + p| ≤ M + 2 * (R * M) + 1008 / 100 * (u * (R * M)) +
        1003 / 1000 * (η * (R * w)) + η := by
      have h3 := abs_add_le (val y0 + σ * X) (p - σ * X)
      rw [show val y0 + σ * X + (p - σ * X) = val y0 + p by ring] at h3
      linarith
    obtain ⟨hf, he⟩ := h.add y0 _ hy0 hpf (hsum.trans (by linarith))
    refine ⟨hf, ?_⟩
    have h4 : u * |val y0 + p| ≤ u * (M + 2 * (R * M) + 1008 / 100 * (u * (R * M)) +
        1003 / 1000 * (η * (R * w)) + η) := by gcongr
    have h5 := abs_add_le (val (y0 +. ((y1 -. y0) /. (x1 -. x0)) *. (x -. x0)) - (val y0 + p))
      (p - σ * X)
    rw [show val (y0 +. ((y1 -. y0) /. (x1 -. x0)) *. (x -. x0)) - (val y0 + p) + (p - σ * X) =
      val (y0 +. ((y1 -. y0) /. (x1 -. x0)) *. (x -. x0)) - (val y0 + σ * X) by ring] at h5
    linarith

end

end Interpn
