import Verif.Spec.Accuracy
import Mathlib.Analysis.Calculus.MeanValue
import Mathlib.Analysis.Calculus.Deriv.Pow
import Mathlib.Analysis.Calculus.Deriv.Mul
import Mathlib.Analysis.Calculus.Deriv.Comp
import Mathlib.Analysis.Convex.Segment

/-! Remainder bounds for functions with a bounded second or third derivative on an interval. -/

set_option autoImplicit false

namespace Interpn
open Set

/-- One integration on the unit interval. -/
theorem unit_step {g g' : ℝ → ℝ} {C : ℝ} (n : Nat)
    (hg : ∀ s ∈ Icc (0 : ℝ) 1, HasDerivWithinAt g (g' s) (Icc 0 1) s) (h0 : g 0 = 0)
    (hb : ∀ s ∈ Icc (0 : ℝ) 1, |g' s| ≤ C * s ^ n) :
    ∀ s ∈ Icc (0 : ℝ) 1, |g s| ≤ C / (n + 1) * s ^ (n + 1) := by
  have key := image_norm_le_of_norm_deriv_right_le_deriv_boundary (f := g) (f' := g') (a := 0)
    (b := 1) (B := fun s => C / (n + 1) * s ^ (n + 1)) (B' := fun s => C * s ^ n)
    (fun s hs => (hg s hs).continuousWithinAt)
    (fun s hs => (hg s ⟨hs.1, hs.2.le⟩).mono_of_mem_nhdsWithin (Icc_mem_nhdsGE_of_mem hs))
    (by simp [h0])
    (fun s => by
      refine ((hasDerivAt_pow (n + 1) s).const_mul (C / (n + 1))).congr_deriv ?_
      have : (n : ℝ) + 1 ≠ 0 := by positivity
      push_cast
      field_simp)
    (fun s hs => hb s ⟨hs.1, hs.2.le⟩)
  exact fun s hs => key hs

/-- The segment from `x` to `z`. -/
theorem seg_mem {a b x z s : ℝ} (hx : x ∈ Icc a b) (hz : z ∈ Icc a b) (hs : s ∈ Icc (0 : ℝ) 1) :
    x + s * (z - x) ∈ Icc a b := by
  obtain ⟨h1, h2⟩ := hx; obtain ⟨h3, h4⟩ := hz; obtain ⟨h5, h6⟩ := hs
  constructor <;> nlinarith

theorem hasDeriv_seg {φ d : ℝ → ℝ} {a b x z s : ℝ} (hx : x ∈ Icc a b) (hz : z ∈ Icc a b)
    (hs : s ∈ Icc (0 : ℝ) 1)
    (h : ∀ z ∈ Icc a b, HasDerivWithinAt φ (d z) (Icc a b) z) :
    HasDerivWithinAt (fun s => φ (x + s * (z - x))) (d (x + s * (z - x)) * (z - x)) (Icc 0 1) s := by
  have h1 : HasDerivWithinAt (fun s : ℝ => x + s * (z - x)) (z - x) (Icc 0 1) s := by
    have := ((hasDerivWithinAt_id s (Icc (0 : ℝ) 1)).mul_const (z - x)).const_add x
    simpa using this
  exact (h _ (seg_mem hx hz hs)).comp s h1 fun s' hs' => seg_mem hx hz hs'

theorem taylor1 {φ d1 : ℝ → ℝ} {a b M : ℝ}
    (h1 : ∀ z ∈ Icc a b, HasDerivWithinAt φ (d1 z) (Icc a b) z) (hM : ∀ z ∈ Icc a b, |d1 z| ≤ M)
    {x z : ℝ} (hx : x ∈ Icc a b) (hz : z ∈ Icc a b) :
    ∀ s ∈ Icc (0 : ℝ) 1, |φ (x + s * (z - x)) - φ x| ≤ M * |z - x| * s := by
  have := unit_step (C := M * |z - x|) 0 (g := fun s => φ (x + s * (z - x)) - φ x)
    (fun s hs => (hasDeriv_seg hx hz hs h1).sub_const _) (by simp) (fun s hs => by
      rw [abs_mul, pow_zero, mul_one]
      exact mul_le_mul_of_nonneg_right (hM _ (seg_mem hx hz hs)) (abs_nonneg _))
  intro s hs
  simpa using this s hs

theorem taylor2 {φ d1 d2 : ℝ → ℝ} {a b M : ℝ}
    (h1 : ∀ z ∈ Icc a b, HasDerivWithinAt φ (d1 z) (Icc a b) z)
    (h2 : ∀ z ∈ Icc a b, HasDerivWithinAt d1 (d2 z) (Icc a b) z)
    (hM : ∀ z ∈ Icc a b, |d2 z| ≤ M) {x z : ℝ} (hx : x ∈ Icc a b) (hz : z ∈ Icc a b) :
    ∀ s ∈ Icc (0 : ℝ) 1, |φ (x + s * (z - x)) - φ x - d1 x * (z - x) * s| ≤
      M * |z - x| ^ 2 / 2 * s ^ 2 := by
  have := unit_step (C := M * |z - x| ^ 2) 1
    (g := fun s => φ (x + s * (z - x)) - φ x - d1 x * (z - x) * s)
    (g' := fun s => d1 (x + s * (z - x)) * (z - x) - d1 x * (z - x))
    (fun s hs => by
      have e1 := (hasDeriv_seg hx hz hs h1).sub_const (φ x)
      have e2 := ((hasDerivWithinAt_id s (Icc (0 : ℝ) 1)).const_mul (d1 x * (z - x)))
      exact (e1.sub e2).congr_deriv (by ring)) (by simp) (fun s hs => by
      have := taylor1 h2 hM hx hz s hs
      rw [← sub_mul, abs_mul, pow_one]
      calc _ ≤ M * |z - x| * s * |z - x| := mul_le_mul_of_nonneg_right this (abs_nonneg _)
        _ = _ := by ring)
  intro s hs
  have h := this s hs
  refine h.trans (le_of_eq ?_)
  push_cast
  ring

theorem taylor3 {φ d1 d2 d3 : ℝ → ℝ} {a b M : ℝ}
    (h1 : ∀ z ∈ Icc a b, HasDerivWithinAt φ (d1 z) (Icc a b) z)
    (h2 : ∀ z ∈ Icc a b, HasDerivWithinAt d1 (d2 z) (Icc a b) z)
    (h3 : ∀ z ∈ Icc a b, HasDerivWithinAt d2 (d3 z) (Icc a b) z)
    (hM : ∀ z ∈ Icc a b, |d3 z| ≤ M) {x z : ℝ} (hx : x ∈ Icc a b) (hz : z ∈ Icc a b) :
    ∀ s ∈ Icc (0 : ℝ) 1,
      |φ (x + s * (z - x)) - φ x - d1 x * (z - x) * s - d2 x * (z - x) ^ 2 / 2 * s ^ 2| ≤
      M * |z - x| ^ 3 / 6 * s ^ 3 := by
  have := unit_step (C := M * |z - x| ^ 3 / 2) 2
    (g := fun s => φ (x + s * (z - x)) - φ x - d1 x * (z - x) * s -
      d2 x * (z - x) ^ 2 / 2 * s ^ 2)
    (g' := fun s => d1 (x + s * (z - x)) * (z - x) - d1 x * (z - x) - d2 x * (z - x) ^ 2 * s)
    (fun s hs => by
      have e1 := (hasDeriv_seg hx hz hs h1).sub_const (φ x)
      have e2 := ((hasDerivWithinAt_id s (Icc (0 : ℝ) 1)).const_mul (d1 x * (z - x)))
      have e3 := ((hasDerivAt_pow 2 s).hasDerivWithinAt (s := Icc (0 : ℝ) 1)).const_mul
        (d2 x * (z - x) ^ 2 / 2)
      refine ((e1.sub e2).sub e3).congr_deriv ?_
      norm_num
      ring) (by simp) (fun s hs => by
      have := taylor2 h2 h3 hM hx hz s hs
      rw [show d1 (x + s * (z - x)) * (z - x) - d1 x * (z - x) - d2 x * (z - x) ^ 2 * s =
        (d1 (x + s * (z - x)) - d1 x - d2 x * (z - x) * s) * (z - x) by ring, abs_mul]
      calc _ ≤ M * |z - x| ^ 2 / 2 * s ^ 2 * |z - x| := mul_le_mul_of_nonneg_right this (abs_nonneg _)
        _ = _ := by ring)
  intro s hs
  have h := this s hs
  refine h.trans (le_of_eq ?_)
  push_cast
  ring

theorem SecondDerivBounded.remainder {φ : ℝ → ℝ} {a b M : ℝ} (h : SecondDerivBounded φ a b M)
    {x : ℝ} (hx : x ∈ Icc a b) :
    ∃ u, ∀ z ∈ Icc a b, |φ z - (φ x + u * (z - x))| ≤ M / 2 * (z - x) ^ 2 := by
  obtain ⟨d1, d2, h⟩ := h
  refine ⟨d1 x, fun z hz => ?_⟩
  have := taylor2 (fun z hz => (h z hz).1) (fun z hz => (h z hz).2.1) (fun z hz => (h z hz).2.2)
    hx hz 1 ⟨zero_le_one, le_rfl⟩
  rw [sq_abs] at this
  rw [one_mul, add_sub_cancel, mul_one, one_pow, mul_one] at this
  rw [show φ z - (φ x + d1 x * (z - x)) = φ z - φ x - d1 x * (z - x) by ring]
  linarith

theorem ThirdDerivBounded.remainder {φ : ℝ → ℝ} {a b M : ℝ} (h : ThirdDerivBounded φ a b M)
    {x : ℝ} (hx : x ∈ Icc a b) :
    ∃ u v, ∀ z ∈ Icc a b, |φ z - (φ x + u * (z - x) + v * (z - x) ^ 2)| ≤ M / 6 * |z - x| ^ 3 := by
  obtain ⟨d1, d2, d3, h⟩ := h
  refine ⟨d1 x, d2 x / 2, fun z hz => ?_⟩
  have := taylor3 (fun z hz => (h z hz).1) (fun z hz => (h z hz).2.1) (fun z hz => (h z hz).2.2.1)
    (fun z hz => (h z hz).2.2.2) hx hz 1 ⟨zero_le_one, le_rfl⟩
  rw [one_mul, add_sub_cancel, mul_one, one_pow, mul_one, one_pow, mul_one] at this
  rw [show φ z - (φ x + d1 x * (z - x) + d2 x / 2 * (z - x) ^ 2) =
    φ z - φ x - d1 x * (z - x) - d2 x * (z - x) ^ 2 / 2 by ring]
  linarith

end Interpn
