import Verif.Props.Rounding
import Verif.Props.RoundingRegular
import Verif.Props.RoundingCubic
import Verif.Props.RoundingCubicRegular

/-! Simple upper bounds for the error bounds of C57, C66 and C70 that include underflow. -/

set_option autoImplicit false
set_option linter.unusedSectionVars false

namespace Interpn

section
variable {K : Type} [Field K] [LinearOrder K] [IsStrictOrderedRing K] [FloorRing K] {u η L M β : K} {N : Nat}

theorem pow_le_two {X : K} (h0 : 0 ≤ X) (hX : X ≤ 1 + β) (hβ : 0 ≤ β) (hN : 2 * (N : K) * β ≤ 1) :
    X ^ N ≤ 1 + 2 * N * β :=
  (pow_le_pow_left₀ h0 hX N).trans (one_add_pow_le hβ N hN)

/-- Error of a blend, weights included. -/
theorem blendError_simple (hu : 0 ≤ u) (hu1 : u ≤ 1 / 100) (hη : 0 ≤ η) (hM : 0 ≤ M)
    (hL : 0 ≤ L) (hβ : 0 ≤ β) (hLβ : L * (1 + blendCost u) ≤ 1 + β) (hN : 2 * (N : K) * β ≤ 1) :
    blendError u η L M N + (L ^ N - 1 ^ N) * M ≤ 2 * N * β * M + 3 * N * η := by
  have hc := blendCost_nonneg hu
  have h1 := pow_le_two (N := N) (mul_nonneg hL (by linarith : 0 ≤ 1 + blendCost u)) hLβ hβ hN
  set X := (L * (1 + blendCost u)) ^ N with hX
  have hX0 : 0 ≤ X := pow_nonneg (mul_nonneg hL (by linarith)) N
  have e : blendError u η L M N + (L ^ N - 1 ^ N) * M = (X - 1) * M + N * X * ((1 + u) * η) := by
    unfold blendError; rw [← hX]; ring
  rw [e]
  have h2 : (X - 1) * M ≤ 2 * N * β * M := mul_le_mul_of_nonneg_right (by linarith) hM
  have h3 : (N : K) * X * ((1 + u) * η) ≤ N * 2 * ((1 + 1 / 100) * η) := by
    have : X ≤ 2 := by linarith
    gcongr
  have h4 : 0 ≤ (N : K) * η := by positivity
  linarith

/-- Nothing overflows in a blend. -/
theorem blendSize_simple (hu : 0 ≤ u) (hu1 : u ≤ 1 / 100) (hη : 0 ≤ η) (hM : 0 ≤ M)
    (hL : 0 ≤ L) (hβ : 0 ≤ β) (hLβ : L * (1 + blendCost u) ≤ 1 + β) (hN : 2 * (N : K) * β ≤ 1)
    (hN0 : 0 < N) :
    2 * (1 + u) ^ 2 * (L * blendSize u η L M (N - 1)) + η ≤ 5 * M + 6 * N * η := by
  have hc := blendCost_nonneg hu
  have h1 := pow_le_two (N := N) (mul_nonneg hL (by linarith : 0 ≤ 1 + blendCost u)) hLβ hβ hN
  obtain ⟨n, rfl⟩ : ∃ n, N = n + 1 := ⟨N - 1, by omega⟩
  set X := L * (1 + blendCost u) with hX
  have hX0 : 0 ≤ X := mul_nonneg hL (by linarith)
  have hLX : L ≤ X := by rw [hX]; nlinarith
  have h2 : L * blendSize u η L M n ≤ X ^ (n + 1) * (M + (n + 1 : Nat) * ((1 + u) * η)) := by
    unfold blendSize
    rw [← hX]
    have hn : (n : K) ≤ ((n + 1 : Nat) : K) := by push_cast; linarith
    calc L * (X ^ n * M + n * X ^ n * ((1 + u) * η))
        ≤ X * (X ^ n * M + ((n + 1 : Nat) : K) * X ^ n * ((1 + u) * η)) := by gcongr
      _ = _ := by ring
  have h3 : X ^ (n + 1) * (M + (n + 1 : Nat) * ((1 + u) * η)) ≤
      2 * (M + (n + 1 : Nat) * ((1 + 1 / 100) * η)) := by
    have : X ^ (n + 1) ≤ 2 := by linarith
    gcongr
  have h4 : (1 + u) ^ 2 ≤ (1 + 1 / 100) ^ 2 := by gcongr
  have hnn : 0 ≤ ((n + 1 : Nat) : K) * η := by positivity
  have hn1 : η ≤ ((n + 1 : Nat) : K) * η := by
    have : (1 : K) ≤ ((n + 1 : Nat) : K) := by push_cast; linarith [Nat.cast_nonneg (α := K) n]
    nlinarith
  have hpos : 0 ≤ 2 * (M + (n + 1 : Nat) * ((1 + 1 / 100) * η)) := by positivity
  have h5 : 2 * (1 + u) ^ 2 * (L * blendSize u η L M n) ≤
      2 * (1 + 1 / 100) ^ 2 * (2 * (M + (n + 1 : Nat) * ((1 + 1 / 100) * η))) := by
    have h6 := h2.trans h3
    have h7 : 0 ≤ 2 * (1 + u) ^ 2 := by positivity
    calc _ ≤ 2 * (1 + u) ^ 2 * (2 * (M + (n + 1 : Nat) * ((1 + 1 / 100) * η))) := by gcongr
      _ ≤ _ := by gcongr
  simp only [Nat.add_sub_cancel]
  linarith

/-- The factor of one axis of a rectilinear grid, inside the range. -/
theorem rectilinear_factor (hu : 0 ≤ u) (hu1 : u ≤ 1 / 100) (hηu : η ≤ u / 100) :
    0 ≤ weightCost u ∧ weightCost u ≤ 1 ∧
      (1 + 2 * (weightCost u * 1 + η)) * (1 + blendCost u) ≤ 1 + 13 * u := by
  have hα0 := blendCost_nonneg hu
  have huu : u * u ≤ u / 100 := by nlinarith
  have hα : blendCost u ≤ 51 / 10 * u := by
    unfold blendCost
    nlinarith [mul_nonneg hu hu]
  have hτ0 := weightCost_nonneg hu (by linarith : u < 1)
  have hτ : weightCost u ≤ 31 / 10 * u := by
    unfold weightCost
    rw [div_le_iff₀ (by linarith)]
    nlinarith
  refine ⟨hτ0, by linarith, ?_⟩
  have h1 : weightCost u * blendCost u ≤ 31 / 10 * u * (51 / 10 * u) := by gcongr
  have h2 : η * blendCost u ≤ u / 100 * (51 / 10 * u) := by gcongr
  nlinarith

/-- The factor of one axis of a regular grid with positive step, nodes of size up to `κ` steps. -/
theorem regular_factor {κ A s : K} {d : Nat} (hu : 0 ≤ u) (hη : 0 ≤ η) (hηu : η ≤ u / 100)
    (hs : 0 < s) (hκ : 0 ≤ κ) (hA0 : 0 ≤ A) (hA : A ≤ κ * s) (hd : ((d - 1 : Nat) : K) ≤ 2 * κ)
    (hηs : η ≤ u * s) (huκ : 100 * ((1 + κ) * u) ≤ 1) :
    axisDeviation u η A 0 s d ≤ 9 * u + 25 * (u * κ) := by
  have huκ0 : 0 ≤ u * κ := by positivity
  have hu1 : u ≤ 1 / 100 := by nlinarith
  have huu : u * u ≤ u / 100 := by nlinarith
  have hn0 : (0 : K) ≤ ((d - 1 : Nat) : K) := Nat.cast_nonneg _
  have hAs : A / s ≤ κ := by rw [div_le_iff₀ hs]; exact hA
  have hAs0 : 0 ≤ A / s := div_nonneg hA0 hs.le
  have hes : η / s ≤ u := by rw [div_le_iff₀ hs]; exact hηs
  have hes0 : 0 ≤ η / s := div_nonneg hη hs.le
  unfold axisDeviation regularWeightError positionError nodeError
  simp only [add_zero]
  rw [add_div, mul_div_assoc, mul_div_assoc]
  set a := A / s
  set b := η / s
  set n := ((d - 1 : Nat) : K)
  have e1 : 2 * u + u ^ 2 ≤ 201 / 100 * u := by nlinarith
  have e2 : (2 * u + u ^ 2) * n ≤ 201 / 100 * u * (2 * κ) := by gcongr
  have e3 : (2 * u + u ^ 2) * (1 + ((2 * u + u ^ 2) * n + η)) ≤
      201 / 100 * u * (1 + (201 / 100 * u * (2 * κ) + u / 100)) := by gcongr
  have e4 : (1 + u) ^ 2 ≤ 1 + 201 / 100 * u := by nlinarith
  have e5 : 3 * u + 2 * u ^ 2 ≤ 302 / 100 * u := by nlinarith
  have e6 : (1 + u) ^ 2 * ((3 * u + 2 * u ^ 2) * a + (1 + u) * b) ≤
      (1 + 201 / 100 * (1 / 100)) * (302 / 100 * u * κ + (1 + 1 / 100) * u) := by
    have e4' : (1 + u) ^ 2 ≤ 1 + 201 / 100 * (1 / 100) := by linarith
    gcongr
  have e7 : u * (u * κ) ≤ 1 / 100 * (u * κ) := by nlinarith
  nlinarith

theorem positionError_simple {κ lam n : K} (hu : 0 ≤ u) (hηu : η ≤ u / 100)
    (hlam : 0 ≤ lam) (hlam2 : lam ≤ 2) (hn0 : 0 ≤ n) (hn : n ≤ 2 * κ) (hu1 : u ≤ 1 / 100)
    (huκ : u * κ ≤ 1 / 100) : positionError u η (n + lam) ≤ 1 / 10 := by
  unfold positionError
  have h1 : 2 * u + u ^ 2 ≤ 201 / 100 * u := by nlinarith
  have h2 : (2 * u + u ^ 2) * (n + lam) ≤ 201 / 100 * u * (2 * κ + 2) := by gcongr
  linarith

theorem nodeError_simple {κ s : K} (hu : 0 ≤ u) (hκ : 0 ≤ κ) (hs : 0 < s)
    (hu1 : u ≤ 1 / 100) (huκ : u * κ ≤ 1 / 100) (hηs : η ≤ u * s) :
    nodeError u η (κ * s) / s ≤ 1 / 10 := by
  rw [div_le_iff₀ hs]
  unfold nodeError
  have e1 : 3 * u + 2 * u ^ 2 ≤ 302 / 100 * u := by nlinarith
  have e2 : (3 * u + 2 * u ^ 2) * (κ * s) ≤ 302 / 100 * u * (κ * s) := by gcongr
  have e3 : u * κ * s ≤ 1 / 100 * s := by gcongr
  have e5 : u * s ≤ 1 / 100 * s := by gcongr
  have e4 : (1 + u) * η ≤ (1 + 1 / 100) * (1 / 100 * s) := by
    have := hηs.trans e5
    calc (1 + u) * η ≤ (1 + u) * (1 / 100 * s) := by gcongr
      _ ≤ _ := by gcongr
  linarith

/-- Nothing overflows when an observation is located. -/
theorem axisInBounds_simple {κ s lam x Ω : K} {d : Nat} (hu : 0 ≤ u) (hη : 0 ≤ η)
    (hηu : η ≤ u / 100) (hκ : 0 ≤ κ) (hs : 0 < s) (hu1 : u ≤ 1 / 100) (huκ : u * κ ≤ 1 / 100)
    (hηs : η ≤ u * s) (hlam : 0 ≤ lam) (hlam2 : lam ≤ 2) (hd : ((d - 1 : Nat) : K) ≤ 2 * κ)
    (hx : |x| ≤ κ * s) (hlarge : 4 * (κ * s) + 1 ≤ Ω) (hκ2 : κ ≤ 2 ^ 53) (hΩ : 2 ^ 70 ≤ Ω) :
    AxisInBounds u η Ω (κ * s) lam s x d := by
  have hn0 : (0 : K) ≤ ((d - 1 : Nat) : K) := Nat.cast_nonneg _
  have hA : 0 ≤ κ * s := by positivity
  have hpe := positionError_simple hu hηu hlam hlam2 hn0 hd hu1 huκ
  have hpe0 : 0 ≤ positionError u η (((d - 1 : Nat) : K) + lam) :=
    positionError_nonneg hu hη (by positivity)
  have hne := nodeError_simple hu hκ hs hu1 huκ hηs
  have hne0 : 0 ≤ nodeError u η (κ * s) / s := div_nonneg (nodeError_nonneg hu hη hA) hs.le
  have hbig : (2 : K) ^ 53 * 4 + 100 ≤ 2 ^ 63 := by norm_num
  have hbig2 : (2 : K) ^ 63 ≤ 2 ^ 70 := by norm_num
  have hne2 : nodeError u η (κ * s) ≤ 1 / 25 * (κ * s) + 1 / 50 := by
    unfold nodeError
    have h1 : 3 * u + 2 * u ^ 2 ≤ 1 / 25 := by nlinarith
    have h2 : (1 + u) * η ≤ 2 * (1 / 100) := by
      have : η ≤ 1 / 100 := by linarith
      have : 1 + u ≤ 2 := by linarith
      gcongr
    have : (3 * u + 2 * u ^ 2) * (κ * s) ≤ 1 / 25 * (κ * s) := by gcongr
    linarith
  refine ⟨?_, ?_, ?_, ?_, ?_⟩
  · have : 2 * (1 + u) * (κ * s) ≤ 2 * (1 + 1 / 100) * (κ * s) := by gcongr
    linarith
  · linarith
  · have : (1 + u) * (((d - 1 : Nat) : K) + lam) ≤ (1 + 1 / 100) * (2 * κ + 2) := by gcongr
    linarith
  · have : (1 + u) * (1 + lam + positionError u η (((d - 1 : Nat) : K) + lam) +
        nodeError u η (κ * s) / s) ≤ (1 + 1 / 100) * (1 + 2 + 1 / 10 + 1 / 10) := by gcongr
    linarith
  · linarith

/-- The nodes of a regular axis and the observations in its range, in units of the step. -/
theorem regular_units {κ s a x : K} {d : Nat} (hs : 0 < s)
    (h : |a| ≤ κ * s ∧ |a + s * ((d - 1 : Nat) : K)| ≤ κ * s)
    (hin : InRange d (fun i : Nat => a + s * (i : K)) x) :
    ((d - 1 : Nat) : K) ≤ 2 * κ ∧ |x| ≤ κ * s := by
  have h1 := abs_le.1 h.1
  have h2 := abs_le.1 h.2
  have ⟨h3, h4⟩ := hin
  simp only [Nat.cast_zero, mul_zero, add_zero] at h3
  constructor
  · have : s * ((d - 1 : Nat) : K) ≤ s * (2 * κ) := by linarith
    exact le_of_mul_le_mul_left this hs
  · rw [abs_le]
    constructor <;> linarith [h1.1, h2.2]

/-- Error of a weight on a regular grid. -/
theorem regularWeightError_simple {κ s R : K} (hu : 0 ≤ u) (hηu : η ≤ u / 100)
    (hκ : 0 ≤ κ) (hs : 0 < s) (hu1 : u ≤ 1 / 100) (hηs : η ≤ u * s) (hR : 0 ≤ R) :
    regularWeightError u η (κ * s) s R ≤ 201 / 100 * u * R + 11 / 10 * u + 32 / 10 * (u * κ) := by
  unfold regularWeightError nodeError
  rw [add_div, mul_div_assoc, mul_div_assoc, mul_div_assoc, div_self hs.ne', mul_one]
  have hes : η / s ≤ u := by rw [div_le_iff₀ hs]; exact hηs
  have e1 : 2 * u + u ^ 2 ≤ 201 / 100 * u := by nlinarith
  have e2 : (2 * u + u ^ 2) * R ≤ 201 / 100 * u * R := by gcongr
  have e4 : (1 + u) ^ 2 ≤ 1 + 201 / 100 * (1 / 100) := by nlinarith
  have e5 : 3 * u + 2 * u ^ 2 ≤ 302 / 100 * u := by nlinarith
  have e7 : (1 + u) * (η / s) ≤ (1 + 1 / 100) * u := by
    calc (1 + u) * (η / s) ≤ (1 + u) * u := by gcongr
      _ ≤ _ := by gcongr
  have e6 : (1 + u) ^ 2 * ((3 * u + 2 * u ^ 2) * κ + (1 + u) * (η / s)) ≤
      (1 + 201 / 100 * (1 / 100)) * (302 / 100 * u * κ + (1 + 1 / 100) * u) := by
    calc _ ≤ (1 + u) ^ 2 * (302 / 100 * u * κ + (1 + 1 / 100) * u) := by gcongr
      _ ≤ _ := by gcongr
  have := mul_nonneg hu hκ
  linarith

end
end Interpn
