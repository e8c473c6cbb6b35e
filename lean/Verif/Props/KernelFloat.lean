import Verif.Props.Kernel
import Verif.Props.TotalError

/-! C139 in `f64` and `f32`: a computed multicubic result on a regular grid is the explicit sum up to
rounding. -/

set_option autoImplicit false
set_option linter.unusedSectionVars false
set_option exponentiation.threshold 1100

namespace Interpn
open FloatOps Ieee

section
variable {N : Nat}

/-- C139, `f64`: the computed result differs from the Catmull-Rom sum (parabolas in the end cells) of
the stored values by rounding errors. -/
theorem C139_regular_f64 (e : Evaluator) (he : e.Fits N) (hN8 : N ≤ 8) (fma : Bool) (κ : ℚ)
    (hκ : 0 ≤ κ) (hN : 4200 * N * (1 + κ) ≤ 2 ^ 53)
    (dims : Fin N → Nat) (starts steps : Fin N → F64) (vals : List F64) (lin : Bool)
    (hG : (Axes.regular dims (fun k => val (starts k)) fun k => val (steps k)).Valid 4
      (vals.map val))
    (hfin : ∀ k, Finite (starts k) ∧ Finite (steps k)) (hnormal : ∀ k, 1 / 2 ^ 1022 ≤ val (steps k))
    (hnodes : ∀ k, |val (starts k)| ≤ κ * val (steps k) ∧
      |val (starts k) + val (steps k) * ((dims k - 1 : Nat) : ℚ)| ≤ κ * val (steps k))
    (hlarge : ∀ k, κ * val (steps k) ≤ 2 ^ 1020)
    (M : ℚ) (hM : M ≤ 2 ^ 1000) (hM1 : 1 / 2 ^ 1022 ≤ M)
    (hvals : ∀ v ∈ vals, Finite v ∧ |val v| ≤ M)
    (g : (Fin N → Nat) → ℚ) (hg : Samples dims (vals.map val) g)
    (x : Fin N → F64) (hx : ∀ k, Finite (x k))
    (hin : ∀ k, InRange (dims k) (fun i => val (starts k) + val (steps k) * (i : ℚ)) (val (x k)))
    (c : Fin N → Nat) (t : Fin N → ℚ)
    (hc : ∀ k, InCell (dims k) (fun i => val (starts k) + val (steps k) * (i : ℚ)) (val (x k)) (c k))
    (ht : ∀ k, val (x k) = val (starts k) + val (steps k) * (c k + t k)) :
    ∃ r, multicubicRegularAt e fma dims starts steps vals lin x = .ok r ∧ Finite r ∧
      |val r - ∑ b : Fin N → Fin 4, (∏ k, evenWeights (dims k) (c k) (t k) (b k)) *
          g fun k => c k + (b k).val - 1| ≤
        4200 * N * (1 + κ) * (1 / 2 ^ 53) * (5 / 4) ^ N * M := by
  obtain ⟨r, y, h1, h2, h3, h4⟩ := C82_regular_f64 e he hN8 fma κ hκ hN dims starts steps vals lin hG
    hfin hnormal hnodes hlarge M hM hM1 hvals x hx hin
  rw [C139_regular e he fma dims _ _ _ lin hG g hg _
    (hG.inRange_fits (by omega) hin _ (by decide)) c t hc (.inr hin) ht] at h3
  cases h3
  exact ⟨r, h1, h2, h4⟩

/-- C139, `f32`: the computed result differs from the Catmull-Rom sum (parabolas in the end cells) of
the stored values by rounding errors. -/
theorem C139_regular_f32 (e : Evaluator) (he : e.Fits N) (hN8 : N ≤ 8) (fma : Bool) (κ : ℚ)
    (hκ : 0 ≤ κ) (hN : 4200 * N * (1 + κ) ≤ 2 ^ 24)
    (dims : Fin N → Nat) (starts steps : Fin N → F32) (vals : List F32) (lin : Bool)
    (hG : (Axes.regular dims (fun k => val (starts k)) fun k => val (steps k)).Valid 4
      (vals.map val))
    (hfin : ∀ k, Finite (starts k) ∧ Finite (steps k)) (hnormal : ∀ k, 1 / 2 ^ 126 ≤ val (steps k))
    (hnodes : ∀ k, |val (starts k)| ≤ κ * val (steps k) ∧
      |val (starts k) + val (steps k) * ((dims k - 1 : Nat) : ℚ)| ≤ κ * val (steps k))
    (hlarge : ∀ k, κ * val (steps k) ≤ 2 ^ 124)
    (M : ℚ) (hM : M ≤ 2 ^ 110) (hM1 : 1 / 2 ^ 126 ≤ M)
    (hvals : ∀ v ∈ vals, Finite v ∧ |val v| ≤ M)
    (g : (Fin N → Nat) → ℚ) (hg : Samples dims (vals.map val) g)
    (x : Fin N → F32) (hx : ∀ k, Finite (x k))
    (hin : ∀ k, InRange (dims k) (fun i => val (starts k) + val (steps k) * (i : ℚ)) (val (x k)))
    (c : Fin N → Nat) (t : Fin N → ℚ)
    (hc : ∀ k, InCell (dims k) (fun i => val (starts k) + val (steps k) * (i : ℚ)) (val (x k)) (c k))
    (ht : ∀ k, val (x k) = val (starts k) + val (steps k) * (c k + t k)) :
    ∃ r, multicubicRegularAt e fma dims starts steps vals lin x = .ok r ∧ Finite r ∧
      |val r - ∑ b : Fin N → Fin 4, (∏ k, evenWeights (dims k) (c k) (t k) (b k)) *
          g fun k => c k + (b k).val - 1| ≤
        4200 * N * (1 + κ) * (1 / 2 ^ 24) * (5 / 4) ^ N * M := by
  obtain ⟨r, y, h1, h2, h3, h4⟩ := C82_regular_f32 e he hN8 fma κ hκ hN dims starts steps vals lin hG
    hfin hnormal hnodes hlarge M hM hM1 hvals x hx hin
  rw [C139_regular e he fma dims _ _ _ lin hG g hg _
    (hG.inRange_fits (by omega) hin _ (by decide)) c t hc (.inr hin) ht] at h3
  cases h3
  exact ⟨r, h1, h2, h4⟩

end

/-! ### Concrete cases -/

/-- Hypotheses of `C139_regular_f64` are satisfied, with nodes 0.1, …, 0.4 on the first axis and an
observation near 2/7. -/
example : ∃ r, multicubicRegularAt .flat true ![4, 5] ![q64 (1 / 10), q64 0]
      ![q64 (1 / 10), q64 1] exTabC64 false ![q64 (2 / 7), q64 (5 / 3)] = .ok r ∧
    |val r - ∑ b : Fin 2 → Fin 4, (∏ k, evenWeights (![4, 5] k) (![1, 1] k)
      (![(val (q64 (2 / 7)) - val (q64 (1 / 10))) / val (q64 (1 / 10)) - 1, val (q64 (5 / 3)) - 1] k)
        (b k)) * valAt 0 ![4, 5] (exTabC64.map val) fun k => ![1, 1] k + (b k).val - 1| ≤
      1 / 10 ^ 11 := by
  obtain ⟨r, h1, -, h2⟩ := C139_regular_f64 .flat (show 0 < 2 by decide) (by norm_num) true 5
    (by norm_num) (by norm_num) ![4, 5] ![q64 (1 / 10), q64 0] ![q64 (1 / 10), q64 1] exTabC64 false
    (valid_of_check (by decide +kernel)) (by decide +kernel) (by decide +kernel) (by decide +kernel)
    (by decide +kernel) 1 (by norm_num) (by norm_num) (by decide +kernel) (valAt 0 ![4, 5] (exTabC64.map val))
    (samples_valAt _ _ _ (by decide +kernel)) ![q64 (2 / 7), q64 (5 / 3)] (by decide +kernel)
    (by unfold InRange; decide +kernel) ![1, 1]
    ![(val (q64 (2 / 7)) - val (q64 (1 / 10))) / val (q64 (1 / 10)) - 1, val (q64 (5 / 3)) - 1]
    (by unfold InCell; decide +kernel) (by decide +kernel)
  exact ⟨r, h1, h2.trans (by norm_num)⟩

/-- Hypotheses of `C139_regular_f32` are satisfied, with nodes 0.1, …, 0.4 on the first axis and an
observation near 2/7. -/
example : ∃ r, multicubicRegularAt .flat true ![4, 5] ![q32 (1 / 10), q32 0]
      ![q32 (1 / 10), q32 1] exTabC32 false ![q32 (2 / 7), q32 (5 / 3)] = .ok r ∧
    |val r - ∑ b : Fin 2 → Fin 4, (∏ k, evenWeights (![4, 5] k) (![1, 1] k)
      (![(val (q32 (2 / 7)) - val (q32 (1 / 10))) / val (q32 (1 / 10)) - 1, val (q32 (5 / 3)) - 1] k)
        (b k)) * valAt 0 ![4, 5] (exTabC32.map val) fun k => ![1, 1] k + (b k).val - 1| ≤
      1 / 10 := by
  obtain ⟨r, h1, -, h2⟩ := C139_regular_f32 .flat (show 0 < 2 by decide) (by norm_num) true 5
    (by norm_num) (by norm_num) ![4, 5] ![q32 (1 / 10), q32 0] ![q32 (1 / 10), q32 1] exTabC32 false
    (valid_of_check (by decide +kernel)) (by decide +kernel) (by decide +kernel) (by decide +kernel)
    (by decide +kernel) 1 (by norm_num) (by norm_num) (by decide +kernel) (valAt 0 ![4, 5] (exTabC32.map val))
    (samples_valAt _ _ _ (by decide +kernel)) ![q32 (2 / 7), q32 (5 / 3)] (by decide +kernel)
    (by unfold InRange; decide +kernel) ![1, 1]
    ![(val (q32 (2 / 7)) - val (q32 (1 / 10))) / val (q32 (1 / 10)) - 1, val (q32 (5 / 3)) - 1]
    (by unfold InCell; decide +kernel) (by decide +kernel)
  exact ⟨r, h1, h2.trans (by norm_num)⟩

end Interpn
