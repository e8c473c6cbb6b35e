import Verif.Lemmas.SimpleBounds
import Verif.Lemmas.IeeeConst
import Verif.Lemmas.IeeeExamples

/-! C81: accuracy of multilinear interpolation in IEEE 754 arithmetic (`f32`, `f64`), with explicit
constants. -/

set_option autoImplicit false
set_option exponentiation.threshold 1100

namespace Interpn
open FloatOps Ieee

section
variable {f : Format} {N : Nat}

/-- Multilinear interpolation on a rectilinear grid, for a format of moderate precision. -/
theorem multilinear_rectilinear_ieee (hu : f.unitRoundoff ≤ 1 / 1000)
    (hη : f.underflow ≤ f.unitRoundoff / 100) (hΩ1 : 2 ≤ f.omega)
    (e : Evaluator) (he : e.Fits N) (fma : Bool) (hN : 26 * N * f.unitRoundoff ≤ 1)
    (grids : Fin N → List (Ieee f)) (vals : List (Ieee f))
    (hG : (Axes.rectilinear fun k => (grids k).map val).Valid 2 (vals.map val))
    (hgrid : ∀ k, ∀ a ∈ grids k, Finite a ∧ 2 * |val a| ≤ f.omega) (M : ℚ)
    (hM : 5 * M + 1 ≤ f.omega) (hvals : ∀ v ∈ vals, Finite v ∧ |val v| ≤ M)
    (x : Fin N → Ieee f) (hx : ∀ k, Finite (x k))
    (hin : ∀ k, InRange (grids k).length (fun i => ((grids k).map val).getD i 0) (val (x k))) :
    ∃ r y, multilinearRectilinearAt e fma grids vals x = .ok r ∧ Finite r ∧
      multilinearAt e fma (.rectilinear fun k => (grids k).map val) (vals.map val)
        (fun k => val (x k)) = .ok y ∧
      |val r - y| ≤ 26 * N * f.unitRoundoff * M + 3 * N * f.underflow := by
  have h := rounds f
  have hu0 := h.u_nonneg
  have hη0 := h.η_nonneg
  have hN0 : 0 < N := by cases e <;> first | exact he | exact he.1
  have hlen : ∀ k, 2 ≤ (grids k).length := fun k => by
    have := hG.big k; simpa [Axes.size] using this
  have hM0 := bound_nonneg hG (by norm_num) hvals
  have hx2 := fun k => inRange_small (hlen k) (fun a ha => (hgrid k a ha).2) (hin k)
  obtain ⟨hτ0, hτ1, hfac⟩ := rectilinear_factor hu0 (by linarith) hη
  have hβN : 2 * (N : ℚ) * (13 * f.unitRoundoff) ≤ 1 := by linarith
  have hL0 : 0 ≤ 1 + 2 * (weightCost f.unitRoundoff * 1 + f.underflow) := by linarith
  have hsize := blendSize_simple hu0 (by linarith) hη0 hM0 hL0 (by linarith) hfac hβN hN0
  have hNη : 6 * (N : ℚ) * f.underflow ≤ 1 := by
    have : (N : ℚ) * f.underflow ≤ N * (f.unitRoundoff / 100) := by gcongr
    linarith
  obtain ⟨r, y, h1, h2, h3, h4⟩ := C57_rectilinear h (exactCompare f) (by linarith) e he fma grids
    vals hG hgrid M hvals x (fun k => ⟨hx k, hx2 k⟩) 0 le_rfl
    (fun k => ⟨by have := (hin k).1; linarith, by have := (hin k).2; linarith⟩)
    1 (1 + 2 * (weightCost f.unitRoundoff * 1 + f.underflow)) (by ring) rfl (by linarith)
    (by linarith)
  refine ⟨r, y, h1, h2, h3, h4.trans ?_⟩
  have := blendError_simple hu0 (by linarith) hη0 hM0 hL0 (by linarith) hfac hβN
  linarith

/-- Multilinear interpolation on a regular grid, for a format of moderate precision. -/
theorem multilinear_regular_ieee (hη : f.underflow ≤ f.unitRoundoff / 100)
    (hΩ1 : 2 ^ 70 ≤ f.omega) (hp : f.p ≤ 53)
    (e : Evaluator) (he : e.Fits N) (fma : Bool) (κ : ℚ) (hκ : 0 ≤ κ)
    (hN : 100 * N * (1 + κ) * f.unitRoundoff ≤ 1)
    (dims : Fin N → Nat) (starts steps : Fin N → Ieee f) (vals : List (Ieee f))
    (hG : (Axes.regular dims (fun k => val (starts k)) fun k => val (steps k)).Valid 2
      (vals.map val))
    (hfin : ∀ k, Finite (starts k) ∧ Finite (steps k))
    (hnormal : ∀ k, f.underflow ≤ f.unitRoundoff * val (steps k))
    (hnodes : ∀ k, |val (starts k)| ≤ κ * val (steps k) ∧
      |val (starts k) + val (steps k) * ((dims k - 1 : Nat) : ℚ)| ≤ κ * val (steps k))
    (hlarge : ∀ k, 4 * (κ * val (steps k)) + 1 ≤ f.omega) (M : ℚ)
    (hM : 5 * M + 1 ≤ f.omega) (hvals : ∀ v ∈ vals, Finite v ∧ |val v| ≤ M)
    (x : Fin N → Ieee f) (hx : ∀ k, Finite (x k))
    (hin : ∀ k, InRange (dims k) (fun i => val (starts k) + val (steps k) * (i : ℚ)) (val (x k))) :
    ∃ r y, multilinearRegularAt e fma dims starts steps vals x = .ok r ∧ Finite r ∧
      multilinearAt e fma (.regular dims (fun k => val (starts k)) fun k => val (steps k))
        (vals.map val) (fun k => val (x k)) = .ok y ∧
      |val r - y| ≤ 60 * N * (1 + κ) * f.unitRoundoff * M + 3 * N * f.underflow := by
  have h := rounds f
  have hu0 := h.u_nonneg
  have hη0 := h.η_nonneg
  have hN0 : 0 < N := by cases e <;> first | exact he | exact he.1
  have hN1 : (1 : ℚ) ≤ N := by exact_mod_cast hN0
  have hbig : ∀ k, 2 ≤ dims k := fun k => hG.big k
  have hpos : ∀ k, 0 < val (steps k) := fun k => hG.step_pos (by omega) k
  have hM0 := bound_nonneg hG (by norm_num) hvals
  set u := f.unitRoundoff with hudef
  set η := f.underflow with hηdef
  have hκu0 : 0 ≤ (1 + κ) * u := by positivity
  have huκ : 100 * ((1 + κ) * u) ≤ 1 := by nlinarith
  obtain ⟨hu1, huκ', hκ53, hdim⟩ := regular_setup hp hκ huκ
  have hunits := fun k => regular_units (hpos k) (hnodes k) (hin k)
  have hd := fun k => (hunits k).1
  have hdims : ∀ k, dims k ≤ 2 ^ f.p + 1 := fun k => hdim _ (hd k)
  have hβ0 : 0 ≤ 30 * ((1 + κ) * u) := by positivity
  have hβN : 2 * (N : ℚ) * (30 * ((1 + κ) * u)) ≤ 1 := by nlinarith
  have hα : blendCost u ≤ 51 / 10 * u := by
    unfold blendCost
    nlinarith [mul_nonneg hu0 hu0]
  have hα0 := blendCost_nonneg hu0
  have hL0 : 0 ≤ 1 + (9 * u + 25 * (u * κ)) := by positivity
  have hfac : (1 + (9 * u + 25 * (u * κ))) * (1 + blendCost u) ≤ 1 + 30 * ((1 + κ) * u) := by
    have h1 : (9 * u + 25 * (u * κ)) * blendCost u ≤ (9 * u + 25 * (u * κ)) * (51 / 10 * (1 / 100)) := by
      have : blendCost u ≤ 51 / 10 * (1 / 100) := by linarith
      gcongr
    nlinarith [mul_nonneg hu0 hκ]
  have hsize := blendSize_simple hu0 (by linarith) hη0 hM0 hL0 hβ0 hfac hβN hN0
  have hNη : 6 * (N : ℚ) * η ≤ 1 := by
    have h1 : (N : ℚ) * η ≤ N * (u / 100) := by gcongr
    have h2 : (N : ℚ) * u ≤ N * ((1 + κ) * u) := by
      gcongr; nlinarith
    nlinarith
  obtain ⟨r, y, h1, h2, h3, h4⟩ := C66_regular h (exactCompare f)
    (exactWhole f (n := 2 ^ f.p + 1) le_rfl) e he fma dims starts steps vals hG hdims hfin
    (fun k => κ * val (steps k)) hnodes M hvals x hx 0 le_rfl
    (fun k => ⟨by have := (hin k).1; linarith, by have := (hin k).2; linarith⟩)
    (fun k => axisInBounds_simple hu0 hη0 hη hκ (hpos k) hu1 huκ' (hnormal k) le_rfl zero_le_two
      (hd k) (hunits k).2 (hlarge k) hκ53 hΩ1)
    1 (1 + (9 * u + 25 * (u * κ))) (by ring)
    (fun k => by
      have := regular_factor (d := dims k) hu0 hη0 hη (hpos k) hκ (mul_nonneg hκ (hpos k).le) le_rfl
        (hd k) (hnormal k) huκ
      linarith)
    (by linarith)
  refine ⟨r, y, h1, h2, h3, h4.trans ?_⟩
  have := blendError_simple (N := N) hu0 (by linarith) hη0 hM0 hL0 hβ0 hfac hβN
  linarith

end

section
variable {N : Nat}

/-- C81, `f64`, rectilinear grids, observations in range: the computed result is finite and differs
from the exact one by at most `26 N 2^-53 M`, plus `3 N 2^-1075` for underflow, where `M` bounds the
values. -/
theorem C81_rectilinear_f64 (e : Evaluator) (he : e.Fits N) (hN : N ≤ 1000) (fma : Bool)
    (grids : Fin N → List F64) (vals : List F64)
    (hG : (Axes.rectilinear fun k => (grids k).map val).Valid 2 (vals.map val))
    (hgrid : ∀ k, ∀ a ∈ grids k, Finite a ∧ |val a| ≤ 2 ^ 1022) (M : ℚ) (hM : M ≤ 2 ^ 1020)
    (hvals : ∀ v ∈ vals, Finite v ∧ |val v| ≤ M) (x : Fin N → F64) (hx : ∀ k, Finite (x k))
    (hin : ∀ k, InRange (grids k).length (fun i => ((grids k).map val).getD i 0) (val (x k))) :
    ∃ r y, multilinearRectilinearAt e fma grids vals x = .ok r ∧ Finite r ∧
      multilinearAt e fma (.rectilinear fun k => (grids k).map val) (vals.map val)
        (fun k => val (x k)) = .ok y ∧
      |val r - y| ≤ 26 * N * (1 / 2 ^ 53) * M + 3 * N * (1 / 2 ^ 1075) := by
  have hΩ := binary64_Ω
  have hN' : (N : ℚ) ≤ 1000 := by exact_mod_cast hN
  have := multilinear_rectilinear_ieee (f := Format.binary64) (by rw [binary64_u]; norm_num)
    (by rw [binary64_u, binary64_η]; norm_num) (le_trans (by norm_num) hΩ) e he fma
    (by rw [binary64_u]; linarith) grids vals hG
    (fun k a ha => ⟨(hgrid k a ha).1, le_trans (by have := (hgrid k a ha).2; linarith) hΩ⟩) M
    (le_trans (by linarith) hΩ) hvals x hx hin
  rwa [binary64_u, binary64_η] at this

/-- C81, `f32`, rectilinear grids. -/
theorem C81_rectilinear_f32 (e : Evaluator) (he : e.Fits N) (hN : N ≤ 1000) (fma : Bool)
    (grids : Fin N → List F32) (vals : List F32)
    (hG : (Axes.rectilinear fun k => (grids k).map val).Valid 2 (vals.map val))
    (hgrid : ∀ k, ∀ a ∈ grids k, Finite a ∧ |val a| ≤ 2 ^ 126) (M : ℚ) (hM : M ≤ 2 ^ 124)
    (hvals : ∀ v ∈ vals, Finite v ∧ |val v| ≤ M) (x : Fin N → F32) (hx : ∀ k, Finite (x k))
    (hin : ∀ k, InRange (grids k).length (fun i => ((grids k).map val).getD i 0) (val (x k))) :
    ∃ r y, multilinearRectilinearAt e fma grids vals x = .ok r ∧ Finite r ∧
      multilinearAt e fma (.rectilinear fun k => (grids k).map val) (vals.map val)
        (fun k => val (x k)) = .ok y ∧
      |val r - y| ≤ 26 * N * (1 / 2 ^ 24) * M + 3 * N * (1 / 2 ^ 150) := by
  have hΩ := binary32_Ω
  have hN' : (N : ℚ) ≤ 1000 := by exact_mod_cast hN
  have := multilinear_rectilinear_ieee (f := Format.binary32) (by rw [binary32_u]; norm_num)
    (by rw [binary32_u, binary32_η]; norm_num) (le_trans (by norm_num) hΩ) e he fma
    (by rw [binary32_u]; linarith) grids vals hG
    (fun k a ha => ⟨(hgrid k a ha).1, le_trans (by have := (hgrid k a ha).2; linarith) hΩ⟩) M
    (le_trans (by linarith) hΩ) hvals x hx hin
  rwa [binary32_u, binary32_η] at this

/-- C81, `f64`, regular grids with steps that are normal numbers and nodes of size up to `κ` steps:
at most `60 N (1 + κ) 2^-53 M`, plus underflow. -/
theorem C81_regular_f64 (e : Evaluator) (he : e.Fits N) (fma : Bool) (κ : ℚ) (hκ : 0 ≤ κ)
    (hN : 100 * N * (1 + κ) ≤ 2 ^ 53)
    (dims : Fin N → Nat) (starts steps : Fin N → F64) (vals : List F64)
    (hG : (Axes.regular dims (fun k => val (starts k)) fun k => val (steps k)).Valid 2
      (vals.map val))
    (hfin : ∀ k, Finite (starts k) ∧ Finite (steps k)) (hnormal : ∀ k, 1 / 2 ^ 1022 ≤ val (steps k))
    (hnodes : ∀ k, |val (starts k)| ≤ κ * val (steps k) ∧
      |val (starts k) + val (steps k) * ((dims k - 1 : Nat) : ℚ)| ≤ κ * val (steps k))
    (hlarge : ∀ k, κ * val (steps k) ≤ 2 ^ 1020) (M : ℚ) (hM : M ≤ 2 ^ 1020)
    (hvals : ∀ v ∈ vals, Finite v ∧ |val v| ≤ M) (x : Fin N → F64) (hx : ∀ k, Finite (x k))
    (hin : ∀ k, InRange (dims k) (fun i => val (starts k) + val (steps k) * (i : ℚ)) (val (x k))) :
    ∃ r y, multilinearRegularAt e fma dims starts steps vals x = .ok r ∧ Finite r ∧
      multilinearAt e fma (.regular dims (fun k => val (starts k)) fun k => val (steps k))
        (vals.map val) (fun k => val (x k)) = .ok y ∧
      |val r - y| ≤ 60 * N * (1 + κ) * (1 / 2 ^ 53) * M + 3 * N * (1 / 2 ^ 1075) := by
  have hΩ := binary64_Ω
  have := multilinear_regular_ieee (f := Format.binary64)
    (by rw [binary64_u, binary64_η]; norm_num) (le_trans (by norm_num) hΩ) le_rfl e he fma κ hκ
    (by rw [binary64_u]; linarith) dims starts steps vals hG hfin
    (fun k => by
      rw [binary64_u, binary64_η]
      have := hnormal k
      have e : (1 : ℚ) / 2 ^ 1075 = 1 / 2 ^ 53 * (1 / 2 ^ 1022) := by norm_num
      rw [e]; gcongr) hnodes
    (fun k => le_trans (by have := hlarge k; linarith) hΩ) M
    (le_trans (by linarith) hΩ) hvals x hx hin
  rwa [binary64_u, binary64_η] at this

/-- C81, `f32`, regular grids. -/
theorem C81_regular_f32 (e : Evaluator) (he : e.Fits N) (fma : Bool) (κ : ℚ) (hκ : 0 ≤ κ)
    (hN : 100 * N * (1 + κ) ≤ 2 ^ 24)
    (dims : Fin N → Nat) (starts steps : Fin N → F32) (vals : List F32)
    (hG : (Axes.regular dims (fun k => val (starts k)) fun k => val (steps k)).Valid 2
      (vals.map val))
    (hfin : ∀ k, Finite (starts k) ∧ Finite (steps k)) (hnormal : ∀ k, 1 / 2 ^ 126 ≤ val (steps k))
    (hnodes : ∀ k, |val (starts k)| ≤ κ * val (steps k) ∧
      |val (starts k) + val (steps k) * ((dims k - 1 : Nat) : ℚ)| ≤ κ * val (steps k))
    (hlarge : ∀ k, κ * val (steps k) ≤ 2 ^ 124) (M : ℚ) (hM : M ≤ 2 ^ 124)
    (hvals : ∀ v ∈ vals, Finite v ∧ |val v| ≤ M) (x : Fin N → F32) (hx : ∀ k, Finite (x k))
    (hin : ∀ k, InRange (dims k) (fun i => val (starts k) + val (steps k) * (i : ℚ)) (val (x k))) :
    ∃ r y, multilinearRegularAt e fma dims starts steps vals x = .ok r ∧ Finite r ∧
      multilinearAt e fma (.regular dims (fun k => val (starts k)) fun k => val (steps k))
        (vals.map val) (fun k => val (x k)) = .ok y ∧
      |val r - y| ≤ 60 * N * (1 + κ) * (1 / 2 ^ 24) * M + 3 * N * (1 / 2 ^ 150) := by
  have hΩ := binary32_Ω
  have := multilinear_regular_ieee (f := Format.binary32)
    (by rw [binary32_u, binary32_η]; norm_num) (le_trans (by norm_num) hΩ) (by decide) e he fma κ hκ
    (by rw [binary32_u]; linarith) dims starts steps vals hG hfin
    (fun k => by
      rw [binary32_u, binary32_η]
      have := hnormal k
      have e : (1 : ℚ) / 2 ^ 150 = 1 / 2 ^ 24 * (1 / 2 ^ 126) := by norm_num
      rw [e]; gcongr) hnodes
    (fun k => le_trans (by have := hlarge k; linarith) hΩ) M
    (le_trans (by linarith) hΩ) hvals x hx hin
  rwa [binary32_u, binary32_η] at this

end
/-! ### Concrete cases -/

/-- Hypotheses of `C81_rectilinear_f64` are satisfied. -/
example : ∃ r y, multilinearRectilinearAt .flat false exGrids64 exVals64 ![q64 (1 / 3), q64 (5 / 3)] =
      .ok r ∧
    multilinearAt .flat false (.rectilinear fun k => (exGrids64 k).map val) (exVals64.map val)
      (fun k => val (![q64 (1 / 3), q64 (5 / 3)] k)) = .ok y ∧ |val r - y| ≤ 1 / 10 ^ 12 := by
  obtain ⟨r, y, h1, -, h3, h4⟩ := C81_rectilinear_f64 .flat (show 0 < 2 by decide) (by norm_num) false
    exGrids64 exVals64 (valid_of_check (by decide +kernel)) (by decide +kernel) 16 (by norm_num)
    (by decide +kernel) ![q64 (1 / 3), q64 (5 / 3)] (by decide +kernel)
    (by unfold InRange; decide +kernel)
  exact ⟨r, y, h1, h3, h4.trans (by norm_num)⟩

/-- Hypotheses of `C81_regular_f64` are satisfied, with nodes 0.1, 0.2, 0.3 on the first axis. -/
example : ∃ r y, multilinearRegularAt (.recursive 8) true ![3, 2] ![q64 (1 / 10), q64 1]
      ![q64 (1 / 10), q64 2] exVals64 ![q64 (2 / 7), q64 (5 / 3)] = .ok r ∧
    multilinearAt (.recursive 8) true (.regular ![3, 2] (fun k => val (![q64 (1 / 10), q64 1] k))
        fun k => val (![q64 (1 / 10), q64 2] k)) (exVals64.map val)
      (fun k => val (![q64 (2 / 7), q64 (5 / 3)] k)) = .ok y ∧ |val r - y| ≤ 1 / 10 ^ 11 := by
  obtain ⟨r, y, h1, -, h3, h4⟩ := C81_regular_f64 (.recursive 8) (show 0 < 2 ∧ 2 ≤ 8 by decide) true 4
    (by norm_num) (by norm_num) ![3, 2] ![q64 (1 / 10), q64 1] ![q64 (1 / 10), q64 2] exVals64
    (valid_of_check (by decide +kernel)) (by decide +kernel) (by decide +kernel) (by decide +kernel)
    (by decide +kernel) 16 (by norm_num) (by decide +kernel) ![q64 (2 / 7), q64 (5 / 3)]
    (by decide +kernel) (by unfold InRange; decide +kernel)
  exact ⟨r, y, h1, h3, h4.trans (by norm_num)⟩

/-- Hypotheses of `C81_rectilinear_f32` are satisfied. -/
example : ∃ r y, multilinearRectilinearAt .flat false exGrids32 exVals32 ![q32 (1 / 3), q32 (5 / 3)] =
      .ok r ∧
    multilinearAt .flat false (.rectilinear fun k => (exGrids32 k).map val) (exVals32.map val)
      (fun k => val (![q32 (1 / 3), q32 (5 / 3)] k)) = .ok y ∧ |val r - y| ≤ 1 / 10 ^ 4 := by
  obtain ⟨r, y, h1, -, h3, h4⟩ := C81_rectilinear_f32 .flat (show 0 < 2 by decide) (by norm_num) false
    exGrids32 exVals32 (valid_of_check (by decide +kernel)) (by decide +kernel) 16 (by norm_num)
    (by decide +kernel) ![q32 (1 / 3), q32 (5 / 3)] (by decide +kernel)
    (by unfold InRange; decide +kernel)
  exact ⟨r, y, h1, h3, h4.trans (by norm_num)⟩

/-- Hypotheses of `C81_regular_f32` are satisfied, with nodes 0.1, 0.2, 0.3 on the first axis. -/
example : ∃ r y, multilinearRegularAt (.recursive 8) true ![3, 2] ![q32 (1 / 10), q32 1]
      ![q32 (1 / 10), q32 2] exVals32 ![q32 (2 / 7), q32 (5 / 3)] = .ok r ∧
    multilinearAt (.recursive 8) true (.regular ![3, 2] (fun k => val (![q32 (1 / 10), q32 1] k))
        fun k => val (![q32 (1 / 10), q32 2] k)) (exVals32.map val)
      (fun k => val (![q32 (2 / 7), q32 (5 / 3)] k)) = .ok y ∧ |val r - y| ≤ 1 / 10 ^ 2 := by
  obtain ⟨r, y, h1, -, h3, h4⟩ := C81_regular_f32 (.recursive 8) (show 0 < 2 ∧ 2 ≤ 8 by decide) true 4
    (by norm_num) (by norm_num) ![3, 2] ![q32 (1 / 10), q32 1] ![q32 (1 / 10), q32 2] exVals32
    (valid_of_check (by decide +kernel)) (by decide +kernel) (by decide +kernel) (by decide +kernel)
    (by decide +kernel) 16 (by norm_num) (by decide +kernel) ![q32 (2 / 7), q32 (5 / 3)]
    (by decide +kernel) (by unfold InRange; decide +kernel)
  exact ⟨r, y, h1, h3, h4.trans (by norm_num)⟩

end Interpn
