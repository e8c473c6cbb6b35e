import Verif.Lemmas.SimpleBounds
import Verif.Lemmas.IeeeConst
import Verif.Lemmas.IeeeExamples

/-! C82: accuracy of multicubic interpolation in IEEE 754 arithmetic (`f32`, `f64`), with explicit
constants. -/

set_option autoImplicit false
set_option exponentiation.threshold 1100

namespace Interpn
open FloatOps Ieee

section
variable {f : Format} {N : Nat}

/-- Multicubic interpolation on a rectilinear grid. `B` bounds the amplification of one axis. -/
theorem multicubic_rectilinear_ieee (hu : f.unitRoundoff ≤ 1 / 1000)
    (e : Evaluator) (he : e.Fits N) (hN8 : N ≤ 8) (fma : Bool)
    (grids : Fin N → List (Ieee f)) (vals : List (Ieee f)) (lin : Bool)
    (hG : (Axes.rectilinear fun k => (grids k).map val).Valid 4 (vals.map val))
    (hgrid : ∀ k, ∀ a ∈ grids k, Finite a ∧ 2 * |val a| ≤ f.omega) (M : ℚ)
    (hvals : ∀ v ∈ vals, Finite v ∧ |val v| ≤ M)
    (x : Fin N → Ieee f) (hx : ∀ k, Finite (x k))
    (hin : ∀ k, InRange (grids k).length (fun i => ((grids k).map val).getD i 0) (val (x k)))
    (ρ : ℚ) (hρ : 1 ≤ ρ)
    (hmesh : ∀ k, MeshRatio (grids k).length (fun i => ((grids k).map val).getD i 0) ρ)
    (hN : 2 * N * (1600 * ρ * f.unitRoundoff) ≤ 1)
    (hunder : f.underflow * (1 + ρ) ≤ f.unitRoundoff) (hunderM : f.underflow ≤ f.unitRoundoff * M)
    (B : ℚ) (hB : 2 + ρ / 2 ≤ B) (hover : 64 * (B ^ 7 * M * ρ) ≤ f.omega)
    (hover1 : 64 * ρ ≤ f.omega) :
    ∃ r y, multicubicRectilinearAt e fma grids vals lin x = .ok r ∧ Finite r ∧
      multicubicAt e fma (.rectilinear fun k => (grids k).map val) (vals.map val) lin
        (fun k => val (x k)) = .ok y ∧
      |val r - y| ≤
        3200 * N * ρ * f.unitRoundoff * (1 + ρ ^ 2 / (2 * (1 + ρ))) ^ N * M := by
  have h := rounds f
  have hu0 := h.u_nonneg
  have hN0 : 0 < N := by cases e <;> first | exact he | exact he.1
  have hN1 : (1 : ℚ) ≤ N := by exact_mod_cast hN0
  have hlen : ∀ k, 4 ≤ (grids k).length := fun k => by
    have := hG.big k; simpa [Axes.size] using this
  have hM0 := bound_nonneg hG (by norm_num) hvals
  have hx2 := fun k => inRange_small (by have := hlen k; omega) (fun a ha => (hgrid k a ha).2) (hin k)
  have hκ0 : 0 ≤ 1600 * ρ * f.unitRoundoff := by positivity
  have hκ1 : 1600 * ρ * f.unitRoundoff ≤ 1 := by nlinarith
  have hΛ1 : 1 ≤ 1 + ρ ^ 2 / (2 * (1 + ρ)) := by
    have : 0 ≤ ρ ^ 2 / (2 * (1 + ρ)) := by positivity
    linarith
  have hΛ2 : 1 + ρ ^ 2 / (2 * (1 + ρ)) ≤ 1 + ρ / 2 := by
    have : ρ ^ 2 / (2 * (1 + ρ)) ≤ ρ / 2 := by
      rw [div_le_div_iff₀ (by positivity) (by norm_num)]; nlinarith
    linarith
  have hpow : (1 + ρ ^ 2 / (2 * (1 + ρ)) + 1600 * ρ * f.unitRoundoff) ^ (N - 1) ≤ B ^ 7 :=
    calc _ ≤ B ^ (N - 1) := by gcongr; linarith
      _ ≤ B ^ 7 := pow_le_pow_right₀ (by linarith) (by omega)
  obtain ⟨r, y, h1, h2, h3, h4⟩ := C69_rectilinear h (exactCompare f) (exactSign f) hu e he fma grids
    vals lin hG hgrid M hvals x (fun k => ⟨hx k, hx2 k⟩) hin ρ hρ hmesh _ _ rfl rfl hunder hunderM
    hover1 (le_trans (by gcongr) hover)
  refine ⟨r, y, h1, h2, h3, h4.trans ?_⟩
  have := C69_simple_bound (N := N) _ _ M hΛ1 hκ0 hM0 hN
  linarith

/-- Multicubic interpolation on a regular grid. -/
theorem multicubic_regular_ieee (hu : f.unitRoundoff ≤ 1 / 1000)
    (hη : f.underflow ≤ f.unitRoundoff / 100)
    (hΩ1 : 2 ^ 70 ≤ f.omega) (hp : f.p ≤ 53)
    (e : Evaluator) (he : e.Fits N) (hN8 : N ≤ 8) (fma : Bool) (κ : ℚ) (hκ : 0 ≤ κ)
    (hN : 4200 * N * (1 + κ) * f.unitRoundoff ≤ 1)
    (dims : Fin N → Nat) (starts steps : Fin N → Ieee f) (vals : List (Ieee f)) (lin : Bool)
    (hG : (Axes.regular dims (fun k => val (starts k)) fun k => val (steps k)).Valid 4
      (vals.map val))
    (hfin : ∀ k, Finite (starts k) ∧ Finite (steps k))
    (hnormal : ∀ k, f.underflow ≤ f.unitRoundoff * val (steps k))
    (hnodes : ∀ k, |val (starts k)| ≤ κ * val (steps k) ∧
      |val (starts k) + val (steps k) * ((dims k - 1 : Nat) : ℚ)| ≤ κ * val (steps k))
    (hlarge : ∀ k, 4 * (κ * val (steps k)) + 1 ≤ f.omega) (M : ℚ)
    (hM : 2 ^ 14 * M ≤ f.omega) (hunderM : f.underflow ≤ f.unitRoundoff * M)
    (hvals : ∀ v ∈ vals, Finite v ∧ |val v| ≤ M)
    (x : Fin N → Ieee f) (hx : ∀ k, Finite (x k))
    (hin : ∀ k, InRange (dims k) (fun i => val (starts k) + val (steps k) * (i : ℚ)) (val (x k))) :
    ∃ r y, multicubicRegularAt e fma dims starts steps vals lin x = .ok r ∧ Finite r ∧
      multicubicAt e fma (.regular dims (fun k => val (starts k)) fun k => val (steps k))
        (vals.map val) lin (fun k => val (x k)) = .ok y ∧
      |val r - y| ≤ 4200 * N * (1 + κ) * f.unitRoundoff * (5 / 4) ^ N * M := by
  have h := rounds f
  have hu0 := h.u_nonneg
  have hη0 := h.η_nonneg
  have hN0 : 0 < N := by cases e <;> first | exact he | exact he.1
  have hN1 : (1 : ℚ) ≤ N := by exact_mod_cast hN0
  have hpos : ∀ k, 0 < val (steps k) := fun k => hG.step_pos (by omega) k
  have hM0 := bound_nonneg hG (by norm_num) hvals
  have hκu0 : 0 ≤ (1 + κ) * f.unitRoundoff := by positivity
  have hκu : 4200 * ((1 + κ) * f.unitRoundoff) ≤ 1 := by nlinarith
  obtain ⟨hu1, huκ', hκ53, hdim⟩ := regular_setup hp hκ (by linarith)
  have hunits := fun k => regular_units (hpos k) (hnodes k) (hin k)
  have hw := fun k => regularWeightError_simple hu0 hη hκ (hpos k) hu1 (hnormal k)
    (by norm_num : (0 : ℚ) ≤ 3)
  have hpe : ∀ k, positionError f.unitRoundoff f.underflow ((dims k - 1 : Nat) : ℚ) ≤
      402 / 100 * (f.unitRoundoff * κ) + f.unitRoundoff / 100 := by
    intro k
    unfold positionError
    have h1 : 2 * f.unitRoundoff + f.unitRoundoff ^ 2 ≤ 201 / 100 * f.unitRoundoff := by nlinarith
    have h2 : (2 * f.unitRoundoff + f.unitRoundoff ^ 2) * ((dims k - 1 : Nat) : ℚ) ≤
        201 / 100 * f.unitRoundoff * (2 * κ) := by
      have := (hunits k).1
      gcongr
    linarith
  have hκ' : 0 ≤ 2100 * ((1 + κ) * f.unitRoundoff) := by positivity
  have huκ0 : 0 ≤ f.unitRoundoff * κ := by positivity
  obtain ⟨r, y, h1, h2, h3, h4⟩ := C70_regular h (exactCompare f) (exactSign f) (totalOfUsize f)
    (exactWhole f (n := 2 ^ f.p + 1) le_rfl) hu e he fma dims starts steps vals lin hG
    (fun k => hdim _ (hunits k).1) hfin (fun k => κ * val (steps k)) hnodes M hvals x hx hin
    (fun k => axisInBounds_simple hu0 hη0 hη hκ (hpos k) hu1 huκ' (hnormal k) zero_le_two le_rfl
      (hunits k).1 (hunits k).2 (hlarge k) hκ53 hΩ1)
    (fun k => by have := hw k; have := hpe k; linarith)
    (2100 * ((1 + κ) * f.unitRoundoff))
    (fun k => by have := hw k; have := hpe k; unfold cubicAxisDeviation; linarith)
    (by linarith) hunderM (le_trans (by norm_num) hΩ1)
    (by
      have h5 : (5 / 4 + 2100 * ((1 + κ) * f.unitRoundoff)) ^ (N - 1) ≤ 2 ^ 7 :=
        calc _ ≤ (2 : ℚ) ^ (N - 1) := by gcongr; linarith
          _ ≤ 2 ^ 7 := pow_le_pow_right₀ (by norm_num) (by omega)
      have h6 : (5 / 4 + 2100 * ((1 + κ) * f.unitRoundoff)) ^ (N - 1) * M ≤ 2 ^ 7 * M := by gcongr
      linarith)
  refine ⟨r, y, h1, h2, h3, h4.trans ?_⟩
  have := C69_simple_bound (N := N) (5 / 4) _ M (by norm_num) hκ' hM0 (by linarith)
  linarith

/-- C82, `f64`, rectilinear grids whose adjacent cells differ in width by at most a factor `ρ`,
observations in range: the computed result is finite and differs from the exact one by at most
`3200 N ρ 2^-53 Λ^N M`, where `M` bounds the values and `Λ = 1 + ρ²/(2(1+ρ))`. -/
theorem C82_rectilinear_f64 (e : Evaluator) (he : e.Fits N) (hN8 : N ≤ 8) (fma : Bool)
    (grids : Fin N → List F64) (vals : List F64) (lin : Bool)
    (hG : (Axes.rectilinear fun k => (grids k).map val).Valid 4 (vals.map val))
    (hgrid : ∀ k, ∀ a ∈ grids k, Finite a ∧ |val a| ≤ 2 ^ 1022)
    (M : ℚ) (hM : M ≤ 2 ^ 700) (hM1 : 1 / 2 ^ 1022 ≤ M)
    (hvals : ∀ v ∈ vals, Finite v ∧ |val v| ≤ M) (x : Fin N → F64) (hx : ∀ k, Finite (x k))
    (hin : ∀ k, InRange (grids k).length (fun i => ((grids k).map val).getD i 0) (val (x k)))
    (ρ : ℚ) (hρ : 1 ≤ ρ) (hρ2 : ρ ≤ 2 ^ 30)
    (hmesh : ∀ k, MeshRatio (grids k).length (fun i => ((grids k).map val).getD i 0) ρ) :
    ∃ r y, multicubicRectilinearAt e fma grids vals lin x = .ok r ∧ Finite r ∧
      multicubicAt e fma (.rectilinear fun k => (grids k).map val) (vals.map val) lin
        (fun k => val (x k)) = .ok y ∧
      |val r - y| ≤ 3200 * N * ρ * (1 / 2 ^ 53) * (1 + ρ ^ 2 / (2 * (1 + ρ))) ^ N * M := by
  have hΩ := binary64_Ω
  have hN' : (N : ℚ) ≤ 8 := by exact_mod_cast hN8
  have hM0 := bound_nonneg hG (by norm_num) hvals
  have := multicubic_rectilinear_ieee (f := Format.binary64) (by rw [binary64_u]; norm_num)
    e he hN8 fma grids vals lin hG
    (fun k a ha => ⟨(hgrid k a ha).1, le_trans (by have := (hgrid k a ha).2; linarith) hΩ⟩) M
    hvals x hx hin ρ hρ hmesh
    (by
      rw [binary64_u]
      have : (N : ℚ) * ρ ≤ 8 * 2 ^ 30 := by gcongr
      linarith)
    (by rw [binary64_u, binary64_η]; linarith)
    (by
      rw [binary64_u, binary64_η]
      have e : (1 : ℚ) / 2 ^ 1075 = 1 / 2 ^ 53 * (1 / 2 ^ 1022) := by norm_num
      rw [e]; gcongr) (2 ^ 30) (by linarith)
    (by
      have : (2 ^ 30) ^ 7 * M * ρ ≤ (2 ^ 30) ^ 7 * 2 ^ 700 * 2 ^ 30 := by gcongr
      refine le_trans ?_ hΩ
      linarith)
    (le_trans (by linarith) hΩ)
  rwa [binary64_u] at this

/-- C82, `f32`, rectilinear grids. -/
theorem C82_rectilinear_f32 (e : Evaluator) (he : e.Fits N) (hN8 : N ≤ 8) (fma : Bool)
    (grids : Fin N → List F32) (vals : List F32) (lin : Bool)
    (hG : (Axes.rectilinear fun k => (grids k).map val).Valid 4 (vals.map val))
    (hgrid : ∀ k, ∀ a ∈ grids k, Finite a ∧ |val a| ≤ 2 ^ 126)
    (M : ℚ) (hM : M ≤ 2 ^ 40) (hM1 : 1 / 2 ^ 126 ≤ M)
    (hvals : ∀ v ∈ vals, Finite v ∧ |val v| ≤ M) (x : Fin N → F32) (hx : ∀ k, Finite (x k))
    (hin : ∀ k, InRange (grids k).length (fun i => ((grids k).map val).getD i 0) (val (x k)))
    (ρ : ℚ) (hρ : 1 ≤ ρ) (hρ2 : ρ ≤ 2 ^ 9)
    (hmesh : ∀ k, MeshRatio (grids k).length (fun i => ((grids k).map val).getD i 0) ρ) :
    ∃ r y, multicubicRectilinearAt e fma grids vals lin x = .ok r ∧ Finite r ∧
      multicubicAt e fma (.rectilinear fun k => (grids k).map val) (vals.map val) lin
        (fun k => val (x k)) = .ok y ∧
      |val r - y| ≤ 3200 * N * ρ * (1 / 2 ^ 24) * (1 + ρ ^ 2 / (2 * (1 + ρ))) ^ N * M := by
  have hΩ := binary32_Ω
  have hN' : (N : ℚ) ≤ 8 := by exact_mod_cast hN8
  have hM0 := bound_nonneg hG (by norm_num) hvals
  have := multicubic_rectilinear_ieee (f := Format.binary32) (by rw [binary32_u]; norm_num)
    e he hN8 fma grids vals lin hG
    (fun k a ha => ⟨(hgrid k a ha).1, le_trans (by have := (hgrid k a ha).2; linarith) hΩ⟩) M
    hvals x hx hin ρ hρ hmesh
    (by
      rw [binary32_u]
      have : (N : ℚ) * ρ ≤ 8 * 2 ^ 9 := by gcongr
      linarith)
    (by rw [binary32_u, binary32_η]; linarith)
    (by
      rw [binary32_u, binary32_η]
      have e : (1 : ℚ) / 2 ^ 150 = 1 / 2 ^ 24 * (1 / 2 ^ 126) := by norm_num
      rw [e]; gcongr) (2 ^ 9) (by linarith)
    (by
      have : (2 ^ 9) ^ 7 * M * ρ ≤ (2 ^ 9) ^ 7 * 2 ^ 40 * 2 ^ 9 := by gcongr
      refine le_trans ?_ hΩ
      linarith)
    (le_trans (by linarith) hΩ)
  rwa [binary32_u] at this

/-- C82, `f64`, regular grids with steps that are normal numbers and nodes of size up to `κ` steps:
at most `4200 N (1 + κ) 2^-53 (5/4)^N M`. -/
theorem C82_regular_f64 (e : Evaluator) (he : e.Fits N) (hN8 : N ≤ 8) (fma : Bool) (κ : ℚ)
    (hκ : 0 ≤ κ) (hN : 4200 * N * (1 + κ) ≤ 2 ^ 53)
    (dims : Fin N → Nat) (starts steps : Fin N → F64) (vals : List F64) (lin : Bool)
    (hG : (Axes.regular dims (fun k => val (starts k)) fun k => val (steps k)).Valid 4
      (vals.map val))
    (hfin : ∀ k, Finite (starts k) ∧ Finite (steps k)) (hnormal : ∀ k, 1 / 2 ^ 1022 ≤ val (steps k))
    (hnodes : ∀ k, |val (starts k)| ≤ κ * val (steps k) ∧
      |val (starts k) + val (steps k) * ((dims k - 1 : Nat) : ℚ)| ≤ κ * val (steps k))
    (hlarge : ∀ k, κ * val (steps k) ≤ 2 ^ 1020)
    (M : ℚ) (hM : M ≤ 2 ^ 1000) (hM1 : 1 / 2 ^ 1022 ≤ M)
    (hvals : ∀ v ∈ vals, Finite v ∧ |val v| ≤ M) (x : Fin N → F64) (hx : ∀ k, Finite (x k))
    (hin : ∀ k, InRange (dims k) (fun i => val (starts k) + val (steps k) * (i : ℚ)) (val (x k))) :
    ∃ r y, multicubicRegularAt e fma dims starts steps vals lin x = .ok r ∧ Finite r ∧
      multicubicAt e fma (.regular dims (fun k => val (starts k)) fun k => val (steps k))
        (vals.map val) lin (fun k => val (x k)) = .ok y ∧
      |val r - y| ≤ 4200 * N * (1 + κ) * (1 / 2 ^ 53) * (5 / 4) ^ N * M := by
  have hΩ := binary64_Ω
  have e1 : (1 : ℚ) / 2 ^ 1075 = 1 / 2 ^ 53 * (1 / 2 ^ 1022) := by norm_num
  have := multicubic_regular_ieee (f := Format.binary64) (by rw [binary64_u]; norm_num)
    (by rw [binary64_u, binary64_η]; norm_num) (le_trans (by norm_num) hΩ) le_rfl e he hN8 fma κ hκ
    (by rw [binary64_u]; linarith) dims starts steps vals lin hG hfin
    (fun k => by
      rw [binary64_u, binary64_η]
      have := hnormal k
      rw [e1]; gcongr) hnodes
    (fun k => le_trans (by have := hlarge k; linarith) hΩ) M
    (le_trans (by linarith) hΩ) (by rw [binary64_u, binary64_η, e1]; gcongr) hvals x hx hin
  rwa [binary64_u] at this

/-- C82, `f32`, regular grids. -/
theorem C82_regular_f32 (e : Evaluator) (he : e.Fits N) (hN8 : N ≤ 8) (fma : Bool) (κ : ℚ)
    (hκ : 0 ≤ κ) (hN : 4200 * N * (1 + κ) ≤ 2 ^ 24)
    (dims : Fin N → Nat) (starts steps : Fin N → F32) (vals : List F32) (lin : Bool)
    (hG : (Axes.regular dims (fun k => val (starts k)) fun k => val (steps k)).Valid 4
      (vals.map val))
    (hfin : ∀ k, Finite (starts k) ∧ Finite (steps k)) (hnormal : ∀ k, 1 / 2 ^ 126 ≤ val (steps k))
    (hnodes : ∀ k, |val (starts k)| ≤ κ * val (steps k) ∧
      |val (starts k) + val (steps k) * ((dims k - 1 : Nat) : ℚ)| ≤ κ * val (steps k))
    (hlarge : ∀ k, κ * val (steps k) ≤ 2 ^ 124)
    (M : ℚ) (hM : M ≤ 2 ^ 110) (hM1 : 1 / 2 ^ 126 ≤ M)
    (hvals : ∀ v ∈ vals, Finite v ∧ |val v| ≤ M) (x : Fin N → F32) (hx : ∀ k, Finite (x k))
    (hin : ∀ k, InRange (dims k) (fun i => val (starts k) + val (steps k) * (i : ℚ)) (val (x k))) :
    ∃ r y, multicubicRegularAt e fma dims starts steps vals lin x = .ok r ∧ Finite r ∧
      multicubicAt e fma (.regular dims (fun k => val (starts k)) fun k => val (steps k))
        (vals.map val) lin (fun k => val (x k)) = .ok y ∧
      |val r - y| ≤ 4200 * N * (1 + κ) * (1 / 2 ^ 24) * (5 / 4) ^ N * M := by
  have hΩ := binary32_Ω
  have e1 : (1 : ℚ) / 2 ^ 150 = 1 / 2 ^ 24 * (1 / 2 ^ 126) := by norm_num
  have := multicubic_regular_ieee (f := Format.binary32) (by rw [binary32_u]; norm_num)
    (by rw [binary32_u, binary32_η]; norm_num) (le_trans (by norm_num) hΩ) (by decide) e he hN8 fma κ hκ
    (by rw [binary32_u]; linarith) dims starts steps vals lin hG hfin
    (fun k => by
      rw [binary32_u, binary32_η]
      have := hnormal k
      rw [e1]; gcongr) hnodes
    (fun k => le_trans (by have := hlarge k; linarith) hΩ) M
    (le_trans (by linarith) hΩ) (by rw [binary32_u, binary32_η, e1]; gcongr) hvals x hx hin
  rwa [binary32_u] at this

end
/-! ### Concrete cases -/

/-- Hypotheses of `C82_rectilinear_f64` are satisfied. -/
example : ∃ r y, multicubicRectilinearAt .flat false exGrids64c exVals64c true
      ![q64 (1 / 3), q64 (5 / 3)] = .ok r ∧
    multicubicAt .flat false (.rectilinear fun k => (exGrids64c k).map val) (exVals64c.map val) true
      (fun k => val (![q64 (1 / 3), q64 (5 / 3)] k)) = .ok y ∧ |val r - y| ≤ 1 / 10 ^ 9 := by
  obtain ⟨r, y, h1, -, h3, h4⟩ := C82_rectilinear_f64 .flat (show 0 < 2 by decide) (by norm_num) false
    exGrids64c exVals64c true (valid_of_check (by decide +kernel)) (by decide +kernel) 16 (by norm_num)
    (by norm_num) (by decide +kernel) ![q64 (1 / 3), q64 (5 / 3)] (by decide +kernel)
    (by unfold InRange; decide +kernel) 2 (by norm_num) (by norm_num)
    (fun k i hi => (show ∀ k, ∀ i < (exGrids64c k).length, i + 2 < (exGrids64c k).length →
      ((exGrids64c k).map val).getD (i + 1) 0 - ((exGrids64c k).map val).getD i 0 ≤
        2 * (((exGrids64c k).map val).getD (i + 2) 0 - ((exGrids64c k).map val).getD (i + 1) 0) ∧
      ((exGrids64c k).map val).getD (i + 2) 0 - ((exGrids64c k).map val).getD (i + 1) 0 ≤
        2 * (((exGrids64c k).map val).getD (i + 1) 0 - ((exGrids64c k).map val).getD i 0) by
      decide +kernel) k i (by omega) hi)
  exact ⟨r, y, h1, h3, h4.trans (by norm_num)⟩

/-- Hypotheses of `C82_regular_f64` are satisfied, with nodes 0.1, …, 0.4 on the first axis. -/
example : ∃ r y, multicubicRegularAt .flat true ![4, 5] ![q64 (1 / 10), q64 1]
      ![q64 (1 / 10), q64 2] exVals64c false ![q64 (2 / 7), q64 (5 / 3)] = .ok r ∧
    multicubicAt .flat true (.regular ![4, 5] (fun k => val (![q64 (1 / 10), q64 1] k))
        fun k => val (![q64 (1 / 10), q64 2] k)) (exVals64c.map val) false
      (fun k => val (![q64 (2 / 7), q64 (5 / 3)] k)) = .ok y ∧ |val r - y| ≤ 1 / 10 ^ 9 := by
  obtain ⟨r, y, h1, -, h3, h4⟩ := C82_regular_f64 .flat (show 0 < 2 by decide) (by norm_num) true 5
    (by norm_num) (by norm_num) ![4, 5] ![q64 (1 / 10), q64 1] ![q64 (1 / 10), q64 2] exVals64c false
    (valid_of_check (by decide +kernel)) (by decide +kernel) (by decide +kernel) (by decide +kernel)
    (by decide +kernel) 16 (by norm_num) (by norm_num) (by decide +kernel)
    ![q64 (2 / 7), q64 (5 / 3)] (by decide +kernel) (by unfold InRange; decide +kernel)
  exact ⟨r, y, h1, h3, h4.trans (by norm_num)⟩

/-- Hypotheses of `C82_rectilinear_f32` are satisfied. -/
example : ∃ r y, multicubicRectilinearAt .flat false exGrids32c exVals32c true
      ![q32 (1 / 3), q32 (5 / 3)] = .ok r ∧
    multicubicAt .flat false (.rectilinear fun k => (exGrids32c k).map val) (exVals32c.map val) true
      (fun k => val (![q32 (1 / 3), q32 (5 / 3)] k)) = .ok y ∧ |val r - y| ≤ 1 / 2 := by
  obtain ⟨r, y, h1, -, h3, h4⟩ := C82_rectilinear_f32 .flat (show 0 < 2 by decide) (by norm_num) false
    exGrids32c exVals32c true (valid_of_check (by decide +kernel)) (by decide +kernel) 16 (by norm_num)
    (by norm_num) (by decide +kernel) ![q32 (1 / 3), q32 (5 / 3)] (by decide +kernel)
    (by unfold InRange; decide +kernel) 2 (by norm_num) (by norm_num)
    (fun k i hi => (show ∀ k, ∀ i < (exGrids32c k).length, i + 2 < (exGrids32c k).length →
      ((exGrids32c k).map val).getD (i + 1) 0 - ((exGrids32c k).map val).getD i 0 ≤
        2 * (((exGrids32c k).map val).getD (i + 2) 0 - ((exGrids32c k).map val).getD (i + 1) 0) ∧
      ((exGrids32c k).map val).getD (i + 2) 0 - ((exGrids32c k).map val).getD (i + 1) 0 ≤
        2 * (((exGrids32c k).map val).getD (i + 1) 0 - ((exGrids32c k).map val).getD i 0) by
      decide +kernel) k i (by omega) hi)
  exact ⟨r, y, h1, h3, h4.trans (by norm_num)⟩

/-- Hypotheses of `C82_regular_f32` are satisfied, with nodes 0.1, …, 0.4 on the first axis. -/
example : ∃ r y, multicubicRegularAt .flat true ![4, 5] ![q32 (1 / 10), q32 1]
      ![q32 (1 / 10), q32 2] exVals32c false ![q32 (2 / 7), q32 (5 / 3)] = .ok r ∧
    multicubicAt .flat true (.regular ![4, 5] (fun k => val (![q32 (1 / 10), q32 1] k))
        fun k => val (![q32 (1 / 10), q32 2] k)) (exVals32c.map val) false
      (fun k => val (![q32 (2 / 7), q32 (5 / 3)] k)) = .ok y ∧ |val r - y| ≤ 1 / 2 := by
  obtain ⟨r, y, h1, -, h3, h4⟩ := C82_regular_f32 .flat (show 0 < 2 by decide) (by norm_num) true 5
    (by norm_num) (by norm_num) ![4, 5] ![q32 (1 / 10), q32 1] ![q32 (1 / 10), q32 2] exVals32c false
    (valid_of_check (by decide +kernel)) (by decide +kernel) (by decide +kernel) (by decide +kernel)
    (by decide +kernel) 16 (by norm_num) (by norm_num) (by decide +kernel)
    ![q32 (2 / 7), q32 (5 / 3)] (by decide +kernel) (by unfold InRange; decide +kernel)
  exact ⟨r, y, h1, h3, h4.trans (by norm_num)⟩

end Interpn
