import Verif.Lemmas.SimpleBounds
import Verif.Lemmas.IeeeConst
import Verif.Lemmas.IeeeExamples
import Verif.Props.RoundingNearest

/-! C83: nearest-neighbor interpolation in IEEE 754 arithmetic (`f32`, `f64`), with explicit
constants. -/

set_option autoImplicit false
set_option exponentiation.threshold 1100

namespace Interpn
open FloatOps Ieee

section
variable {f : Format} {N : Nat}

/-- Nearest-neighbor interpolation on a rectilinear grid. -/
theorem nearest_rectilinear_ieee (hu : f.unitRoundoff ≤ 1 / 100)
    (hη : f.underflow ≤ f.unitRoundoff / 100) (hΩ : 2 ≤ f.omega)
    (grids : Fin N → List (Ieee f)) (vals : List (Ieee f))
    (hG : (Axes.rectilinear fun k => (grids k).map val).Valid 2 (vals.map val))
    (g : (Fin N → Nat) → Ieee f) (hg : Samples (fun k => (grids k).length) vals g)
    (hgrid : ∀ k, ∀ a ∈ grids k, Finite a ∧ 2 * |val a| ≤ f.omega)
    (x : Fin N → Ieee f) (hx : ∀ k, Finite (x k))
    (hin : ∀ k, InRange (grids k).length (fun i => ((grids k).map val).getD i 0) (val (x k))) :
    ∃ loc, nearestRectilinearAt grids vals x = .ok (g loc) ∧
      ∀ k, ∃ c, InCell (grids k).length (fun i => ((grids k).map val).getD i 0) (val (x k)) c ∧
        (loc k = c ∨ loc k = c + 1) ∧
        NearestWithin (grids k).length (fun i => ((grids k).map val).getD i 0) (val (x k))
          (7 * f.unitRoundoff *
            (((grids k).map val).getD (c + 1) 0 - ((grids k).map val).getD c 0)) (loc k) := by
  have h := rounds f
  have hu0 := h.u_nonneg
  have hlen : ∀ k, 2 ≤ (grids k).length := fun k => by
    have := hG.big k; simpa [Axes.size] using this
  obtain ⟨hτ0, hτ1, hfac⟩ := rectilinear_factor hu0 hu hη
  have hτ : weightCost f.unitRoundoff ≤ 31 / 10 * f.unitRoundoff := by
    unfold weightCost
    rw [div_le_iff₀ (by linarith)]
    nlinarith
  obtain ⟨loc, h1, h2⟩ := C77_rectilinear h (exactCompare f) (exactCompareLe f) (exactIfFloat f)
    two_float half_float (by linarith) grids vals hG g hg hgrid x
    (fun k => ⟨hx k, inRange_small (hlen k) (fun a ha => (hgrid k a ha).2) (hin k)⟩) 0 le_rfl
    (fun k => ⟨by have := (hin k).1; linarith, by have := (hin k).2; linarith⟩) (by linarith)
  refine ⟨loc, h1, fun k => ?_⟩
  obtain ⟨c, hc, hcl, hn⟩ := h2 k
  refine ⟨c, hc, hcl, hn.1, fun j hj => (hn.2 j hj).trans ?_⟩
  have hw : 0 < ((grids k).map val).getD (c + 1) 0 - ((grids k).map val).getD c 0 := by
    have := hG.increasing k c (by simpa [Axes.size] using hc.1)
    simp only [Axes.node] at this
    linarith
  have : 2 * (weightCost f.unitRoundoff * (1 + 0) + f.underflow) ≤ 7 * f.unitRoundoff := by linarith
  have := mul_le_mul_of_nonneg_right this hw.le
  linarith

/-- Nearest-neighbor interpolation on a regular grid. -/
theorem nearest_regular_ieee (hη : f.underflow ≤ f.unitRoundoff / 100)
    (hΩ1 : 2 ^ 70 ≤ f.omega) (hp : f.p ≤ 53) (fma : Bool) (κ : ℚ) (hκ : 0 ≤ κ)
    (hN : 100 * ((1 + κ) * f.unitRoundoff) ≤ 1)
    (dims : Fin N → Nat) (starts steps : Fin N → Ieee f) (vals : List (Ieee f))
    (hG : (Axes.regular dims (fun k => val (starts k)) fun k => val (steps k)).Valid 2
      (vals.map val))
    (g : (Fin N → Nat) → Ieee f) (hg : Samples dims vals g)
    (hfin : ∀ k, Finite (starts k) ∧ Finite (steps k))
    (hnormal : ∀ k, f.underflow ≤ f.unitRoundoff * val (steps k))
    (hnodes : ∀ k, |val (starts k)| ≤ κ * val (steps k) ∧
      |val (starts k) + val (steps k) * ((dims k - 1 : Nat) : ℚ)| ≤ κ * val (steps k))
    (hlarge : ∀ k, 4 * (κ * val (steps k)) + 1 ≤ f.omega)
    (x : Fin N → Ieee f) (hx : ∀ k, Finite (x k))
    (hin : ∀ k, InRange (dims k) (fun i => val (starts k) + val (steps k) * (i : ℚ)) (val (x k))) :
    ∃ loc, nearestRegularAt fma dims starts steps vals x = .ok (g loc) ∧
      ∀ k, NearestWithin (dims k) (fun i => val (starts k) + val (steps k) * (i : ℚ)) (val (x k))
        (7 * (1 + κ) * f.unitRoundoff * val (steps k)) (loc k) := by
  have h := rounds f
  have hu0 := h.u_nonneg
  have hη0 := h.η_nonneg
  have hpos : ∀ k, 0 < val (steps k) := fun k => hG.step_pos (by omega) k
  obtain ⟨hu1, huκ', hκ53, hdim⟩ := regular_setup hp hκ hN
  have hunits := fun k => regular_units (hpos k) (hnodes k) (hin k)
  have hpe := fun k => positionError_simple (lam := 0) hu0 hη le_rfl zero_le_two
    (Nat.cast_nonneg (α := ℚ) (dims k - 1)) (hunits k).1 hu1 huκ'
  have hpe0 : ∀ k, 0 ≤ positionError f.unitRoundoff f.underflow (((dims k - 1 : Nat) : ℚ) + 0) :=
    fun k => positionError_nonneg hu0 hη0 (by positivity)
  obtain ⟨loc, h1, h2⟩ := C77_regular h (exactCompare f) (exactCompareLe f) (exactIfFloat f)
    two_float half_float (exactWhole f (n := 2 ^ f.p + 1) le_rfl) fma dims starts steps vals hG g hg
    (fun k => hdim _ (hunits k).1) hfin (fun k => κ * val (steps k)) hnodes x hx 0 le_rfl
    (fun k => ⟨by have := (hin k).1; linarith, by have := (hin k).2; linarith⟩)
    (fun k => axisInBounds_simple hu0 hη0 hη hκ (hpos k) hu1 huκ' (hnormal k) le_rfl zero_le_two
      (hunits k).1 (hunits k).2 (hlarge k) hκ53 hΩ1)
    (fun k => by have := hpe k; linarith)
  refine ⟨loc, h1, fun k => ⟨(h2 k).1, fun j hj => ((h2 k).2 j hj).trans ?_⟩⟩
  have hw := regularWeightError_simple hu0 hη hκ (hpos k) hu1 (hnormal k)
    (R := 1 + 0 + positionError f.unitRoundoff f.underflow (((dims k - 1 : Nat) : ℚ) + 0))
    (by have := hpe0 k; linarith)
  have hR : 201 / 100 * f.unitRoundoff *
      (1 + 0 + positionError f.unitRoundoff f.underflow (((dims k - 1 : Nat) : ℚ) + 0)) ≤
      201 / 100 * f.unitRoundoff * (1 + 0 + 1 / 10) := by
    have := hpe k
    gcongr
  have huκ0 : 0 ≤ f.unitRoundoff * κ := by positivity
  have : 2 * regularWeightError f.unitRoundoff f.underflow (κ * val (steps k)) (val (steps k))
      (1 + 0 + positionError f.unitRoundoff f.underflow (((dims k - 1 : Nat) : ℚ) + 0)) ≤
      7 * (1 + κ) * f.unitRoundoff := by
    have hz := hw.trans (add_le_add_left (add_le_add_left hR _) _)
    generalize regularWeightError f.unitRoundoff f.underflow _ _ _ = W at hz ⊢
    clear * - hz hu0 huκ0
    nlinarith
  have := mul_le_mul_of_nonneg_right this (hpos k).le
  linarith

/-- C83, `f64`, rectilinear grids, observations in range: the result is, bit for bit, the value
stored at a node that on every axis is an end of the cell of the observation and such that no other
node is closer by more than `7 · 2^-53` times the
width of the cell of the observation. The stored values may be anything, NaN included. -/
theorem C83_rectilinear_f64 (grids : Fin N → List F64) (vals : List F64)
    (hG : (Axes.rectilinear fun k => (grids k).map val).Valid 2 (vals.map val))
    (g : (Fin N → Nat) → F64) (hg : Samples (fun k => (grids k).length) vals g)
    (hgrid : ∀ k, ∀ a ∈ grids k, Finite a ∧ |val a| ≤ 2 ^ 1022)
    (x : Fin N → F64) (hx : ∀ k, Finite (x k))
    (hin : ∀ k, InRange (grids k).length (fun i => ((grids k).map val).getD i 0) (val (x k))) :
    ∃ loc, nearestRectilinearAt grids vals x = .ok (g loc) ∧
      ∀ k, ∃ c, InCell (grids k).length (fun i => ((grids k).map val).getD i 0) (val (x k)) c ∧
        (loc k = c ∨ loc k = c + 1) ∧
        NearestWithin (grids k).length (fun i => ((grids k).map val).getD i 0) (val (x k))
          (7 * (1 / 2 ^ 53) *
            (((grids k).map val).getD (c + 1) 0 - ((grids k).map val).getD c 0)) (loc k) := by
  have hΩ := binary64_Ω
  have := nearest_rectilinear_ieee (f := Format.binary64) (by rw [binary64_u]; norm_num)
    (by rw [binary64_u, binary64_η]; norm_num) (le_trans (by norm_num) hΩ) grids vals hG g hg
    (fun k a ha => ⟨(hgrid k a ha).1, le_trans (by have := (hgrid k a ha).2; linarith) hΩ⟩) x hx hin
  rwa [binary64_u] at this

/-- C83, `f32`, rectilinear grids. -/
theorem C83_rectilinear_f32 (grids : Fin N → List F32) (vals : List F32)
    (hG : (Axes.rectilinear fun k => (grids k).map val).Valid 2 (vals.map val))
    (g : (Fin N → Nat) → F32) (hg : Samples (fun k => (grids k).length) vals g)
    (hgrid : ∀ k, ∀ a ∈ grids k, Finite a ∧ |val a| ≤ 2 ^ 126)
    (x : Fin N → F32) (hx : ∀ k, Finite (x k))
    (hin : ∀ k, InRange (grids k).length (fun i => ((grids k).map val).getD i 0) (val (x k))) :
    ∃ loc, nearestRectilinearAt grids vals x = .ok (g loc) ∧
      ∀ k, ∃ c, InCell (grids k).length (fun i => ((grids k).map val).getD i 0) (val (x k)) c ∧
        (loc k = c ∨ loc k = c + 1) ∧
        NearestWithin (grids k).length (fun i => ((grids k).map val).getD i 0) (val (x k))
          (7 * (1 / 2 ^ 24) *
            (((grids k).map val).getD (c + 1) 0 - ((grids k).map val).getD c 0)) (loc k) := by
  have hΩ := binary32_Ω
  have := nearest_rectilinear_ieee (f := Format.binary32) (by rw [binary32_u]; norm_num)
    (by rw [binary32_u, binary32_η]; norm_num) (le_trans (by norm_num) hΩ) grids vals hG g hg
    (fun k a ha => ⟨(hgrid k a ha).1, le_trans (by have := (hgrid k a ha).2; linarith) hΩ⟩) x hx hin
  rwa [binary32_u] at this

/-- C83, `f64`, regular grids with steps that are normal numbers and nodes of size up to `κ` steps:
no other node is closer by more than `7 (1 + κ) 2^-53` steps. -/
theorem C83_regular_f64 (fma : Bool) (κ : ℚ) (hκ : 0 ≤ κ) (hN : 100 * (1 + κ) ≤ 2 ^ 53)
    (dims : Fin N → Nat) (starts steps : Fin N → F64) (vals : List F64)
    (hG : (Axes.regular dims (fun k => val (starts k)) fun k => val (steps k)).Valid 2
      (vals.map val))
    (g : (Fin N → Nat) → F64) (hg : Samples dims vals g)
    (hfin : ∀ k, Finite (starts k) ∧ Finite (steps k)) (hnormal : ∀ k, 1 / 2 ^ 1022 ≤ val (steps k))
    (hnodes : ∀ k, |val (starts k)| ≤ κ * val (steps k) ∧
      |val (starts k) + val (steps k) * ((dims k - 1 : Nat) : ℚ)| ≤ κ * val (steps k))
    (hlarge : ∀ k, κ * val (steps k) ≤ 2 ^ 1020) (x : Fin N → F64) (hx : ∀ k, Finite (x k))
    (hin : ∀ k, InRange (dims k) (fun i => val (starts k) + val (steps k) * (i : ℚ)) (val (x k))) :
    ∃ loc, nearestRegularAt fma dims starts steps vals x = .ok (g loc) ∧
      ∀ k, NearestWithin (dims k) (fun i => val (starts k) + val (steps k) * (i : ℚ)) (val (x k))
        (7 * (1 + κ) * (1 / 2 ^ 53) * val (steps k)) (loc k) := by
  have hΩ := binary64_Ω
  have e1 : (1 : ℚ) / 2 ^ 1075 = 1 / 2 ^ 53 * (1 / 2 ^ 1022) := by norm_num
  have := nearest_regular_ieee (f := Format.binary64) (by rw [binary64_u, binary64_η]; norm_num)
    (le_trans (by norm_num) hΩ) le_rfl fma κ hκ (by rw [binary64_u]; linarith) dims starts steps vals
    hG g hg hfin
    (fun k => by
      rw [binary64_u, binary64_η]
      have := hnormal k
      rw [e1]; gcongr) hnodes
    (fun k => le_trans (by have := hlarge k; linarith) hΩ) x hx hin
  rwa [binary64_u] at this

/-- C83, `f32`, regular grids. -/
theorem C83_regular_f32 (fma : Bool) (κ : ℚ) (hκ : 0 ≤ κ) (hN : 100 * (1 + κ) ≤ 2 ^ 24)
    (dims : Fin N → Nat) (starts steps : Fin N → F32) (vals : List F32)
    (hG : (Axes.regular dims (fun k => val (starts k)) fun k => val (steps k)).Valid 2
      (vals.map val))
    (g : (Fin N → Nat) → F32) (hg : Samples dims vals g)
    (hfin : ∀ k, Finite (starts k) ∧ Finite (steps k)) (hnormal : ∀ k, 1 / 2 ^ 126 ≤ val (steps k))
    (hnodes : ∀ k, |val (starts k)| ≤ κ * val (steps k) ∧
      |val (starts k) + val (steps k) * ((dims k - 1 : Nat) : ℚ)| ≤ κ * val (steps k))
    (hlarge : ∀ k, κ * val (steps k) ≤ 2 ^ 124) (x : Fin N → F32) (hx : ∀ k, Finite (x k))
    (hin : ∀ k, InRange (dims k) (fun i => val (starts k) + val (steps k) * (i : ℚ)) (val (x k))) :
    ∃ loc, nearestRegularAt fma dims starts steps vals x = .ok (g loc) ∧
      ∀ k, NearestWithin (dims k) (fun i => val (starts k) + val (steps k) * (i : ℚ)) (val (x k))
        (7 * (1 + κ) * (1 / 2 ^ 24) * val (steps k)) (loc k) := by
  have hΩ := binary32_Ω
  have e1 : (1 : ℚ) / 2 ^ 150 = 1 / 2 ^ 24 * (1 / 2 ^ 126) := by norm_num
  have := nearest_regular_ieee (f := Format.binary32) (by rw [binary32_u, binary32_η]; norm_num)
    (le_trans (by norm_num) hΩ) (by decide) fma κ hκ (by rw [binary32_u]; linarith) dims starts steps
    vals hG g hg hfin
    (fun k => by
      rw [binary32_u, binary32_η]
      have := hnormal k
      rw [e1]; gcongr) hnodes
    (fun k => le_trans (by have := hlarge k; linarith) hΩ) x hx hin
  rwa [binary32_u] at this

end
/-! ### Concrete cases -/

/-- Hypotheses of `C83_rectilinear_f64` are satisfied, with a NaN among the values. -/
example : ∃ loc, nearestRectilinearAt exGrids64 (.nan :: exVals64.tail) ![q64 (1 / 3), q64 (5 / 3)] =
    .ok (valAt .nan ![3, 2] (.nan :: exVals64.tail) loc) :=
  (C83_rectilinear_f64 exGrids64 (.nan :: exVals64.tail) (valid_of_check (by decide +kernel))
    (valAt .nan ![3, 2] (.nan :: exVals64.tail)) (samples_valAt _ _ _ (by decide)) (by decide +kernel)
    ![q64 (1 / 3), q64 (5 / 3)] (by decide +kernel)
    (by unfold InRange; decide +kernel)).imp fun _ h => h.1

/-- Hypotheses of `C83_regular_f64` are satisfied, with nodes 0.1, 0.2, 0.3 on the first axis. -/
example : ∃ loc, nearestRegularAt true ![3, 2] ![q64 (1 / 10), q64 1] ![q64 (1 / 10), q64 2]
    (.nan :: exVals64.tail) ![q64 (2 / 7), q64 (5 / 3)] =
    .ok (valAt .nan ![3, 2] (.nan :: exVals64.tail) loc) :=
  (C83_regular_f64 true 4 (by norm_num) (by norm_num) ![3, 2] ![q64 (1 / 10), q64 1]
    ![q64 (1 / 10), q64 2] (.nan :: exVals64.tail) (valid_of_check (by decide +kernel))
    (valAt .nan ![3, 2] (.nan :: exVals64.tail)) (samples_valAt _ _ _ (by decide)) (by decide +kernel)
    (by decide +kernel) (by decide +kernel) (by decide +kernel) ![q64 (2 / 7), q64 (5 / 3)]
    (by decide +kernel) (by unfold InRange; decide +kernel)).imp fun _ h => h.1

/-- Hypotheses of `C83_rectilinear_f32` are satisfied, with a NaN among the values. -/
example : ∃ loc, nearestRectilinearAt exGrids32 (.nan :: exVals32.tail) ![q32 (1 / 3), q32 (5 / 3)] =
    .ok (valAt .nan ![3, 2] (.nan :: exVals32.tail) loc) :=
  (C83_rectilinear_f32 exGrids32 (.nan :: exVals32.tail) (valid_of_check (by decide +kernel))
    (valAt .nan ![3, 2] (.nan :: exVals32.tail)) (samples_valAt _ _ _ (by decide)) (by decide +kernel)
    ![q32 (1 / 3), q32 (5 / 3)] (by decide +kernel)
    (by unfold InRange; decide +kernel)).imp fun _ h => h.1

/-- Hypotheses of `C83_regular_f32` are satisfied, with nodes 0.1, 0.2, 0.3 on the first axis. -/
example : ∃ loc, nearestRegularAt true ![3, 2] ![q32 (1 / 10), q32 1] ![q32 (1 / 10), q32 2]
    (.nan :: exVals32.tail) ![q32 (2 / 7), q32 (5 / 3)] =
    .ok (valAt .nan ![3, 2] (.nan :: exVals32.tail) loc) :=
  (C83_regular_f32 true 4 (by norm_num) (by norm_num) ![3, 2] ![q32 (1 / 10), q32 1]
    ![q32 (1 / 10), q32 2] (.nan :: exVals32.tail) (valid_of_check (by decide +kernel))
    (valAt .nan ![3, 2] (.nan :: exVals32.tail)) (samples_valAt _ _ _ (by decide)) (by decide +kernel)
    (by decide +kernel) (by decide +kernel) (by decide +kernel) ![q32 (2 / 7), q32 (5 / 3)]
    (by decide +kernel) (by unfold InRange; decide +kernel)).imp fun _ h => h.1

end Interpn
