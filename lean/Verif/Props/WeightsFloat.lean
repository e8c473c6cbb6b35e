import Verif.Props.Weights
import Verif.Props.IeeeAccuracy
import Verif.Props.IeeeCubic

/-! C137 in `f64` and `f32`: computed results are weighted sums of the stored values, up to rounding,
with weights that do not depend on the values. -/

set_option autoImplicit false
set_option linter.unusedSectionVars false
set_option exponentiation.threshold 1100

namespace Interpn
open Ieee

section
variable {N : Nat}

/-- A computed result near an exact one that is a weighted sum. -/
theorem weights_float {f : Format} {a : Res (Ieee f)} {A : List ℚ → Res ℚ} {E : ℚ} {L : Nat}
    {w : Nat → ℚ} {v : List (Ieee f)} (hw : WeightsOf L A w) (hl : v.length = L)
    (ha : ∃ r y, a = .ok r ∧ Finite r ∧ A (v.map val) = .ok y ∧ |val r - y| ≤ E) :
    ∃ r, a = .ok r ∧ Finite r ∧
      |val r - ∑ i ∈ Finset.range L, w i * (v.map val).getD i 0| ≤ E := by
  obtain ⟨r, y, h1, h2, h3, h4⟩ := ha
  rw [hw.sum _ (by simpa using hl)] at h3
  rw [← Res.ok.inj h3] at h4
  exact ⟨r, h1, h2, h4⟩

/-- C137, `f64`, multilinear on a rectilinear grid: the weights are not negative and add up to 1. -/
theorem C137_linear_rectilinear_f64 (e : Evaluator) (he : e.Fits N) (hN : N ≤ 1000) (fma : Bool)
    (grids : Fin N → List F64) (vals : List F64)
    (hG : (Axes.rectilinear fun k => (grids k).map val).Valid 2 (vals.map val))
    (hgrid : ∀ k, ∀ a ∈ grids k, Finite a ∧ |val a| ≤ 2 ^ 1022) (x : Fin N → F64)
    (hx : ∀ k, Finite (x k))
    (hin : ∀ k, InRange (grids k).length (fun i => ((grids k).map val).getD i 0) (val (x k))) :
    ∃ w : Nat → ℚ, (∀ i < vals.length, 0 ≤ w i) ∧ ∑ i ∈ Finset.range vals.length, w i = 1 ∧
      ((Finset.range vals.length).filter fun i => w i ≠ 0).card ≤ 2 ^ N ∧
      ∀ (v : List F64) (M : ℚ), v.length = vals.length → M ≤ 2 ^ 1020 →
        (∀ a ∈ v, Finite a ∧ |val a| ≤ M) →
        ∃ r, multilinearRectilinearAt e fma grids v x = .ok r ∧ Finite r ∧
          |val r - ∑ i ∈ Finset.range vals.length, w i * (v.map val).getD i 0| ≤
            26 * N * (1 / 2 ^ 53) * M + 3 * N * (1 / 2 ^ 1075) := by
  have hsz : (Axes.rectilinear fun k => (grids k).map val).size = fun k => (grids k).length := by
    funext k; simp [Axes.size]
  have hin' : ∀ k, InRange ((Axes.rectilinear fun k => (grids k).map val).size k)
      ((Axes.rectilinear fun k => (grids k).map val).node k) (val (x k)) := by simp only [hsz]; exact hin
  obtain ⟨c, hc⟩ := hG.cells le_rfl fun k => val (x k)
  obtain ⟨w, h1, -, -, h2, h3⟩ := C137_multilinear e he fma _ hG _
    (hG.inRange_fits le_rfl hin' _ (by simp)) c hc
  rw [List.length_map] at h1 h2 h3
  refine ⟨w, h3 hin', h1.one, h2, fun v M hl hM hv => weights_float h1 hl ?_⟩
  exact C81_rectilinear_f64 e he hN fma grids v (valid_of_length hG (by simpa using hl)) hgrid M hM hv
    x hx hin

/-- C137, `f64`, multilinear on a regular grid. -/
theorem C137_linear_regular_f64 (e : Evaluator) (he : e.Fits N) (fma : Bool) (κ : ℚ) (hκ : 0 ≤ κ)
    (hN : 100 * N * (1 + κ) ≤ 2 ^ 53) (dims : Fin N → Nat) (starts steps : Fin N → F64)
    (vals : List F64)
    (hG : (Axes.regular dims (fun k => val (starts k)) fun k => val (steps k)).Valid 2 (vals.map val))
    (hfin : ∀ k, Finite (starts k) ∧ Finite (steps k)) (hnormal : ∀ k, 1 / 2 ^ 1022 ≤ val (steps k))
    (hnodes : ∀ k, |val (starts k)| ≤ κ * val (steps k) ∧
      |val (starts k) + val (steps k) * ((dims k - 1 : Nat) : ℚ)| ≤ κ * val (steps k))
    (hlarge : ∀ k, κ * val (steps k) ≤ 2 ^ 1020) (x : Fin N → F64) (hx : ∀ k, Finite (x k))
    (hin : ∀ k, InRange (dims k) (fun i => val (starts k) + val (steps k) * (i : ℚ)) (val (x k))) :
    ∃ w : Nat → ℚ, (∀ i < vals.length, 0 ≤ w i) ∧ ∑ i ∈ Finset.range vals.length, w i = 1 ∧
      ((Finset.range vals.length).filter fun i => w i ≠ 0).card ≤ 2 ^ N ∧
      ∀ (v : List F64) (M : ℚ), v.length = vals.length → M ≤ 2 ^ 1020 →
        (∀ a ∈ v, Finite a ∧ |val a| ≤ M) →
        ∃ r, multilinearRegularAt e fma dims starts steps v x = .ok r ∧ Finite r ∧
          |val r - ∑ i ∈ Finset.range vals.length, w i * (v.map val).getD i 0| ≤
            60 * N * (1 + κ) * (1 / 2 ^ 53) * M + 3 * N * (1 / 2 ^ 1075) := by
  obtain ⟨c, hc⟩ := hG.cells le_rfl fun k => val (x k)
  obtain ⟨w, h1, -, -, h2, h3⟩ := C137_multilinear e he fma _ hG _
    (hG.inRange_fits le_rfl hin _ (by simp)) c hc
  rw [List.length_map] at h1 h2 h3
  refine ⟨w, h3 hin, h1.one, h2, fun v M hl hM hv => weights_float h1 hl ?_⟩
  exact C81_regular_f64 e he fma κ hκ hN dims starts steps v (valid_of_length hG (by simpa using hl))
    hfin hnormal hnodes hlarge M hM hv x hx hin

/-- C137, `f64`, multicubic on a rectilinear grid: the weights add up to 1, their absolute values to
at most `(1 + ρ² / (2 (1 + ρ))) ^ N`. -/
theorem C137_cubic_rectilinear_f64 (e : Evaluator) (he : e.Fits N) (hN8 : N ≤ 8) (fma : Bool)
    (grids : Fin N → List F64) (vals : List F64) (lin : Bool)
    (hG : (Axes.rectilinear fun k => (grids k).map val).Valid 4 (vals.map val))
    (hgrid : ∀ k, ∀ a ∈ grids k, Finite a ∧ |val a| ≤ 2 ^ 1022) (x : Fin N → F64)
    (hx : ∀ k, Finite (x k))
    (hin : ∀ k, InRange (grids k).length (fun i => ((grids k).map val).getD i 0) (val (x k)))
    (ρ : ℚ) (hρ : 1 ≤ ρ) (hρ2 : ρ ≤ 2 ^ 30)
    (hmesh : ∀ k, MeshRatio (grids k).length (fun i => ((grids k).map val).getD i 0) ρ) :
    ∃ w : Nat → ℚ, ∑ i ∈ Finset.range vals.length, w i = 1 ∧
      ∑ i ∈ Finset.range vals.length, |w i| ≤ (1 + ρ ^ 2 / (2 * (1 + ρ))) ^ N ∧
      ((Finset.range vals.length).filter fun i => w i ≠ 0).card ≤ 4 ^ N ∧
      ∀ (v : List F64) (M : ℚ), v.length = vals.length → M ≤ 2 ^ 700 → 1 / 2 ^ 1022 ≤ M →
        (∀ a ∈ v, Finite a ∧ |val a| ≤ M) →
        ∃ r, multicubicRectilinearAt e fma grids v lin x = .ok r ∧ Finite r ∧
          |val r - ∑ i ∈ Finset.range vals.length, w i * (v.map val).getD i 0| ≤
            3200 * N * ρ * (1 / 2 ^ 53) * (1 + ρ ^ 2 / (2 * (1 + ρ))) ^ N * M := by
  have hsz : (Axes.rectilinear fun k => (grids k).map val).size = fun k => (grids k).length := by
    funext k; simp [Axes.size]
  have hin' : ∀ k, InRange ((Axes.rectilinear fun k => (grids k).map val).size k)
      ((Axes.rectilinear fun k => (grids k).map val).node k) (val (x k)) := by simp only [hsz]; exact hin
  have hmesh' : ∀ k, MeshRatio ((Axes.rectilinear fun k => (grids k).map val).size k)
      ((Axes.rectilinear fun k => (grids k).map val).node k) ρ := by simp only [hsz]; exact hmesh
  obtain ⟨c, hc⟩ := hG.cells (by omega) fun k => val (x k)
  obtain ⟨w, h1, -, -, h2, h3⟩ := C137_multicubic e he fma _ lin hG _
    (hG.inRange_fits (by omega) hin' _ (by simp)) c hc
  rw [List.length_map] at h1 h2 h3
  refine ⟨w, h1.one, h3 hin' ρ hmesh', h2, fun v M hl hM hM1 hv => weights_float h1 hl ?_⟩
  exact C82_rectilinear_f64 e he hN8 fma grids v lin (valid_of_length hG (by simpa using hl)) hgrid M
    hM hM1 hv x hx hin ρ hρ hρ2 hmesh

/-- C137, `f64`, multicubic on a regular grid: the absolute values of the weights add up to at most
`(5 / 4) ^ N`. -/
theorem C137_cubic_regular_f64 (e : Evaluator) (he : e.Fits N) (hN8 : N ≤ 8) (fma : Bool) (κ : ℚ)
    (hκ : 0 ≤ κ) (hN : 4200 * N * (1 + κ) ≤ 2 ^ 53) (dims : Fin N → Nat)
    (starts steps : Fin N → F64) (vals : List F64) (lin : Bool)
    (hG : (Axes.regular dims (fun k => val (starts k)) fun k => val (steps k)).Valid 4 (vals.map val))
    (hfin : ∀ k, Finite (starts k) ∧ Finite (steps k)) (hnormal : ∀ k, 1 / 2 ^ 1022 ≤ val (steps k))
    (hnodes : ∀ k, |val (starts k)| ≤ κ * val (steps k) ∧
      |val (starts k) + val (steps k) * ((dims k - 1 : Nat) : ℚ)| ≤ κ * val (steps k))
    (hlarge : ∀ k, κ * val (steps k) ≤ 2 ^ 1020) (x : Fin N → F64) (hx : ∀ k, Finite (x k))
    (hin : ∀ k, InRange (dims k) (fun i => val (starts k) + val (steps k) * (i : ℚ)) (val (x k))) :
    ∃ w : Nat → ℚ, ∑ i ∈ Finset.range vals.length, w i = 1 ∧
      ∑ i ∈ Finset.range vals.length, |w i| ≤ (5 / 4) ^ N ∧
      ((Finset.range vals.length).filter fun i => w i ≠ 0).card ≤ 4 ^ N ∧
      ∀ (v : List F64) (M : ℚ), v.length = vals.length → M ≤ 2 ^ 1000 → 1 / 2 ^ 1022 ≤ M →
        (∀ a ∈ v, Finite a ∧ |val a| ≤ M) →
        ∃ r, multicubicRegularAt e fma dims starts steps v lin x = .ok r ∧ Finite r ∧
          |val r - ∑ i ∈ Finset.range vals.length, w i * (v.map val).getD i 0| ≤
            4200 * N * (1 + κ) * (1 / 2 ^ 53) * (5 / 4) ^ N * M := by
  obtain ⟨c, hc⟩ := hG.cells (by omega) fun k => val (x k)
  obtain ⟨w, h1, -, -, h2, h3⟩ := C137_multicubic e he fma _ lin hG _
    (hG.inRange_fits (by omega) hin _ (by simp)) c hc
  rw [List.length_map] at h1 h2 h3
  have h4 := h3 hin 1 (meshRatio_regular dims _ _)
  have e5 : (1 : ℚ) + 1 ^ 2 / (2 * (1 + 1)) = 5 / 4 := by norm_num
  rw [e5] at h4
  refine ⟨w, h1.one, h4, h2, fun v M hl hM hM1 hv => weights_float h1 hl ?_⟩
  exact C82_regular_f64 e he hN8 fma κ hκ hN dims starts steps v lin
    (valid_of_length hG (by simpa using hl)) hfin hnormal hnodes hlarge M hM hM1 hv x hx hin

/-- C137, `f32`, multilinear on a rectilinear grid: the weights are not negative and add up to 1. -/
theorem C137_linear_rectilinear_f32 (e : Evaluator) (he : e.Fits N) (hN : N ≤ 1000) (fma : Bool)
    (grids : Fin N → List F32) (vals : List F32)
    (hG : (Axes.rectilinear fun k => (grids k).map val).Valid 2 (vals.map val))
    (hgrid : ∀ k, ∀ a ∈ grids k, Finite a ∧ |val a| ≤ 2 ^ 126) (x : Fin N → F32)
    (hx : ∀ k, Finite (x k))
    (hin : ∀ k, InRange (grids k).length (fun i => ((grids k).map val).getD i 0) (val (x k))) :
    ∃ w : Nat → ℚ, (∀ i < vals.length, 0 ≤ w i) ∧ ∑ i ∈ Finset.range vals.length, w i = 1 ∧
      ((Finset.range vals.length).filter fun i => w i ≠ 0).card ≤ 2 ^ N ∧
      ∀ (v : List F32) (M : ℚ), v.length = vals.length → M ≤ 2 ^ 124 →
        (∀ a ∈ v, Finite a ∧ |val a| ≤ M) →
        ∃ r, multilinearRectilinearAt e fma grids v x = .ok r ∧ Finite r ∧
          |val r - ∑ i ∈ Finset.range vals.length, w i * (v.map val).getD i 0| ≤
            26 * N * (1 / 2 ^ 24) * M + 3 * N * (1 / 2 ^ 150) := by
  have hsz : (Axes.rectilinear fun k => (grids k).map val).size = fun k => (grids k).length := by
    funext k; simp [Axes.size]
  have hin' : ∀ k, InRange ((Axes.rectilinear fun k => (grids k).map val).size k)
      ((Axes.rectilinear fun k => (grids k).map val).node k) (val (x k)) := by simp only [hsz]; exact hin
  obtain ⟨c, hc⟩ := hG.cells le_rfl fun k => val (x k)
  obtain ⟨w, h1, -, -, h2, h3⟩ := C137_multilinear e he fma _ hG _
    (hG.inRange_fits le_rfl hin' _ (by simp)) c hc
  rw [List.length_map] at h1 h2 h3
  refine ⟨w, h3 hin', h1.one, h2, fun v M hl hM hv => weights_float h1 hl ?_⟩
  exact C81_rectilinear_f32 e he hN fma grids v (valid_of_length hG (by simpa using hl)) hgrid M hM hv
    x hx hin

/-- C137, `f32`, multilinear on a regular grid. -/
theorem C137_linear_regular_f32 (e : Evaluator) (he : e.Fits N) (fma : Bool) (κ : ℚ) (hκ : 0 ≤ κ)
    (hN : 100 * N * (1 + κ) ≤ 2 ^ 24) (dims : Fin N → Nat) (starts steps : Fin N → F32)
    (vals : List F32)
    (hG : (Axes.regular dims (fun k => val (starts k)) fun k => val (steps k)).Valid 2 (vals.map val))
    (hfin : ∀ k, Finite (starts k) ∧ Finite (steps k)) (hnormal : ∀ k, 1 / 2 ^ 126 ≤ val (steps k))
    (hnodes : ∀ k, |val (starts k)| ≤ κ * val (steps k) ∧
      |val (starts k) + val (steps k) * ((dims k - 1 : Nat) : ℚ)| ≤ κ * val (steps k))
    (hlarge : ∀ k, κ * val (steps k) ≤ 2 ^ 124) (x : Fin N → F32) (hx : ∀ k, Finite (x k))
    (hin : ∀ k, InRange (dims k) (fun i => val (starts k) + val (steps k) * (i : ℚ)) (val (x k))) :
    ∃ w : Nat → ℚ, (∀ i < vals.length, 0 ≤ w i) ∧ ∑ i ∈ Finset.range vals.length, w i = 1 ∧
      ((Finset.range vals.length).filter fun i => w i ≠ 0).card ≤ 2 ^ N ∧
      ∀ (v : List F32) (M : ℚ), v.length = vals.length → M ≤ 2 ^ 124 →
        (∀ a ∈ v, Finite a ∧ |val a| ≤ M) →
        ∃ r, multilinearRegularAt e fma dims starts steps v x = .ok r ∧ Finite r ∧
          |val r - ∑ i ∈ Finset.range vals.length, w i * (v.map val).getD i 0| ≤
            60 * N * (1 + κ) * (1 / 2 ^ 24) * M + 3 * N * (1 / 2 ^ 150) := by
  obtain ⟨c, hc⟩ := hG.cells le_rfl fun k => val (x k)
  obtain ⟨w, h1, -, -, h2, h3⟩ := C137_multilinear e he fma _ hG _
    (hG.inRange_fits le_rfl hin _ (by simp)) c hc
  rw [List.length_map] at h1 h2 h3
  refine ⟨w, h3 hin, h1.one, h2, fun v M hl hM hv => weights_float h1 hl ?_⟩
  exact C81_regular_f32 e he fma κ hκ hN dims starts steps v (valid_of_length hG (by simpa using hl))
    hfin hnormal hnodes hlarge M hM hv x hx hin

/-- C137, `f32`, multicubic on a rectilinear grid: the weights add up to 1, their absolute values to
at most `(1 + ρ² / (2 (1 + ρ))) ^ N`. -/
theorem C137_cubic_rectilinear_f32 (e : Evaluator) (he : e.Fits N) (hN8 : N ≤ 8) (fma : Bool)
    (grids : Fin N → List F32) (vals : List F32) (lin : Bool)
    (hG : (Axes.rectilinear fun k => (grids k).map val).Valid 4 (vals.map val))
    (hgrid : ∀ k, ∀ a ∈ grids k, Finite a ∧ |val a| ≤ 2 ^ 126) (x : Fin N → F32)
    (hx : ∀ k, Finite (x k))
    (hin : ∀ k, InRange (grids k).length (fun i => ((grids k).map val).getD i 0) (val (x k)))
    (ρ : ℚ) (hρ : 1 ≤ ρ) (hρ2 : ρ ≤ 2 ^ 9)
    (hmesh : ∀ k, MeshRatio (grids k).length (fun i => ((grids k).map val).getD i 0) ρ) :
    ∃ w : Nat → ℚ, ∑ i ∈ Finset.range vals.length, w i = 1 ∧
      ∑ i ∈ Finset.range vals.length, |w i| ≤ (1 + ρ ^ 2 / (2 * (1 + ρ))) ^ N ∧
      ((Finset.range vals.length).filter fun i => w i ≠ 0).card ≤ 4 ^ N ∧
      ∀ (v : List F32) (M : ℚ), v.length = vals.length → M ≤ 2 ^ 40 → 1 / 2 ^ 126 ≤ M →
        (∀ a ∈ v, Finite a ∧ |val a| ≤ M) →
        ∃ r, multicubicRectilinearAt e fma grids v lin x = .ok r ∧ Finite r ∧
          |val r - ∑ i ∈ Finset.range vals.length, w i * (v.map val).getD i 0| ≤
            3200 * N * ρ * (1 / 2 ^ 24) * (1 + ρ ^ 2 / (2 * (1 + ρ))) ^ N * M := by
  have hsz : (Axes.rectilinear fun k => (grids k).map val).size = fun k => (grids k).length := by
    funext k; simp [Axes.size]
  have hin' : ∀ k, InRange ((Axes.rectilinear fun k => (grids k).map val).size k)
      ((Axes.rectilinear fun k => (grids k).map val).node k) (val (x k)) := by simp only [hsz]; exact hin
  have hmesh' : ∀ k, MeshRatio ((Axes.rectilinear fun k => (grids k).map val).size k)
      ((Axes.rectilinear fun k => (grids k).map val).node k) ρ := by simp only [hsz]; exact hmesh
  obtain ⟨c, hc⟩ := hG.cells (by omega) fun k => val (x k)
  obtain ⟨w, h1, -, -, h2, h3⟩ := C137_multicubic e he fma _ lin hG _
    (hG.inRange_fits (by omega) hin' _ (by simp)) c hc
  rw [List.length_map] at h1 h2 h3
  refine ⟨w, h1.one, h3 hin' ρ hmesh', h2, fun v M hl hM hM1 hv => weights_float h1 hl ?_⟩
  exact C82_rectilinear_f32 e he hN8 fma grids v lin (valid_of_length hG (by simpa using hl)) hgrid M
    hM hM1 hv x hx hin ρ hρ hρ2 hmesh

/-- C137, `f32`, multicubic on a regular grid: the absolute values of the weights add up to at most
`(5 / 4) ^ N`. -/
theorem C137_cubic_regular_f32 (e : Evaluator) (he : e.Fits N) (hN8 : N ≤ 8) (fma : Bool) (κ : ℚ)
    (hκ : 0 ≤ κ) (hN : 4200 * N * (1 + κ) ≤ 2 ^ 24) (dims : Fin N → Nat)
    (starts steps : Fin N → F32) (vals : List F32) (lin : Bool)
    (hG : (Axes.regular dims (fun k => val (starts k)) fun k => val (steps k)).Valid 4 (vals.map val))
    (hfin : ∀ k, Finite (starts k) ∧ Finite (steps k)) (hnormal : ∀ k, 1 / 2 ^ 126 ≤ val (steps k))
    (hnodes : ∀ k, |val (starts k)| ≤ κ * val (steps k) ∧
      |val (starts k) + val (steps k) * ((dims k - 1 : Nat) : ℚ)| ≤ κ * val (steps k))
    (hlarge : ∀ k, κ * val (steps k) ≤ 2 ^ 124) (x : Fin N → F32) (hx : ∀ k, Finite (x k))
    (hin : ∀ k, InRange (dims k) (fun i => val (starts k) + val (steps k) * (i : ℚ)) (val (x k))) :
    ∃ w : Nat → ℚ, ∑ i ∈ Finset.range vals.length, w i = 1 ∧
      ∑ i ∈ Finset.range vals.length, |w i| ≤ (5 / 4) ^ N ∧
      ((Finset.range vals.length).filter fun i => w i ≠ 0).card ≤ 4 ^ N ∧
      ∀ (v : List F32) (M : ℚ), v.length = vals.length → M ≤ 2 ^ 110 → 1 / 2 ^ 126 ≤ M →
        (∀ a ∈ v, Finite a ∧ |val a| ≤ M) →
        ∃ r, multicubicRegularAt e fma dims starts steps v lin x = .ok r ∧ Finite r ∧
          |val r - ∑ i ∈ Finset.range vals.length, w i * (v.map val).getD i 0| ≤
            4200 * N * (1 + κ) * (1 / 2 ^ 24) * (5 / 4) ^ N * M := by
  obtain ⟨c, hc⟩ := hG.cells (by omega) fun k => val (x k)
  obtain ⟨w, h1, -, -, h2, h3⟩ := C137_multicubic e he fma _ lin hG _
    (hG.inRange_fits (by omega) hin _ (by simp)) c hc
  rw [List.length_map] at h1 h2 h3
  have h4 := h3 hin 1 (meshRatio_regular dims _ _)
  have e5 : (1 : ℚ) + 1 ^ 2 / (2 * (1 + 1)) = 5 / 4 := by norm_num
  rw [e5] at h4
  refine ⟨w, h1.one, h4, h2, fun v M hl hM hM1 hv => weights_float h1 hl ?_⟩
  exact C82_regular_f32 e he hN8 fma κ hκ hN dims starts steps v lin
    (valid_of_length hG (by simpa using hl)) hfin hnormal hnodes hlarge M hM hM1 hv x hx hin

end

/-! ### Concrete cases -/

/-- One row of weights serves all tables of length 4 on an axis `0 1 3 4`, in `f64`. -/
example (x : Fin 1 → F64) (hx : ∀ k, Finite (x k))
    (hin : ∀ k : Fin 1, InRange 4 (fun i => ([q64 0, q64 1, q64 3, q64 4].map val).getD i 0) (val (x k))) :
    ∃ w : Nat → ℚ, (∀ i < 4, 0 ≤ w i) ∧ ∑ i ∈ Finset.range 4, w i = 1 ∧
      ∀ v : List F64, v.length = 4 → (∀ a ∈ v, Finite a ∧ |val a| ≤ 100) →
        ∃ r, multilinearRectilinearAt .flat true (fun _ : Fin 1 => [q64 0, q64 1, q64 3, q64 4]) v x = .ok r ∧
          Finite r ∧ |val r - ∑ i ∈ Finset.range 4, w i * (v.map val).getD i 0| ≤ 1 / 1000 := by
  obtain ⟨w, h1, h2, -, h3⟩ := C137_linear_rectilinear_f64 (N := 1) .flat Nat.one_pos (by decide) true
    (fun _ => [q64 0, q64 1, q64 3, q64 4]) [q64 0, q64 1, q64 3, q64 5]
    (valid_of_check (by decide +kernel)) (by decide +kernel) x hx hin
  refine ⟨w, h1, h2, fun v hl hv => ?_⟩
  obtain ⟨r, k1, k2, k3⟩ := h3 v 100 hl (by norm_num) hv
  exact ⟨r, k1, k2, k3.trans (by norm_num)⟩

/-- The same on a regular axis, in `f64`. -/
example (x : Fin 1 → F64) (hx : ∀ k, Finite (x k))
    (hin : ∀ k : Fin 1, InRange 4 (fun i => val (q64 0) + val (q64 (1 / 2)) * (i : ℚ)) (val (x k))) :
    ∃ w : Nat → ℚ, (∀ i < 4, 0 ≤ w i) ∧ ∑ i ∈ Finset.range 4, w i = 1 ∧
      ∀ v : List F64, v.length = 4 → (∀ a ∈ v, Finite a ∧ |val a| ≤ 100) →
        ∃ r, multilinearRegularAt .flat true (fun _ : Fin 1 => 4) (fun _ => q64 0)
            (fun _ => q64 (1 / 2)) v x = .ok r ∧
          Finite r ∧ |val r - ∑ i ∈ Finset.range 4, w i * (v.map val).getD i 0| ≤ 1 / 100 := by
  obtain ⟨w, h1, h2, -, h3⟩ := C137_linear_regular_f64 (N := 1) .flat Nat.one_pos true 3 (by norm_num)
    (by norm_num) (fun _ => 4) (fun _ => q64 0) (fun _ => q64 (1 / 2)) [q64 0, q64 1, q64 4, q64 9]
    (valid_of_check (by decide +kernel)) (by decide +kernel) (by decide +kernel) (by decide +kernel)
    (by decide +kernel) x hx hin
  refine ⟨w, h1, h2, fun v hl hv => ?_⟩
  obtain ⟨r, k1, k2, k3⟩ := h3 v 100 hl (by norm_num) hv
  exact ⟨r, k1, k2, k3.trans (by norm_num)⟩

/-- Cubic weights on an axis `0 1 3 4` with ratio 2, in `f64`. -/
example (x : Fin 1 → F64) (hx : ∀ k, Finite (x k))
    (hin : ∀ k : Fin 1, InRange 4 (fun i => ([q64 0, q64 1, q64 3, q64 4].map val).getD i 0) (val (x k))) :
    ∃ w : Nat → ℚ, ∑ i ∈ Finset.range 4, w i = 1 ∧ ∑ i ∈ Finset.range 4, |w i| ≤ 5 / 3 ∧
      ∀ v : List F64, v.length = 4 → (∀ a ∈ v, Finite a ∧ |val a| ≤ 100) →
        ∃ r, multicubicRectilinearAt .flat true (fun _ : Fin 1 => [q64 0, q64 1, q64 3, q64 4]) v false x =
            .ok r ∧
          Finite r ∧ |val r - ∑ i ∈ Finset.range 4, w i * (v.map val).getD i 0| ≤ 1 / 10 := by
  obtain ⟨w, h1, h2, -, h3⟩ := C137_cubic_rectilinear_f64 (N := 1) .flat Nat.one_pos (by decide) true
    (fun _ => [q64 0, q64 1, q64 3, q64 4]) [q64 0, q64 1, q64 3, q64 5] false
    (valid_of_check (by decide +kernel)) (by decide +kernel) x hx hin 2 (by norm_num) (by norm_num) (by
      intro k i hi
      replace hi : i + 2 < 4 := hi
      have : i < 2 := by omega
      clear hin hx x
      interval_cases i <;> constructor <;> decide +kernel)
  refine ⟨w, h1, h2.trans (by norm_num), fun v hl hv => ?_⟩
  obtain ⟨r, k1, k2, k3⟩ := h3 v 100 hl (by norm_num) (by norm_num) hv
  exact ⟨r, k1, k2, k3.trans (by norm_num)⟩

/-- Cubic weights on a regular axis, in `f64`. -/
example (x : Fin 1 → F64) (hx : ∀ k, Finite (x k))
    (hin : ∀ k : Fin 1, InRange 4 (fun i => val (q64 0) + val (q64 (1 / 2)) * (i : ℚ)) (val (x k))) :
    ∃ w : Nat → ℚ, ∑ i ∈ Finset.range 4, w i = 1 ∧ ∑ i ∈ Finset.range 4, |w i| ≤ 5 / 4 ∧
      ∀ v : List F64, v.length = 4 → (∀ a ∈ v, Finite a ∧ |val a| ≤ 100) →
        ∃ r, multicubicRegularAt .flat true (fun _ : Fin 1 => 4) (fun _ => q64 0)
            (fun _ => q64 (1 / 2)) v true x = .ok r ∧
          Finite r ∧ |val r - ∑ i ∈ Finset.range 4, w i * (v.map val).getD i 0| ≤ 1 / 4 := by
  obtain ⟨w, h1, h2, -, h3⟩ := C137_cubic_regular_f64 (N := 1) .flat Nat.one_pos (by decide) true 3
    (by norm_num) (by norm_num) (fun _ => 4) (fun _ => q64 0) (fun _ => q64 (1 / 2))
    [q64 0, q64 1, q64 4, q64 9] true
    (valid_of_check (by decide +kernel)) (by decide +kernel) (by decide +kernel) (by decide +kernel)
    (by decide +kernel) x hx hin
  refine ⟨w, h1, h2.trans (by norm_num), fun v hl hv => ?_⟩
  obtain ⟨r, k1, k2, k3⟩ := h3 v 100 hl (by norm_num) (by norm_num) hv
  exact ⟨r, k1, k2, k3.trans (by norm_num)⟩

/-- One row of weights serves all tables of length 4 on an axis `0 1 3 4`, in `f32`. -/
example (x : Fin 1 → F32) (hx : ∀ k, Finite (x k))
    (hin : ∀ k : Fin 1, InRange 4 (fun i => ([q32 0, q32 1, q32 3, q32 4].map val).getD i 0) (val (x k))) :
    ∃ w : Nat → ℚ, (∀ i < 4, 0 ≤ w i) ∧ ∑ i ∈ Finset.range 4, w i = 1 ∧
      ∀ v : List F32, v.length = 4 → (∀ a ∈ v, Finite a ∧ |val a| ≤ 100) →
        ∃ r, multilinearRectilinearAt .flat true (fun _ : Fin 1 => [q32 0, q32 1, q32 3, q32 4]) v x = .ok r ∧
          Finite r ∧ |val r - ∑ i ∈ Finset.range 4, w i * (v.map val).getD i 0| ≤ 1 / 1000 := by
  obtain ⟨w, h1, h2, -, h3⟩ := C137_linear_rectilinear_f32 (N := 1) .flat Nat.one_pos (by decide) true
    (fun _ => [q32 0, q32 1, q32 3, q32 4]) [q32 0, q32 1, q32 3, q32 5]
    (valid_of_check (by decide +kernel)) (by decide +kernel) x hx hin
  refine ⟨w, h1, h2, fun v hl hv => ?_⟩
  obtain ⟨r, k1, k2, k3⟩ := h3 v 100 hl (by norm_num) hv
  exact ⟨r, k1, k2, k3.trans (by norm_num)⟩

/-- The same on a regular axis, in `f32`. -/
example (x : Fin 1 → F32) (hx : ∀ k, Finite (x k))
    (hin : ∀ k : Fin 1, InRange 4 (fun i => val (q32 0) + val (q32 (1 / 2)) * (i : ℚ)) (val (x k))) :
    ∃ w : Nat → ℚ, (∀ i < 4, 0 ≤ w i) ∧ ∑ i ∈ Finset.range 4, w i = 1 ∧
      ∀ v : List F32, v.length = 4 → (∀ a ∈ v, Finite a ∧ |val a| ≤ 100) →
        ∃ r, multilinearRegularAt .flat true (fun _ : Fin 1 => 4) (fun _ => q32 0)
            (fun _ => q32 (1 / 2)) v x = .ok r ∧
          Finite r ∧ |val r - ∑ i ∈ Finset.range 4, w i * (v.map val).getD i 0| ≤ 1 / 100 := by
  obtain ⟨w, h1, h2, -, h3⟩ := C137_linear_regular_f32 (N := 1) .flat Nat.one_pos true 3 (by norm_num)
    (by norm_num) (fun _ => 4) (fun _ => q32 0) (fun _ => q32 (1 / 2)) [q32 0, q32 1, q32 4, q32 9]
    (valid_of_check (by decide +kernel)) (by decide +kernel) (by decide +kernel) (by decide +kernel)
    (by decide +kernel) x hx hin
  refine ⟨w, h1, h2, fun v hl hv => ?_⟩
  obtain ⟨r, k1, k2, k3⟩ := h3 v 100 hl (by norm_num) hv
  exact ⟨r, k1, k2, k3.trans (by norm_num)⟩

/-- Cubic weights on an axis `0 1 3 4` with ratio 2, in `f32`. -/
example (x : Fin 1 → F32) (hx : ∀ k, Finite (x k))
    (hin : ∀ k : Fin 1, InRange 4 (fun i => ([q32 0, q32 1, q32 3, q32 4].map val).getD i 0) (val (x k))) :
    ∃ w : Nat → ℚ, ∑ i ∈ Finset.range 4, w i = 1 ∧ ∑ i ∈ Finset.range 4, |w i| ≤ 5 / 3 ∧
      ∀ v : List F32, v.length = 4 → (∀ a ∈ v, Finite a ∧ |val a| ≤ 100) →
        ∃ r, multicubicRectilinearAt .flat true (fun _ : Fin 1 => [q32 0, q32 1, q32 3, q32 4]) v false x =
            .ok r ∧
          Finite r ∧ |val r - ∑ i ∈ Finset.range 4, w i * (v.map val).getD i 0| ≤ 1 / 10 := by
  obtain ⟨w, h1, h2, -, h3⟩ := C137_cubic_rectilinear_f32 (N := 1) .flat Nat.one_pos (by decide) true
    (fun _ => [q32 0, q32 1, q32 3, q32 4]) [q32 0, q32 1, q32 3, q32 5] false
    (valid_of_check (by decide +kernel)) (by decide +kernel) x hx hin 2 (by norm_num) (by norm_num) (by
      intro k i hi
      replace hi : i + 2 < 4 := hi
      have : i < 2 := by omega
      clear hin hx x
      interval_cases i <;> constructor <;> decide +kernel)
  refine ⟨w, h1, h2.trans (by norm_num), fun v hl hv => ?_⟩
  obtain ⟨r, k1, k2, k3⟩ := h3 v 100 hl (by norm_num) (by norm_num) hv
  exact ⟨r, k1, k2, k3.trans (by norm_num)⟩

/-- Cubic weights on a regular axis, in `f32`. -/
example (x : Fin 1 → F32) (hx : ∀ k, Finite (x k))
    (hin : ∀ k : Fin 1, InRange 4 (fun i => val (q32 0) + val (q32 (1 / 2)) * (i : ℚ)) (val (x k))) :
    ∃ w : Nat → ℚ, ∑ i ∈ Finset.range 4, w i = 1 ∧ ∑ i ∈ Finset.range 4, |w i| ≤ 5 / 4 ∧
      ∀ v : List F32, v.length = 4 → (∀ a ∈ v, Finite a ∧ |val a| ≤ 100) →
        ∃ r, multicubicRegularAt .flat true (fun _ : Fin 1 => 4) (fun _ => q32 0)
            (fun _ => q32 (1 / 2)) v true x = .ok r ∧
          Finite r ∧ |val r - ∑ i ∈ Finset.range 4, w i * (v.map val).getD i 0| ≤ 1 / 4 := by
  obtain ⟨w, h1, h2, -, h3⟩ := C137_cubic_regular_f32 (N := 1) .flat Nat.one_pos (by decide) true 3
    (by norm_num) (by norm_num) (fun _ => 4) (fun _ => q32 0) (fun _ => q32 (1 / 2))
    [q32 0, q32 1, q32 4, q32 9] true
    (valid_of_check (by decide +kernel)) (by decide +kernel) (by decide +kernel) (by decide +kernel)
    (by decide +kernel) x hx hin
  refine ⟨w, h1, h2.trans (by norm_num), fun v hl hv => ?_⟩
  obtain ⟨r, k1, k2, k3⟩ := h3 v 100 hl (by norm_num) (by norm_num) hv
  exact ⟨r, k1, k2, k3.trans (by norm_num)⟩

end Interpn
