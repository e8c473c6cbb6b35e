import Verif.Props.TotalError
import Verif.Props.DetectRegular

/-! C94, the Python function `interpn`: total error of tabulating a smooth function and interpolating
the table. -/

set_option autoImplicit false
set_option exponentiation.threshold 1100

namespace Interpn
open FloatOps Ieee

section
variable {N : Nat}

/-- C94, `f64`: `interpn(obs, grids, vals, method="linear")` where `vals` tabulates `F` with errors
of at most `ε`. Every entry of the returned array is a finite number that differs from the value of
`F` at the observation by at most `∑ D k / 8 * h k ^ 2 + ε`, plus rounding errors, no matter whether
the grids are recognised as regular. -/
theorem C94_interpn_linear_f64 (fma lin : Bool) (atol : F64) (h1 : 1 ≤ N) (h8 : N ≤ 8)
    (κ : ℚ) (hκ : 0 ≤ κ) (hN : 110 * N * (1 + κ) ≤ 2 ^ 53)
    (grids : Fin N → List F64) (vals : List F64)
    (hG : (Axes.rectilinear fun k => (grids k).map val).Valid 2 (vals.map val))
    (hgrid : ∀ k, ∀ a ∈ grids k, Finite a ∧
      |val a| ≤ κ * (((grids k).map val).getD 1 0 - ((grids k).map val).getD 0 0))
    (hnormal : ∀ k, 1 / 2 ^ 1021 ≤ ((grids k).map val).getD 1 0 - ((grids k).map val).getD 0 0)
    (hlarge : ∀ k, κ * (((grids k).map val).getD 1 0 - ((grids k).map val).getD 0 0) ≤ 2 ^ 1020)
    (M : ℚ) (hM : M ≤ 2 ^ 1020) (hvals : ∀ v ∈ vals, Finite v ∧ |val v| ≤ M)
    (F : (Fin N → ℝ) → ℝ) (D h : Fin N → ℝ) (ε : ℝ)
    (hF : SecondDerivsOn (fun k => (grids k).length) (fun k i => ((grids k).map val).getD i 0) F D)
    (hh : CellsAtMost (fun k => (grids k).length) (fun k i => ((grids k).map val).getD i 0) h)
    (htab : TableOf (fun k => (grids k).length) (fun k i => ((grids k).map val).getD i 0) F ε vals)
    (obs : Fin N → List F64) (m : Nat)
    (hobs : ∀ k, (obs k).length = m ∧ ∀ a ∈ obs k, Finite a ∧
      InRange (grids k).length (fun i => ((grids k).map val).getD i 0) (val a)) :
    ∃ reg res, pyInterpn fma .float64 (List.ofFn obs) (List.ofFn grids) vals "linear" none lin false
        false atol = .ok (⟨"linear", reg, .float64⟩, res) ∧ res.length = m ∧
      ∀ i pt, PointAt obs i pt → ∃ r, res[i]? = some r ∧ Finite r ∧
        |((val r : ℚ) : ℝ) - F fun k => ((val (pt k) : ℚ) : ℝ)| ≤
          ∑ k, D k / 8 * h k ^ 2 + ε +
            (110 * N * (1 + κ) * (1 / 2 ^ 53) * M + 3 * N * (1 / 2 ^ 1075)) := by
  obtain ⟨reg, res, e1, -, e3, e4⟩ := C92_interpn_f64 fma lin atol h1 h8 κ hκ hN grids vals hG hgrid
    hnormal hlarge M hM hvals obs m hobs
  refine ⟨reg, res, e1, e3, fun i pt hpt => ?_⟩
  obtain ⟨r, y, a1, a2, a3, a4⟩ := e4 i pt hpt
  obtain ⟨g, hg, hε⟩ := htab.samples
  have hsz : (Axes.rectilinear fun k => (grids k).map val : Axes ℚ N).size =
      fun k => (grids k).length := funext fun k => by simp [Axes.size]
  refine ⟨r, a1, a2, (add_rounding a4 (linear_total .flat h1 false _ _ hG F D h ?_ ?_ ε g ?_ ?_ _ ?_ y
    a3)).trans_eq (by push_cast; ring)⟩
  · rw [hsz]; exact hF
  · rw [hsz]; exact hh
  · rw [hsz]; exact hg
  · rw [hsz]; exact hε
  · rw [hsz]; exact fun k => ((hobs k).2 _ (List.mem_of_getElem? (hpt k))).2

/-- C94, `f32`: `interpn(obs, grids, vals, method="linear")` where `vals` tabulates `F` with errors
of at most `ε`. Every entry of the returned array is a finite number that differs from the value of
`F` at the observation by at most `∑ D k / 8 * h k ^ 2 + ε`, plus rounding errors, no matter whether
the grids are recognised as regular. -/
theorem C94_interpn_linear_f32 (fma lin : Bool) (atol : F32) (h1 : 1 ≤ N) (h8 : N ≤ 8)
    (κ : ℚ) (hκ : 0 ≤ κ) (hN : 110 * N * (1 + κ) ≤ 2 ^ 24)
    (grids : Fin N → List F32) (vals : List F32)
    (hG : (Axes.rectilinear fun k => (grids k).map val).Valid 2 (vals.map val))
    (hgrid : ∀ k, ∀ a ∈ grids k, Finite a ∧
      |val a| ≤ κ * (((grids k).map val).getD 1 0 - ((grids k).map val).getD 0 0))
    (hnormal : ∀ k, 1 / 2 ^ 125 ≤ ((grids k).map val).getD 1 0 - ((grids k).map val).getD 0 0)
    (hlarge : ∀ k, κ * (((grids k).map val).getD 1 0 - ((grids k).map val).getD 0 0) ≤ 2 ^ 124)
    (M : ℚ) (hM : M ≤ 2 ^ 124) (hvals : ∀ v ∈ vals, Finite v ∧ |val v| ≤ M)
    (F : (Fin N → ℝ) → ℝ) (D h : Fin N → ℝ) (ε : ℝ)
    (hF : SecondDerivsOn (fun k => (grids k).length) (fun k i => ((grids k).map val).getD i 0) F D)
    (hh : CellsAtMost (fun k => (grids k).length) (fun k i => ((grids k).map val).getD i 0) h)
    (htab : TableOf (fun k => (grids k).length) (fun k i => ((grids k).map val).getD i 0) F ε vals)
    (obs : Fin N → List F32) (m : Nat)
    (hobs : ∀ k, (obs k).length = m ∧ ∀ a ∈ obs k, Finite a ∧
      InRange (grids k).length (fun i => ((grids k).map val).getD i 0) (val a)) :
    ∃ reg res, pyInterpn fma .float32 (List.ofFn obs) (List.ofFn grids) vals "linear" none lin false
        false atol = .ok (⟨"linear", reg, .float32⟩, res) ∧ res.length = m ∧
      ∀ i pt, PointAt obs i pt → ∃ r, res[i]? = some r ∧ Finite r ∧
        |((val r : ℚ) : ℝ) - F fun k => ((val (pt k) : ℚ) : ℝ)| ≤
          ∑ k, D k / 8 * h k ^ 2 + ε +
            (110 * N * (1 + κ) * (1 / 2 ^ 24) * M + 3 * N * (1 / 2 ^ 150)) := by
  obtain ⟨reg, res, e1, -, e3, e4⟩ := C92_interpn_f32 fma lin atol h1 h8 κ hκ hN grids vals hG hgrid
    hnormal hlarge M hM hvals obs m hobs
  refine ⟨reg, res, e1, e3, fun i pt hpt => ?_⟩
  obtain ⟨r, y, a1, a2, a3, a4⟩ := e4 i pt hpt
  obtain ⟨g, hg, hε⟩ := htab.samples
  have hsz : (Axes.rectilinear fun k => (grids k).map val : Axes ℚ N).size =
      fun k => (grids k).length := funext fun k => by simp [Axes.size]
  refine ⟨r, a1, a2, (add_rounding a4 (linear_total .flat h1 false _ _ hG F D h ?_ ?_ ε g ?_ ?_ _ ?_ y
    a3)).trans_eq (by push_cast; ring)⟩
  · rw [hsz]; exact hF
  · rw [hsz]; exact hh
  · rw [hsz]; exact hg
  · rw [hsz]; exact hε
  · rw [hsz]; exact fun k => ((hobs k).2 _ (List.mem_of_getElem? (hpt k))).2

end

/-- Hypotheses of `C94_interpn_linear_f64` are satisfied by a table of `y₀³ y₁`. -/
example : ∃ reg res, pyInterpn false .float64 (List.ofFn ![[q64 (1 / 3), q64 2], [q64 (5 / 3), q64 3]])
      (List.ofFn exGrids64) exTab64 "linear" none false false false (q64 0) =
        .ok (⟨"linear", reg, .float64⟩, res) ∧
    ∃ r, res[0]? = some r ∧
      |((val r : ℚ) : ℝ) - exCube fun k => ((val (![q64 (1 / 3), q64 (5 / 3)] k) : ℚ) : ℝ)| ≤
        72 / 8 * (391 / 100) ^ 2 + 1 / 10 ^ 9 := by
  obtain ⟨reg, res, h1, -, h4⟩ := C94_interpn_linear_f64 (N := 2) false false (q64 0) (by decide)
    (by decide) 40 (by norm_num) (by norm_num) exGrids64 exTab64 (valid_of_check (by decide +kernel))
    (by decide +kernel) (by decide +kernel) (by decide +kernel) 192 (by norm_num) (by decide +kernel)
    exCube ![6 * (4 : ℚ) * (3 : ℚ), 0] ![391 / 100, 2] ((1 / 10 ^ 15 : ℚ) : ℝ)
    (exCube_second (by decide +kernel))
    (fun k i hi => by
      have := (show ∀ k, ∀ i < (exGrids64 k).length, i + 1 < (exGrids64 k).length →
        ((exGrids64 k).map val).getD (i + 1) 0 - ((exGrids64 k).map val).getD i 0 ≤
          (![391 / 100, 2] : Fin 2 → ℚ) k by decide +kernel) k i (Nat.lt_of_succ_lt hi) hi
      have h' : ((((exGrids64 k).map val).getD (i + 1) 0 : ℚ) : ℝ) -
          (((exGrids64 k).map val).getD i 0 : ℚ) ≤ ((![391 / 100, 2] : Fin 2 → ℚ) k : ℝ) := by
        exact_mod_cast this
      refine h'.trans_eq ?_
      fin_cases k <;> norm_num)
    (tableOf_of_check (Fq := fun q => q 0 ^ 3 * q 1) exCube_rat (by decide +kernel))
    ![[q64 (1 / 3), q64 2], [q64 (5 / 3), q64 3]] 2 (by unfold InRange; decide +kernel)
  obtain ⟨r, a, -, c⟩ := h4 0 ![q64 (1 / 3), q64 (5 / 3)] (fun k => by
    match k with
    | 0 => rfl
    | 1 => rfl)
  refine ⟨reg, res, h1, r, a, c.trans ?_⟩
  simp only [Fin.sum_univ_two, Matrix.cons_val_zero, Matrix.cons_val_one]
  norm_num

/-- Hypotheses of `C94_interpn_linear_f32` are satisfied by a table of `y₀³ y₁`. -/
example : ∃ reg res, pyInterpn false .float32 (List.ofFn ![[q32 (1 / 3), q32 2], [q32 (5 / 3), q32 3]])
      (List.ofFn exGrids32) exTab32 "linear" none false false false (q32 0) =
        .ok (⟨"linear", reg, .float32⟩, res) ∧
    ∃ r, res[0]? = some r ∧
      |((val r : ℚ) : ℝ) - exCube fun k => ((val (![q32 (1 / 3), q32 (5 / 3)] k) : ℚ) : ℝ)| ≤
        72 / 8 * (391 / 100) ^ 2 + 1 / 1 := by
  obtain ⟨reg, res, h1, -, h4⟩ := C94_interpn_linear_f32 (N := 2) false false (q32 0) (by decide)
    (by decide) 40 (by norm_num) (by norm_num) exGrids32 exTab32 (valid_of_check (by decide +kernel))
    (by decide +kernel) (by decide +kernel) (by decide +kernel) 192 (by norm_num) (by decide +kernel)
    exCube ![6 * (4 : ℚ) * (3 : ℚ), 0] ![391 / 100, 2] ((1 / 10 ^ 7 : ℚ) : ℝ)
    (exCube_second (by decide +kernel))
    (fun k i hi => by
      have := (show ∀ k, ∀ i < (exGrids32 k).length, i + 1 < (exGrids32 k).length →
        ((exGrids32 k).map val).getD (i + 1) 0 - ((exGrids32 k).map val).getD i 0 ≤
          (![391 / 100, 2] : Fin 2 → ℚ) k by decide +kernel) k i (Nat.lt_of_succ_lt hi) hi
      have h' : ((((exGrids32 k).map val).getD (i + 1) 0 : ℚ) : ℝ) -
          (((exGrids32 k).map val).getD i 0 : ℚ) ≤ ((![391 / 100, 2] : Fin 2 → ℚ) k : ℝ) := by
        exact_mod_cast this
      refine h'.trans_eq ?_
      fin_cases k <;> norm_num)
    (tableOf_of_check (Fq := fun q => q 0 ^ 3 * q 1) exCube_rat (by decide +kernel))
    ![[q32 (1 / 3), q32 2], [q32 (5 / 3), q32 3]] 2 (by unfold InRange; decide +kernel)
  obtain ⟨r, a, -, c⟩ := h4 0 ![q32 (1 / 3), q32 (5 / 3)] (fun k => by
    match k with
    | 0 => rfl
    | 1 => rfl)
  refine ⟨reg, res, h1, r, a, c.trans ?_⟩
  simp only [Fin.sum_univ_two, Matrix.cons_val_zero, Matrix.cons_val_one]
  norm_num

end Interpn
