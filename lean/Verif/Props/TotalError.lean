import Verif.Lemmas.RealData
import Verif.Spec.Table
import Verif.Props.IeeeCubic
import Verif.Props.IeeeAccuracy

/-! C94: total error of tabulating a smooth function and interpolating the table in floating point:
the error of the interpolation method, of the table, and of the arithmetic. -/

set_option autoImplicit false
set_option exponentiation.threshold 1100

namespace Interpn
open FloatOps Ieee

section
variable {f : Format} {N : Nat}

/-- The exact values of the table at the nodes. -/
theorem TableOf.samples {dims : Fin N → Nat} {node : Fin N → Nat → ℚ} {F : (Fin N → ℝ) → ℝ} {ε : ℝ}
    {vals : List (Ieee f)} (h : TableOf dims node F ε vals) :
    ∃ g : (Fin N → Nat) → ℚ, Samples dims (vals.map val) g ∧
      ∀ loc : Fin N → Nat, (∀ k, loc k < dims k) →
        |(g loc : ℝ) - F fun k => (node k (loc k) : ℝ)| ≤ ε := by
  refine ⟨fun loc => ((vals.map val)[cIndex dims loc]?).getD 0, fun loc hl => ?_, fun loc hl => ?_⟩
  · obtain ⟨v, h1, -⟩ := h loc hl
    simp only [List.getElem?_map, h1]; rfl
  · obtain ⟨v, h1, h2⟩ := h loc hl
    simp only [List.getElem?_map, h1, Option.map_some, Option.getD_some]
    exact h2

/-- Adding the rounding error to the error in exact arithmetic. -/
theorem add_rounding {a y B : ℚ} {t E : ℝ} (h : |a - y| ≤ B) (hy : |(y : ℝ) - t| ≤ E) :
    |(a : ℝ) - t| ≤ E + (B : ℝ) := by
  have h' : |(a : ℝ) - y| ≤ (B : ℝ) := by exact_mod_cast h
  have := abs_sub_le (a : ℝ) y t
  linarith

/-- C94, `f64`, multilinear interpolation on a rectilinear grid with cells at most `h k` wide: the
computed number differs from the value of the tabulated function at the observation by at most
`∑ D k / 8 * h k ^ 2`, plus the error `ε` of the table, plus rounding errors. -/
theorem C94_linear_rectilinear_f64 (e : Evaluator) (he : e.Fits N) (hN : N ≤ 1000) (fma : Bool)
    (grids : Fin N → List F64) (vals : List F64)
    (hG : (Axes.rectilinear fun k => (grids k).map val).Valid 2 (vals.map val))
    (hgrid : ∀ k, ∀ a ∈ grids k, Finite a ∧ |val a| ≤ 2 ^ 1022) (M : ℚ) (hM : M ≤ 2 ^ 1020)
    (hvals : ∀ v ∈ vals, Finite v ∧ |val v| ≤ M)
    (F : (Fin N → ℝ) → ℝ) (D h : Fin N → ℝ) (ε : ℝ)
    (hF : SecondDerivsOn (fun k => (grids k).length) (fun k i => ((grids k).map val).getD i 0) F D)
    (hh : CellsAtMost (fun k => (grids k).length) (fun k i => ((grids k).map val).getD i 0) h)
    (htab : TableOf (fun k => (grids k).length) (fun k i => ((grids k).map val).getD i 0) F ε vals)
    (x : Fin N → F64) (hx : ∀ k, Finite (x k))
    (hin : ∀ k, InRange (grids k).length (fun i => ((grids k).map val).getD i 0) (val (x k))) :
    ∃ r, multilinearRectilinearAt e fma grids vals x = .ok r ∧ Finite r ∧
      |((val r : ℚ) : ℝ) - F fun k => ((val (x k) : ℚ) : ℝ)| ≤
        ∑ k, D k / 8 * h k ^ 2 + ε + (26 * N * (1 / 2 ^ 53) * M + 3 * N * (1 / 2 ^ 1075)) := by
  obtain ⟨r, y, h1, h2, h3, h4⟩ := C81_rectilinear_f64 e he hN fma grids vals hG hgrid M hM hvals x hx
    hin
  obtain ⟨g, hg, hε⟩ := htab.samples
  have hsz : (Axes.rectilinear fun k => (grids k).map val : Axes ℚ N).size =
      fun k => (grids k).length := funext fun k => by simp [Axes.size]
  refine ⟨r, h1, h2, (add_rounding h4 (linear_total e he fma _ _ hG F D h ?_ ?_ ε g ?_ ?_ _ ?_ y
    h3)).trans_eq (by push_cast; ring)⟩
  · rw [hsz]; exact hF
  · rw [hsz]; exact hh
  · rw [hsz]; exact hg
  · rw [hsz]; exact hε
  · rw [hsz]; exact hin

/-- C94, `f32`, multilinear interpolation on a rectilinear grid with cells at most `h k` wide: the
computed number differs from the value of the tabulated function at the observation by at most
`∑ D k / 8 * h k ^ 2`, plus the error `ε` of the table, plus rounding errors. -/
theorem C94_linear_rectilinear_f32 (e : Evaluator) (he : e.Fits N) (hN : N ≤ 1000) (fma : Bool)
    (grids : Fin N → List F32) (vals : List F32)
    (hG : (Axes.rectilinear fun k => (grids k).map val).Valid 2 (vals.map val))
    (hgrid : ∀ k, ∀ a ∈ grids k, Finite a ∧ |val a| ≤ 2 ^ 126) (M : ℚ) (hM : M ≤ 2 ^ 124)
    (hvals : ∀ v ∈ vals, Finite v ∧ |val v| ≤ M)
    (F : (Fin N → ℝ) → ℝ) (D h : Fin N → ℝ) (ε : ℝ)
    (hF : SecondDerivsOn (fun k => (grids k).length) (fun k i => ((grids k).map val).getD i 0) F D)
    (hh : CellsAtMost (fun k => (grids k).length) (fun k i => ((grids k).map val).getD i 0) h)
    (htab : TableOf (fun k => (grids k).length) (fun k i => ((grids k).map val).getD i 0) F ε vals)
    (x : Fin N → F32) (hx : ∀ k, Finite (x k))
    (hin : ∀ k, InRange (grids k).length (fun i => ((grids k).map val).getD i 0) (val (x k))) :
    ∃ r, multilinearRectilinearAt e fma grids vals x = .ok r ∧ Finite r ∧
      |((val r : ℚ) : ℝ) - F fun k => ((val (x k) : ℚ) : ℝ)| ≤
        ∑ k, D k / 8 * h k ^ 2 + ε + (26 * N * (1 / 2 ^ 24) * M + 3 * N * (1 / 2 ^ 150)) := by
  obtain ⟨r, y, h1, h2, h3, h4⟩ := C81_rectilinear_f32 e he hN fma grids vals hG hgrid M hM hvals x hx
    hin
  obtain ⟨g, hg, hε⟩ := htab.samples
  have hsz : (Axes.rectilinear fun k => (grids k).map val : Axes ℚ N).size =
      fun k => (grids k).length := funext fun k => by simp [Axes.size]
  refine ⟨r, h1, h2, (add_rounding h4 (linear_total e he fma _ _ hG F D h ?_ ?_ ε g ?_ ?_ _ ?_ y
    h3)).trans_eq (by push_cast; ring)⟩
  · rw [hsz]; exact hF
  · rw [hsz]; exact hh
  · rw [hsz]; exact hg
  · rw [hsz]; exact hε
  · rw [hsz]; exact hin

/-- C94, `f64`, multilinear interpolation on a regular grid. -/
theorem C94_linear_regular_f64 (e : Evaluator) (he : e.Fits N) (fma : Bool) (κ : ℚ) (hκ : 0 ≤ κ)
    (hN : 100 * N * (1 + κ) ≤ 2 ^ 53)
    (dims : Fin N → Nat) (starts steps : Fin N → F64) (vals : List F64)
    (hG : (Axes.regular dims (fun k => val (starts k)) fun k => val (steps k)).Valid 2
      (vals.map val))
    (hfin : ∀ k, Finite (starts k) ∧ Finite (steps k)) (hnormal : ∀ k, 1 / 2 ^ 1022 ≤ val (steps k))
    (hnodes : ∀ k, |val (starts k)| ≤ κ * val (steps k) ∧
      |val (starts k) + val (steps k) * ((dims k - 1 : Nat) : ℚ)| ≤ κ * val (steps k))
    (hlarge : ∀ k, κ * val (steps k) ≤ 2 ^ 1020) (M : ℚ) (hM : M ≤ 2 ^ 1020)
    (hvals : ∀ v ∈ vals, Finite v ∧ |val v| ≤ M)
    (F : (Fin N → ℝ) → ℝ) (D : Fin N → ℝ) (ε : ℝ)
    (hF : SecondDerivsOn dims (fun k i => val (starts k) + val (steps k) * (i : ℚ)) F D)
    (htab : TableOf dims (fun k i => val (starts k) + val (steps k) * (i : ℚ)) F ε vals)
    (x : Fin N → F64) (hx : ∀ k, Finite (x k))
    (hin : ∀ k, InRange (dims k) (fun i => val (starts k) + val (steps k) * (i : ℚ)) (val (x k))) :
    ∃ r, multilinearRegularAt e fma dims starts steps vals x = .ok r ∧ Finite r ∧
      |((val r : ℚ) : ℝ) - F fun k => ((val (x k) : ℚ) : ℝ)| ≤
        ∑ k, D k / 8 * ((val (steps k) : ℚ) : ℝ) ^ 2 + ε +
          (60 * N * (1 + κ) * (1 / 2 ^ 53) * M + 3 * N * (1 / 2 ^ 1075)) := by
  obtain ⟨r, y, h1, h2, h3, h4⟩ := C81_regular_f64 e he fma κ hκ hN dims starts steps vals hG hfin
    hnormal hnodes hlarge M hM hvals x hx hin
  obtain ⟨g, hg, hε⟩ := htab.samples
  refine ⟨r, h1, h2, (add_rounding h4 (linear_total e he fma _ _ hG F D
    (fun k => ((val (steps k) : ℚ) : ℝ)) hF (fun k i _ => ?_) ε g hg hε _ hin y h3)).trans_eq
    (by push_cast; ring)⟩
  simp only [Axes.node]; push_cast; linarith

/-- C94, `f32`, multilinear interpolation on a regular grid. -/
theorem C94_linear_regular_f32 (e : Evaluator) (he : e.Fits N) (fma : Bool) (κ : ℚ) (hκ : 0 ≤ κ)
    (hN : 100 * N * (1 + κ) ≤ 2 ^ 24)
    (dims : Fin N → Nat) (starts steps : Fin N → F32) (vals : List F32)
    (hG : (Axes.regular dims (fun k => val (starts k)) fun k => val (steps k)).Valid 2
      (vals.map val))
    (hfin : ∀ k, Finite (starts k) ∧ Finite (steps k)) (hnormal : ∀ k, 1 / 2 ^ 126 ≤ val (steps k))
    (hnodes : ∀ k, |val (starts k)| ≤ κ * val (steps k) ∧
      |val (starts k) + val (steps k) * ((dims k - 1 : Nat) : ℚ)| ≤ κ * val (steps k))
    (hlarge : ∀ k, κ * val (steps k) ≤ 2 ^ 124) (M : ℚ) (hM : M ≤ 2 ^ 124)
    (hvals : ∀ v ∈ vals, Finite v ∧ |val v| ≤ M)
    (F : (Fin N → ℝ) → ℝ) (D : Fin N → ℝ) (ε : ℝ)
    (hF : SecondDerivsOn dims (fun k i => val (starts k) + val (steps k) * (i : ℚ)) F D)
    (htab : TableOf dims (fun k i => val (starts k) + val (steps k) * (i : ℚ)) F ε vals)
    (x : Fin N → F32) (hx : ∀ k, Finite (x k))
    (hin : ∀ k, InRange (dims k) (fun i => val (starts k) + val (steps k) * (i : ℚ)) (val (x k))) :
    ∃ r, multilinearRegularAt e fma dims starts steps vals x = .ok r ∧ Finite r ∧
      |((val r : ℚ) : ℝ) - F fun k => ((val (x k) : ℚ) : ℝ)| ≤
        ∑ k, D k / 8 * ((val (steps k) : ℚ) : ℝ) ^ 2 + ε +
          (60 * N * (1 + κ) * (1 / 2 ^ 24) * M + 3 * N * (1 / 2 ^ 150)) := by
  obtain ⟨r, y, h1, h2, h3, h4⟩ := C81_regular_f32 e he fma κ hκ hN dims starts steps vals hG hfin
    hnormal hnodes hlarge M hM hvals x hx hin
  obtain ⟨g, hg, hε⟩ := htab.samples
  refine ⟨r, h1, h2, (add_rounding h4 (linear_total e he fma _ _ hG F D
    (fun k => ((val (steps k) : ℚ) : ℝ)) hF (fun k i _ => ?_) ε g hg hε _ hin y h3)).trans_eq
    (by push_cast; ring)⟩
  simp only [Axes.node]; push_cast; linarith

/-- C94, `f64`, multicubic interpolation on a rectilinear grid with cells at most `h k` wide and
adjacent cells that differ in width by at most a factor `ρ`. -/
theorem C94_cubic_rectilinear_f64 (e : Evaluator) (he : e.Fits N) (hN8 : N ≤ 8) (fma : Bool)
    (grids : Fin N → List F64) (vals : List F64) (lin : Bool)
    (hG : (Axes.rectilinear fun k => (grids k).map val).Valid 4 (vals.map val))
    (hgrid : ∀ k, ∀ a ∈ grids k, Finite a ∧ |val a| ≤ 2 ^ 1022)
    (M : ℚ) (hM : M ≤ 2 ^ 700) (hM1 : 1 / 2 ^ 1022 ≤ M)
    (hvals : ∀ v ∈ vals, Finite v ∧ |val v| ≤ M)
    (F : (Fin N → ℝ) → ℝ) (D h : Fin N → ℝ) (ε : ℝ)
    (hF : ThirdDerivsOn (fun k => (grids k).length) (fun k i => ((grids k).map val).getD i 0) F D)
    (hh : CellsAtMost (fun k => (grids k).length) (fun k i => ((grids k).map val).getD i 0) h)
    (htab : TableOf (fun k => (grids k).length) (fun k i => ((grids k).map val).getD i 0) F ε vals)
    (x : Fin N → F64) (hx : ∀ k, Finite (x k))
    (hin : ∀ k, InRange (grids k).length (fun i => ((grids k).map val).getD i 0) (val (x k)))
    (ρ : ℚ) (hρ : 1 ≤ ρ) (hρ2 : ρ ≤ 2 ^ 30)
    (hmesh : ∀ k, MeshRatio (grids k).length (fun i => ((grids k).map val).getD i 0) ρ) :
    ∃ r, multicubicRectilinearAt e fma grids vals lin x = .ok r ∧ Finite r ∧
      |((val r : ℚ) : ℝ) - F fun k => ((val (x k) : ℚ) : ℝ)| ≤
        (1 + (ρ : ℝ) ^ 2 / (2 * (1 + ρ))) ^ (N - 1) *
            ∑ k, (1 + 9 * ((ρ : ℝ) ^ 2 / (4 * (1 + ρ)))) / 6 * (D k * h k ^ 3) +
          (1 + (ρ : ℝ) ^ 2 / (2 * (1 + ρ))) ^ N * ε +
          3200 * N * ρ * (1 / 2 ^ 53) * (1 + (ρ : ℝ) ^ 2 / (2 * (1 + ρ))) ^ N * M := by
  obtain ⟨r, y, h1, h2, h3, h4⟩ := C82_rectilinear_f64 e he hN8 fma grids vals lin hG hgrid M hM hM1
    hvals x hx hin ρ hρ hρ2 hmesh
  obtain ⟨g, hg, hε⟩ := htab.samples
  have hsz : (Axes.rectilinear fun k => (grids k).map val : Axes ℚ N).size =
      fun k => (grids k).length := funext fun k => by simp [Axes.size]
  refine ⟨r, h1, h2, (add_rounding h4 (cubic_total e he fma _ _ lin hG F D h ?_ ?_ ρ ?_ ε g ?_ ?_ _ ?_
    y h3)).trans_eq (by push_cast; ring)⟩
  · rw [hsz]; exact hF
  · rw [hsz]; exact hh
  · rw [hsz]; exact hmesh
  · rw [hsz]; exact hg
  · rw [hsz]; exact hε
  · rw [hsz]; exact hin

/-- C94, `f32`, multicubic interpolation on a rectilinear grid with cells at most `h k` wide and
adjacent cells that differ in width by at most a factor `ρ`. -/
theorem C94_cubic_rectilinear_f32 (e : Evaluator) (he : e.Fits N) (hN8 : N ≤ 8) (fma : Bool)
    (grids : Fin N → List F32) (vals : List F32) (lin : Bool)
    (hG : (Axes.rectilinear fun k => (grids k).map val).Valid 4 (vals.map val))
    (hgrid : ∀ k, ∀ a ∈ grids k, Finite a ∧ |val a| ≤ 2 ^ 126)
    (M : ℚ) (hM : M ≤ 2 ^ 40) (hM1 : 1 / 2 ^ 126 ≤ M)
    (hvals : ∀ v ∈ vals, Finite v ∧ |val v| ≤ M)
    (F : (Fin N → ℝ) → ℝ) (D h : Fin N → ℝ) (ε : ℝ)
    (hF : ThirdDerivsOn (fun k => (grids k).length) (fun k i => ((grids k).map val).getD i 0) F D)
    (hh : CellsAtMost (fun k => (grids k).length) (fun k i => ((grids k).map val).getD i 0) h)
    (htab : TableOf (fun k => (grids k).length) (fun k i => ((grids k).map val).getD i 0) F ε vals)
    (x : Fin N → F32) (hx : ∀ k, Finite (x k))
    (hin : ∀ k, InRange (grids k).length (fun i => ((grids k).map val).getD i 0) (val (x k)))
    (ρ : ℚ) (hρ : 1 ≤ ρ) (hρ2 : ρ ≤ 2 ^ 9)
    (hmesh : ∀ k, MeshRatio (grids k).length (fun i => ((grids k).map val).getD i 0) ρ) :
    ∃ r, multicubicRectilinearAt e fma grids vals lin x = .ok r ∧ Finite r ∧
      |((val r : ℚ) : ℝ) - F fun k => ((val (x k) : ℚ) : ℝ)| ≤
        (1 + (ρ : ℝ) ^ 2 / (2 * (1 + ρ))) ^ (N - 1) *
            ∑ k, (1 + 9 * ((ρ : ℝ) ^ 2 / (4 * (1 + ρ)))) / 6 * (D k * h k ^ 3) +
          (1 + (ρ : ℝ) ^ 2 / (2 * (1 + ρ))) ^ N * ε +
          3200 * N * ρ * (1 / 2 ^ 24) * (1 + (ρ : ℝ) ^ 2 / (2 * (1 + ρ))) ^ N * M := by
  obtain ⟨r, y, h1, h2, h3, h4⟩ := C82_rectilinear_f32 e he hN8 fma grids vals lin hG hgrid M hM hM1
    hvals x hx hin ρ hρ hρ2 hmesh
  obtain ⟨g, hg, hε⟩ := htab.samples
  have hsz : (Axes.rectilinear fun k => (grids k).map val : Axes ℚ N).size =
      fun k => (grids k).length := funext fun k => by simp [Axes.size]
  refine ⟨r, h1, h2, (add_rounding h4 (cubic_total e he fma _ _ lin hG F D h ?_ ?_ ρ ?_ ε g ?_ ?_ _ ?_
    y h3)).trans_eq (by push_cast; ring)⟩
  · rw [hsz]; exact hF
  · rw [hsz]; exact hh
  · rw [hsz]; exact hmesh
  · rw [hsz]; exact hg
  · rw [hsz]; exact hε
  · rw [hsz]; exact hin

/-- C94, `f64`, multicubic interpolation on a regular grid. -/
theorem C94_cubic_regular_f64 (e : Evaluator) (he : e.Fits N) (hN8 : N ≤ 8) (fma : Bool) (κ : ℚ)
    (hκ : 0 ≤ κ) (hN : 4200 * N * (1 + κ) ≤ 2 ^ 53)
    (dims : Fin N → Nat) (starts steps : Fin N → F64) (vals : List F64) (lin : Bool)
    (hG : (Axes.regular dims (fun k => val (starts k)) fun k => val (steps k)).Valid 4
      (vals.map val))
    (hfin : ∀ k, Finite (starts k) ∧ Finite (steps k)) (hnormal : ∀ k, 1 / 2 ^ 1022 ≤ val (steps k))
    (hnodes : ∀ k, |val (starts k)| ≤ κ * val (steps k) ∧
      |val (starts k) + val (steps k) * ((dims k - 1 : Nat) : ℚ)| ≤ κ * val (steps k))
    (hlarge : ∀ k, κ * val (steps k) ≤ 2 ^ 1020)
    (M : ℚ) (hM : M ≤ 2 ^ 1000) (hM1 : 1 / 2 ^ 1022 ≤ M)
    (hvals : ∀ v ∈ vals, Finite v ∧ |val v| ≤ M)
    (F : (Fin N → ℝ) → ℝ) (D : Fin N → ℝ) (ε : ℝ)
    (hF : ThirdDerivsOn dims (fun k i => val (starts k) + val (steps k) * (i : ℚ)) F D)
    (htab : TableOf dims (fun k i => val (starts k) + val (steps k) * (i : ℚ)) F ε vals)
    (x : Fin N → F64) (hx : ∀ k, Finite (x k))
    (hin : ∀ k, InRange (dims k) (fun i => val (starts k) + val (steps k) * (i : ℚ)) (val (x k))) :
    ∃ r, multicubicRegularAt e fma dims starts steps vals lin x = .ok r ∧ Finite r ∧
      |((val r : ℚ) : ℝ) - F fun k => ((val (x k) : ℚ) : ℝ)| ≤
        (5 / 4) ^ (N - 1) * ∑ k, 17 / 48 * (D k * ((val (steps k) : ℚ) : ℝ) ^ 3) +
          (5 / 4) ^ N * ε + 4200 * N * (1 + κ) * (1 / 2 ^ 53) * (5 / 4) ^ N * M := by
  obtain ⟨r, y, h1, h2, h3, h4⟩ := C82_regular_f64 e he hN8 fma κ hκ hN dims starts steps vals lin hG
    hfin hnormal hnodes hlarge M hM hM1 hvals x hx hin
  obtain ⟨g, hg, hε⟩ := htab.samples
  have hb := cubic_total e he fma _ _ lin hG F D (fun k => ((val (steps k) : ℚ) : ℝ)) hF
    (fun k i _ => by simp only [Axes.node]; push_cast; linarith) 1
    (fun k i _ => by simp only [Axes.node]; push_cast; constructor <;> linarith) ε g hg hε _ hin y h3
  have e1 : (1 + ((1 : ℚ) : ℝ) ^ 2 / (2 * (1 + ((1 : ℚ) : ℝ)))) = 5 / 4 := by norm_num
  have e2 : (1 + 9 * (((1 : ℚ) : ℝ) ^ 2 / (4 * (1 + ((1 : ℚ) : ℝ))))) / 6 = 17 / 48 := by norm_num
  rw [e1, e2] at hb
  exact ⟨r, h1, h2, (add_rounding h4 hb).trans_eq (by push_cast; ring)⟩

/-- C94, `f32`, multicubic interpolation on a regular grid. -/
theorem C94_cubic_regular_f32 (e : Evaluator) (he : e.Fits N) (hN8 : N ≤ 8) (fma : Bool) (κ : ℚ)
    (hκ : 0 ≤ κ) (hN : 4200 * N * (1 + κ) ≤ 2 ^ 24)
    (dims : Fin N → Nat) (starts steps : Fin N → F32) (vals : List F32) (lin : Bool)
    (hG : (Axes.regular dims (fun k => val (starts k)) fun k => val (steps k)).Valid 4
      (vals.map val))
    (hfin : ∀ k, Finite (starts k) ∧ Finite (steps k)) (hnormal : ∀ k, 1 / 2 ^ 126 ≤ val (steps k))
    (hnodes : ∀ k, |val (starts k)| ≤ κ * val (steps k) ∧
      |val (starts k) + val (steps k) * ((dims k - 1 : Nat) : ℚ)| ≤ κ * val (steps k))
    (hlarge : ∀ k, κ * val (steps k) ≤ 2 ^ 124)
    (M : ℚ) (hM : M ≤ 2 ^ 110) (hM1 : 1 / 2 ^ 126 ≤ M)
    (hvals : ∀ v ∈ vals, Finite v ∧ |val v| ≤ M)
    (F : (Fin N → ℝ) → ℝ) (D : Fin N → ℝ) (ε : ℝ)
    (hF : ThirdDerivsOn dims (fun k i => val (starts k) + val (steps k) * (i : ℚ)) F D)
    (htab : TableOf dims (fun k i => val (starts k) + val (steps k) * (i : ℚ)) F ε vals)
    (x : Fin N → F32) (hx : ∀ k, Finite (x k))
    (hin : ∀ k, InRange (dims k) (fun i => val (starts k) + val (steps k) * (i : ℚ)) (val (x k))) :
    ∃ r, multicubicRegularAt e fma dims starts steps vals lin x = .ok r ∧ Finite r ∧
      |((val r : ℚ) : ℝ) - F fun k => ((val (x k) : ℚ) : ℝ)| ≤
        (5 / 4) ^ (N - 1) * ∑ k, 17 / 48 * (D k * ((val (steps k) : ℚ) : ℝ) ^ 3) +
          (5 / 4) ^ N * ε + 4200 * N * (1 + κ) * (1 / 2 ^ 24) * (5 / 4) ^ N * M := by
  obtain ⟨r, y, h1, h2, h3, h4⟩ := C82_regular_f32 e he hN8 fma κ hκ hN dims starts steps vals lin hG
    hfin hnormal hnodes hlarge M hM hM1 hvals x hx hin
  obtain ⟨g, hg, hε⟩ := htab.samples
  have hb := cubic_total e he fma _ _ lin hG F D (fun k => ((val (steps k) : ℚ) : ℝ)) hF
    (fun k i _ => by simp only [Axes.node]; push_cast; linarith) 1
    (fun k i _ => by simp only [Axes.node]; push_cast; constructor <;> linarith) ε g hg hε _ hin y h3
  have e1 : (1 + ((1 : ℚ) : ℝ) ^ 2 / (2 * (1 + ((1 : ℚ) : ℝ)))) = 5 / 4 := by norm_num
  have e2 : (1 + 9 * (((1 : ℚ) : ℝ) ^ 2 / (4 * (1 + ((1 : ℚ) : ℝ))))) / 6 = 17 / 48 := by norm_num
  rw [e1, e2] at hb
  exact ⟨r, h1, h2, (add_rounding h4 hb).trans_eq (by push_cast; ring)⟩

end

/-! ### Concrete cases: a table of `y₀³ y₁` -/

section
variable {f : Format} {N : Nat}

theorem tableOf_of_check {dims : Fin N → Nat} {node : Fin N → Nat → ℚ} {F : (Fin N → ℝ) → ℝ}
    {Fq : (Fin N → ℚ) → ℚ} (hF : ∀ q : Fin N → ℚ, F (fun k => (q k : ℝ)) = (Fq q : ℝ)) {ε : ℚ}
    {vals : List (Ieee f)}
    (h : ∀ loc : (k : Fin N) → Fin (dims k), cIndex dims (fun k => (loc k).val) < vals.length ∧
      |val (vals.getD (cIndex dims fun k => (loc k).val) zero) -
        Fq fun k => node k (loc k).val| ≤ ε) : TableOf dims node F (ε : ℝ) vals := by
  intro loc hl
  obtain ⟨h1, h2⟩ := h fun k => ⟨loc k, hl k⟩
  refine ⟨_, List.getElem?_eq_getElem h1, ?_⟩
  rw [hF, ← List.getD_eq_getElem _ zero h1]
  exact_mod_cast h2

/-- The tabulated function. -/
def exCube (y : Fin 2 → ℝ) : ℝ := y 0 ^ 3 * y 1

theorem exCube_rat (q : Fin 2 → ℚ) : exCube (fun k => (q k : ℝ)) = ((q 0 ^ 3 * q 1 : ℚ) : ℝ) := by
  simp [exCube]

theorem exCube_deriv0 (y : Fin 2 → ℝ) (s : Set ℝ) (z : ℝ) :
    HasDerivWithinAt (fun z => exCube (Function.update y 0 z)) (3 * z ^ 2 * y 1) s z ∧
    HasDerivWithinAt (fun z => 3 * z ^ 2 * y 1) (6 * z * y 1) s z ∧
    HasDerivWithinAt (fun z => 6 * z * y 1) (6 * y 1) s z := by
  have e : (fun z => exCube (Function.update y 0 z)) = fun z => z ^ 3 * y 1 := by
    funext z; simp [exCube, Function.update]
  rw [e]
  refine ⟨?_, ?_, ?_⟩
  · exact (((hasDerivAt_pow 3 z).mul_const (y 1)).congr_deriv (by norm_num)).hasDerivWithinAt
  · exact ((((hasDerivAt_pow 2 z).const_mul 3).mul_const (y 1)).congr_deriv
      (by norm_num; left; ring)).hasDerivWithinAt
  · exact ((((hasDerivAt_id z).const_mul 6).mul_const (y 1)).congr_deriv (by ring)).hasDerivWithinAt

theorem exCube_deriv1 (y : Fin 2 → ℝ) (s : Set ℝ) (z : ℝ) :
    HasDerivWithinAt (fun z => exCube (Function.update y 1 z)) (y 0 ^ 3) s z ∧
    HasDerivWithinAt (fun _ : ℝ => y 0 ^ 3) 0 s z ∧ HasDerivWithinAt (fun _ : ℝ => (0 : ℝ)) 0 s z := by
  have e : (fun z => exCube (Function.update y 1 z)) = fun z => y 0 ^ 3 * z := by
    funext z; simp [exCube, Function.update]
  rw [e]
  exact ⟨(((hasDerivAt_id z).const_mul (y 0 ^ 3)).congr_deriv (by ring)).hasDerivWithinAt,
    hasDerivWithinAt_const _ _ _, hasDerivWithinAt_const _ _ _⟩

theorem exCube_second {dims : Fin 2 → Nat} {node : Fin 2 → Nat → ℚ} {a b : ℚ}
    (h : 0 ≤ node 0 0 ∧ node 0 (dims 0 - 1) ≤ a ∧ 0 ≤ node 1 0 ∧ node 1 (dims 1 - 1) ≤ b) :
    SecondDerivsOn dims node exCube ![6 * a * b, 0] := by
  intro k y hy
  have h0 : (0 : ℝ) ≤ node 0 0 := by exact_mod_cast h.1
  have ha : (node 0 (dims 0 - 1) : ℝ) ≤ a := by exact_mod_cast h.2.1
  have h1 : (0 : ℝ) ≤ node 1 0 := by exact_mod_cast h.2.2.1
  have hb : (node 1 (dims 1 - 1) : ℝ) ≤ b := by exact_mod_cast h.2.2.2
  fin_cases k
  · refine ⟨_, _, fun z hz => ⟨(exCube_deriv0 y _ z).1, (exCube_deriv0 y _ z).2.1, ?_⟩⟩
    have hy1 := hy 1
    have hz0 : 0 ≤ z := h0.trans hz.1
    have hza : z ≤ a := le_trans hz.2 ha
    have hy0 : 0 ≤ y 1 := h1.trans hy1.1
    have hyb : y 1 ≤ b := hy1.2.trans hb
    rw [abs_of_nonneg (by positivity)]
    show 6 * z * y 1 ≤ 6 * a * b
    have : (0 : ℝ) ≤ a := hz0.trans hza
    gcongr
  · exact ⟨_, _, fun z hz => ⟨(exCube_deriv1 y _ z).1, (exCube_deriv1 y _ z).2.1, by simp⟩⟩

theorem exCube_third {dims : Fin 2 → Nat} {node : Fin 2 → Nat → ℚ} {b : ℚ}
    (h : 0 ≤ node 1 0 ∧ node 1 (dims 1 - 1) ≤ b) :
    ThirdDerivsOn dims node exCube ![6 * b, 0] := by
  intro k y hy
  have h1 : (0 : ℝ) ≤ node 1 0 := by exact_mod_cast h.1
  have hb : (node 1 (dims 1 - 1) : ℝ) ≤ b := by exact_mod_cast h.2
  fin_cases k
  · refine ⟨_, _, _, fun z hz => ⟨(exCube_deriv0 y _ z).1, (exCube_deriv0 y _ z).2.1,
      (exCube_deriv0 y _ z).2.2, ?_⟩⟩
    have hy1 := hy 1
    have hy0 : 0 ≤ y 1 := h1.trans hy1.1
    have hyb : y 1 ≤ b := hy1.2.trans hb
    rw [abs_of_nonneg (by positivity)]
    show 6 * y 1 ≤ 6 * b
    gcongr
  · exact ⟨_, _, _, fun z hz => ⟨(exCube_deriv1 y _ z).1, (exCube_deriv1 y _ z).2.1,
      (exCube_deriv1 y _ z).2.2, by simp⟩⟩

end

/-- `f64` table of `exCube` on `exGrids64`; 0.1³ and 3·0.1³ are rounded. -/
def exTab64 : List F64 := [q64 0, q64 0, q64 (1 / 1000), q64 (3 / 1000), q64 64, q64 192]
/-- The same in `f32`. -/
def exTab32 : List F32 := [q32 0, q32 0, q32 (1 / 1000), q32 (3 / 1000), q32 64, q32 192]

/-- Hypotheses of `C94_linear_rectilinear_f64` are satisfied: the table is correct to `1 / 10 ^ 15`,
the method error is at most `72 / 8 * 3.91²`. -/
example : ∃ r, multilinearRectilinearAt .flat false exGrids64 exTab64 ![q64 (1 / 3), q64 (5 / 3)] =
      .ok r ∧ |((val r : ℚ) : ℝ) - exCube fun k => ((val (![q64 (1 / 3), q64 (5 / 3)] k) : ℚ) : ℝ)| ≤
        72 / 8 * (391 / 100) ^ 2 + 1 / 10 ^ 11 := by
  obtain ⟨r, h1, -, h2⟩ := C94_linear_rectilinear_f64 .flat (show 0 < 2 by decide) (by norm_num) false
    exGrids64 exTab64 (valid_of_check (by decide +kernel)) (by decide +kernel) 192 (by norm_num)
    (by decide +kernel) exCube ![6 * (4 : ℚ) * (3 : ℚ), 0] ![391 / 100, 2] ((1 / 10 ^ 15 : ℚ) : ℝ)
    (exCube_second (by decide +kernel))
    (fun k i hi => by
      have := (show ∀ k, ∀ i < (exGrids64 k).length, i + 1 < (exGrids64 k).length →
        ((exGrids64 k).map val).getD (i + 1) 0 - ((exGrids64 k).map val).getD i 0 ≤
          (![391 / 100, 2] : Fin 2 → ℚ) k by decide +kernel) k i (Nat.lt_of_succ_lt hi) hi
      have h' : ((((exGrids64 k).map val).getD (i + 1) 0 : ℚ) : ℝ) -
          (((exGrids64 k).map val).getD i 0 : ℚ) ≤ ((![391 / 100, 2] : Fin 2 → ℚ) k : ℝ) := by
        exact_mod_cast this
      refine h'.trans_eq ?_
      fin_cases k <;> norm_num)
    (tableOf_of_check (Fq := fun q => q 0 ^ 3 * q 1) exCube_rat (by decide +kernel))
    ![q64 (1 / 3), q64 (5 / 3)] (by decide +kernel) (by unfold InRange; decide +kernel)
  refine ⟨r, h1, h2.trans ?_⟩
  simp only [Fin.sum_univ_two, Matrix.cons_val_zero, Matrix.cons_val_one]
  norm_num

/-- Hypotheses of `C94_linear_rectilinear_f32` are satisfied: the table is correct to `1 / 10 ^ 7`,
the method error is at most `72 / 8 * 3.91²`. -/
example : ∃ r, multilinearRectilinearAt .flat false exGrids32 exTab32 ![q32 (1 / 3), q32 (5 / 3)] =
      .ok r ∧ |((val r : ℚ) : ℝ) - exCube fun k => ((val (![q32 (1 / 3), q32 (5 / 3)] k) : ℚ) : ℝ)| ≤
        72 / 8 * (391 / 100) ^ 2 + 1 / 10 ^ 2 := by
  obtain ⟨r, h1, -, h2⟩ := C94_linear_rectilinear_f32 .flat (show 0 < 2 by decide) (by norm_num) false
    exGrids32 exTab32 (valid_of_check (by decide +kernel)) (by decide +kernel) 192 (by norm_num)
    (by decide +kernel) exCube ![6 * (4 : ℚ) * (3 : ℚ), 0] ![391 / 100, 2] ((1 / 10 ^ 7 : ℚ) : ℝ)
    (exCube_second (by decide +kernel))
    (fun k i hi => by
      have := (show ∀ k, ∀ i < (exGrids32 k).length, i + 1 < (exGrids32 k).length →
        ((exGrids32 k).map val).getD (i + 1) 0 - ((exGrids32 k).map val).getD i 0 ≤
          (![391 / 100, 2] : Fin 2 → ℚ) k by decide +kernel) k i (Nat.lt_of_succ_lt hi) hi
      have h' : ((((exGrids32 k).map val).getD (i + 1) 0 : ℚ) : ℝ) -
          (((exGrids32 k).map val).getD i 0 : ℚ) ≤ ((![391 / 100, 2] : Fin 2 → ℚ) k : ℝ) := by
        exact_mod_cast this
      refine h'.trans_eq ?_
      fin_cases k <;> norm_num)
    (tableOf_of_check (Fq := fun q => q 0 ^ 3 * q 1) exCube_rat (by decide +kernel))
    ![q32 (1 / 3), q32 (5 / 3)] (by decide +kernel) (by unfold InRange; decide +kernel)
  refine ⟨r, h1, h2.trans ?_⟩
  simp only [Fin.sum_univ_two, Matrix.cons_val_zero, Matrix.cons_val_one]
  norm_num

/-- Table of `exCube` for 0.1, 0.2, 0.3 and 1, 3 in `f64`. -/
def exTabR64 : List F64 := ([1, 3, 8, 24, 27, 81] : List ℚ).map fun v => q64 (v / 1000)
/-- Table of `exCube` for 0.1, …, 0.4 and 0, …, 4 in `f64`. -/
def exTabC64 : List F64 := (List.range 4).flatMap fun i => (List.range 5).map fun j =>
  q64 ((i + 1) ^ 3 * j / 1000)
/-- Table of `exCube` on `exGrids64c`, exact. -/
def exTabG64 : List F64 := ([0, 1, 3, 4] : List ℚ).flatMap fun a => ([0, 1 / 2, 1, 2, 3] : List ℚ).map fun b =>
  q64 (a ^ 3 * b)

/-- Table of `exCube` for 0.1, 0.2, 0.3 and 1, 3 in `f32`. -/
def exTabR32 : List F32 := ([1, 3, 8, 24, 27, 81] : List ℚ).map fun v => q32 (v / 1000)
/-- Table of `exCube` for 0.1, …, 0.4 and 0, …, 4 in `f32`. -/
def exTabC32 : List F32 := (List.range 4).flatMap fun i => (List.range 5).map fun j =>
  q32 ((i + 1) ^ 3 * j / 1000)
/-- Table of `exCube` on `exGrids32c`, exact. -/
def exTabG32 : List F32 := ([0, 1, 3, 4] : List ℚ).flatMap fun a => ([0, 1 / 2, 1, 2, 3] : List ℚ).map fun b =>
  q32 (a ^ 3 * b)

/-- Hypotheses of `C94_linear_regular_f64` are satisfied, with nodes 0.1, 0.2, 0.3 on the first
axis. -/
example : ∃ r, multilinearRegularAt (.recursive 8) true ![3, 2] ![q64 (1 / 10), q64 1]
      ![q64 (1 / 10), q64 2] (exTabR64) ![q64 (2 / 7), q64 (5 / 3)] = .ok r ∧
    |((val r : ℚ) : ℝ) - exCube fun k => ((val (![q64 (2 / 7), q64 (5 / 3)] k) : ℚ) : ℝ)| ≤
      6 / 8 * (1001 / 10000) ^ 2 + 1 / 10 ^ 11 := by
  obtain ⟨r, h1, -, h2⟩ := C94_linear_regular_f64 (.recursive 8) (show 0 < 2 ∧ 2 ≤ 8 by decide) true 4
    (by norm_num) (by norm_num) ![3, 2] ![q64 (1 / 10), q64 1] ![q64 (1 / 10), q64 2] exTabR64
    (valid_of_check (by decide +kernel)) (by decide +kernel) (by decide +kernel) (by decide +kernel)
    (by decide +kernel) 1 (by norm_num) (by decide +kernel) exCube ![6 * (1 / 3 : ℚ) * (3 : ℚ), 0]
    ((1 / 10 ^ 15 : ℚ) : ℝ) (exCube_second (by decide +kernel))
    (tableOf_of_check (Fq := fun q => q 0 ^ 3 * q 1) exCube_rat (by decide +kernel))
    ![q64 (2 / 7), q64 (5 / 3)] (by decide +kernel) (by unfold InRange; decide +kernel)
  refine ⟨r, h1, h2.trans ?_⟩
  have h3 : val (q64 (1 / 10)) ^ 2 ≤ ((1001 / 10000 : ℚ)) ^ 2 := by decide +kernel
  have h4 : ((val (q64 (1 / 10)) : ℚ) : ℝ) ^ 2 ≤ ((1001 / 10000 : ℚ) : ℝ) ^ 2 := by exact_mod_cast h3
  simp only [Fin.sum_univ_two, Matrix.cons_val_zero, Matrix.cons_val_one]
  norm_num at h4 ⊢
  linarith

/-- Hypotheses of `C94_cubic_regular_f64` are satisfied, with nodes 0.1, …, 0.4 on the first axis. -/
example : ∃ r, multicubicRegularAt .flat true ![4, 5] ![q64 (1 / 10), q64 0]
      ![q64 (1 / 10), q64 1] exTabC64 false ![q64 (2 / 7), q64 (5 / 3)] = .ok r ∧
    |((val r : ℚ) : ℝ) - exCube fun k => ((val (![q64 (2 / 7), q64 (5 / 3)] k) : ℚ) : ℝ)| ≤
      5 / 4 * (17 / 48 * (24 * (1001 / 10000) ^ 3)) + 1 / 10 ^ 11 := by
  obtain ⟨r, h1, -, h2⟩ := C94_cubic_regular_f64 .flat (show 0 < 2 by decide) (by norm_num) true 5
    (by norm_num) (by norm_num) ![4, 5] ![q64 (1 / 10), q64 0] ![q64 (1 / 10), q64 1] exTabC64 false
    (valid_of_check (by decide +kernel)) (by decide +kernel) (by decide +kernel) (by decide +kernel)
    (by decide +kernel) 1 (by norm_num) (by norm_num) (by decide +kernel) exCube
    ![6 * (4 : ℚ), 0] ((1 / 10 ^ 15 : ℚ) : ℝ) (exCube_third (by decide +kernel))
    (tableOf_of_check (Fq := fun q => q 0 ^ 3 * q 1) exCube_rat (by decide +kernel))
    ![q64 (2 / 7), q64 (5 / 3)] (by decide +kernel) (by unfold InRange; decide +kernel)
  refine ⟨r, h1, h2.trans ?_⟩
  have h3 : val (q64 (1 / 10)) ^ 3 ≤ ((1001 / 10000 : ℚ)) ^ 3 := by decide +kernel
  have h4 : ((val (q64 (1 / 10)) : ℚ) : ℝ) ^ 3 ≤ ((1001 / 10000 : ℚ) : ℝ) ^ 3 := by exact_mod_cast h3
  simp only [Fin.sum_univ_two, Matrix.cons_val_zero, Matrix.cons_val_one]
  norm_num at h4 ⊢
  linarith

/-- Hypotheses of `C94_cubic_rectilinear_f64` are satisfied. -/
example : ∃ r, multicubicRectilinearAt .flat false exGrids64c exTabG64 true
      ![q64 (1 / 3), q64 (5 / 3)] = .ok r ∧
    |((val r : ℚ) : ℝ) - exCube fun k => ((val (![q64 (1 / 3), q64 (5 / 3)] k) : ℚ) : ℝ)| ≤
      5 / 3 * (4 / 6 * (18 * 2 ^ 3)) + 1 / 10 ^ 8 := by
  obtain ⟨r, h1, -, h2⟩ := C94_cubic_rectilinear_f64 .flat (show 0 < 2 by decide) (by norm_num) false
    exGrids64c exTabG64 true (valid_of_check (by decide +kernel)) (by decide +kernel) 192 (by norm_num)
    (by norm_num) (by decide +kernel) exCube ![6 * (3 : ℚ), 0] ![2, 1] ((0 : ℚ) : ℝ)
    (exCube_third (by decide +kernel))
    (fun k i hi => by
      have := (show ∀ k, ∀ i < (exGrids64c k).length, i + 1 < (exGrids64c k).length →
        ((exGrids64c k).map val).getD (i + 1) 0 - ((exGrids64c k).map val).getD i 0 ≤
          (![2, 1] : Fin 2 → ℚ) k by decide +kernel) k i (Nat.lt_of_succ_lt hi) hi
      have h' : ((((exGrids64c k).map val).getD (i + 1) 0 : ℚ) : ℝ) -
          (((exGrids64c k).map val).getD i 0 : ℚ) ≤ ((![2, 1] : Fin 2 → ℚ) k : ℝ) := by
        exact_mod_cast this
      refine h'.trans_eq ?_
      fin_cases k <;> norm_num)
    (tableOf_of_check (Fq := fun q => q 0 ^ 3 * q 1) exCube_rat (by decide +kernel))
    ![q64 (1 / 3), q64 (5 / 3)] (by decide +kernel) (by unfold InRange; decide +kernel) 2
    (by norm_num) (by norm_num)
    (fun k i hi => (show ∀ k, ∀ i < (exGrids64c k).length, i + 2 < (exGrids64c k).length →
      ((exGrids64c k).map val).getD (i + 1) 0 - ((exGrids64c k).map val).getD i 0 ≤
        2 * (((exGrids64c k).map val).getD (i + 2) 0 - ((exGrids64c k).map val).getD (i + 1) 0) ∧
      ((exGrids64c k).map val).getD (i + 2) 0 - ((exGrids64c k).map val).getD (i + 1) 0 ≤
        2 * (((exGrids64c k).map val).getD (i + 1) 0 - ((exGrids64c k).map val).getD i 0) by
      decide +kernel) k i (by omega) hi)
  refine ⟨r, h1, h2.trans ?_⟩
  simp only [Fin.sum_univ_two, Matrix.cons_val_zero, Matrix.cons_val_one]
  norm_num

/-- Hypotheses of `C94_linear_regular_f32` are satisfied, with nodes 0.1, 0.2, 0.3 on the first
axis. -/
example : ∃ r, multilinearRegularAt (.recursive 8) true ![3, 2] ![q32 (1 / 10), q32 1]
      ![q32 (1 / 10), q32 2] (exTabR32) ![q32 (2 / 7), q32 (5 / 3)] = .ok r ∧
    |((val r : ℚ) : ℝ) - exCube fun k => ((val (![q32 (2 / 7), q32 (5 / 3)] k) : ℚ) : ℝ)| ≤
      6 / 8 * (1001 / 10000) ^ 2 + 1 / 10 ^ 2 := by
  obtain ⟨r, h1, -, h2⟩ := C94_linear_regular_f32 (.recursive 8) (show 0 < 2 ∧ 2 ≤ 8 by decide) true 4
    (by norm_num) (by norm_num) ![3, 2] ![q32 (1 / 10), q32 1] ![q32 (1 / 10), q32 2] exTabR32
    (valid_of_check (by decide +kernel)) (by decide +kernel) (by decide +kernel) (by decide +kernel)
    (by decide +kernel) 1 (by norm_num) (by decide +kernel) exCube ![6 * (1 / 3 : ℚ) * (3 : ℚ), 0]
    ((1 / 10 ^ 7 : ℚ) : ℝ) (exCube_second (by decide +kernel))
    (tableOf_of_check (Fq := fun q => q 0 ^ 3 * q 1) exCube_rat (by decide +kernel))
    ![q32 (2 / 7), q32 (5 / 3)] (by decide +kernel) (by unfold InRange; decide +kernel)
  refine ⟨r, h1, h2.trans ?_⟩
  have h3 : val (q32 (1 / 10)) ^ 2 ≤ ((1001 / 10000 : ℚ)) ^ 2 := by decide +kernel
  have h4 : ((val (q32 (1 / 10)) : ℚ) : ℝ) ^ 2 ≤ ((1001 / 10000 : ℚ) : ℝ) ^ 2 := by exact_mod_cast h3
  simp only [Fin.sum_univ_two, Matrix.cons_val_zero, Matrix.cons_val_one]
  norm_num at h4 ⊢
  linarith

/-- Hypotheses of `C94_cubic_regular_f32` are satisfied, with nodes 0.1, …, 0.4 on the first axis. -/
example : ∃ r, multicubicRegularAt .flat true ![4, 5] ![q32 (1 / 10), q32 0]
      ![q32 (1 / 10), q32 1] exTabC32 false ![q32 (2 / 7), q32 (5 / 3)] = .ok r ∧
    |((val r : ℚ) : ℝ) - exCube fun k => ((val (![q32 (2 / 7), q32 (5 / 3)] k) : ℚ) : ℝ)| ≤
      5 / 4 * (17 / 48 * (24 * (1001 / 10000) ^ 3)) + 1 / 10 ^ 2 := by
  obtain ⟨r, h1, -, h2⟩ := C94_cubic_regular_f32 .flat (show 0 < 2 by decide) (by norm_num) true 5
    (by norm_num) (by norm_num) ![4, 5] ![q32 (1 / 10), q32 0] ![q32 (1 / 10), q32 1] exTabC32 false
    (valid_of_check (by decide +kernel)) (by decide +kernel) (by decide +kernel) (by decide +kernel)
    (by decide +kernel) 1 (by norm_num) (by norm_num) (by decide +kernel) exCube
    ![6 * (4 : ℚ), 0] ((1 / 10 ^ 7 : ℚ) : ℝ) (exCube_third (by decide +kernel))
    (tableOf_of_check (Fq := fun q => q 0 ^ 3 * q 1) exCube_rat (by decide +kernel))
    ![q32 (2 / 7), q32 (5 / 3)] (by decide +kernel) (by unfold InRange; decide +kernel)
  refine ⟨r, h1, h2.trans ?_⟩
  have h3 : val (q32 (1 / 10)) ^ 3 ≤ ((1001 / 10000 : ℚ)) ^ 3 := by decide +kernel
  have h4 : ((val (q32 (1 / 10)) : ℚ) : ℝ) ^ 3 ≤ ((1001 / 10000 : ℚ) : ℝ) ^ 3 := by exact_mod_cast h3
  simp only [Fin.sum_univ_two, Matrix.cons_val_zero, Matrix.cons_val_one]
  norm_num at h4 ⊢
  linarith

/-- Hypotheses of `C94_cubic_rectilinear_f32` are satisfied. -/
example : ∃ r, multicubicRectilinearAt .flat false exGrids32c exTabG32 true
      ![q32 (1 / 3), q32 (5 / 3)] = .ok r ∧
    |((val r : ℚ) : ℝ) - exCube fun k => ((val (![q32 (1 / 3), q32 (5 / 3)] k) : ℚ) : ℝ)| ≤
      5 / 3 * (4 / 6 * (18 * 2 ^ 3)) + 2 := by
  obtain ⟨r, h1, -, h2⟩ := C94_cubic_rectilinear_f32 .flat (show 0 < 2 by decide) (by norm_num) false
    exGrids32c exTabG32 true (valid_of_check (by decide +kernel)) (by decide +kernel) 192 (by norm_num)
    (by norm_num) (by decide +kernel) exCube ![6 * (3 : ℚ), 0] ![2, 1] ((0 : ℚ) : ℝ)
    (exCube_third (by decide +kernel))
    (fun k i hi => by
      have := (show ∀ k, ∀ i < (exGrids32c k).length, i + 1 < (exGrids32c k).length →
        ((exGrids32c k).map val).getD (i + 1) 0 - ((exGrids32c k).map val).getD i 0 ≤
          (![2, 1] : Fin 2 → ℚ) k by decide +kernel) k i (Nat.lt_of_succ_lt hi) hi
      have h' : ((((exGrids32c k).map val).getD (i + 1) 0 : ℚ) : ℝ) -
          (((exGrids32c k).map val).getD i 0 : ℚ) ≤ ((![2, 1] : Fin 2 → ℚ) k : ℝ) := by
        exact_mod_cast this
      refine h'.trans_eq ?_
      fin_cases k <;> norm_num)
    (tableOf_of_check (Fq := fun q => q 0 ^ 3 * q 1) exCube_rat (by decide +kernel))
    ![q32 (1 / 3), q32 (5 / 3)] (by decide +kernel) (by unfold InRange; decide +kernel) 2
    (by norm_num) (by norm_num)
    (fun k i hi => (show ∀ k, ∀ i < (exGrids32c k).length, i + 2 < (exGrids32c k).length →
      ((exGrids32c k).map val).getD (i + 1) 0 - ((exGrids32c k).map val).getD i 0 ≤
        2 * (((exGrids32c k).map val).getD (i + 2) 0 - ((exGrids32c k).map val).getD (i + 1) 0) ∧
      ((exGrids32c k).map val).getD (i + 2) 0 - ((exGrids32c k).map val).getD (i + 1) 0 ≤
        2 * (((exGrids32c k).map val).getD (i + 1) 0 - ((exGrids32c k).map val).getD i 0) by
      decide +kernel) k i (by omega) hi)
  refine ⟨r, h1, h2.trans ?_⟩
  simp only [Fin.sum_univ_two, Matrix.cons_val_zero, Matrix.cons_val_one]
  norm_num

end Interpn
