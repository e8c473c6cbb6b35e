import Verif.Props.ConvergenceFloat
import Verif.Props.DetectCubic
import Verif.Props.DetectNearest

/-! C140: total error of tabulating a function and calling the Python function `interpn`, detection of
regular grids included. -/

set_option autoImplicit false
set_option linter.unusedSectionVars false
set_option exponentiation.threshold 1100

namespace Interpn
open FloatOps Ieee

section
variable {N : Nat}

/-- A node that is nearest up to less than half of the largest cell is not further than that. -/
theorem within_near {n c i : Nat} {p : Nat → ℚ} {x t : ℚ} {d : ℝ} (hc : InCell n p x c)
    (hin : InRange n p x) (hw : (p (c + 1) : ℝ) - p c ≤ d) (ht : (t : ℝ) ≤ d / 2)
    (h : NearestWithin n p x t i) : |(p i : ℝ) - x| ≤ d := by
  obtain ⟨ha, hb⟩ := inRange_of_inCell hc hin
  have h1 := h.2 c (by have := hc.1; omega)
  have h2 := h.2 (c + 1) hc.1
  rw [abs_of_nonneg (a := x - p c) (by linarith)] at h1
  rw [abs_of_nonpos (a := x - p (c + 1)) (by linarith)] at h2
  have h3 : |p i - x| ≤ (p (c + 1) - p c) / 2 + t := by rw [abs_sub_comm]; linarith
  have h4 : |(p i : ℝ) - x| ≤ ((p (c + 1) : ℝ) - p c) / 2 + t := by exact_mod_cast h3
  linarith

/-- C140, `float64`, "linear": every entry of the array that `interpn` returns differs from the value of
the tabulated function at its observation by at most `∑ D k / 8 * h k ^ 2` if the function has second
derivatives, and by at most its change over a cell in any case, plus the error `ε` of the table, plus
rounding errors. -/
theorem C140_linear_f64 (fma lin : Bool) (atol : F64) (h1 : 1 ≤ N) (h8 : N ≤ 8)
    (κ : ℚ) (hκ : 0 ≤ κ) (hN : 110 * N * (1 + κ) ≤ 2 ^ 53)
    (grids : Fin N → List F64) (vals : List F64)
    (hG : (Axes.rectilinear fun k => (grids k).map val).Valid 2 (vals.map val))
    (hgrid : ∀ k, ∀ a ∈ grids k, Finite a ∧
      |val a| ≤ κ * (((grids k).map val).getD 1 0 - ((grids k).map val).getD 0 0))
    (hnormal : ∀ k, 1 / 2 ^ 1021 ≤ ((grids k).map val).getD 1 0 - ((grids k).map val).getD 0 0)
    (hlarge : ∀ k, κ * (((grids k).map val).getD 1 0 - ((grids k).map val).getD 0 0) ≤ 2 ^ 1020)
    (M : ℚ) (hM : M ≤ 2 ^ 1020) (hvals : ∀ v ∈ vals, Finite v ∧ |val v| ≤ M)
    (F : (Fin N → ℝ) → ℝ) (h : Fin N → ℝ) (ε : ℝ)
    (hh : CellsAtMost (fun k => (grids k).length) (fun k i => ((grids k).map val).getD i 0) h)
    (htab : TableOf (fun k => (grids k).length) (fun k i => ((grids k).map val).getD i 0) F ε vals)
    (obs : Fin N → List F64) (m : Nat)
    (hobs : ∀ k, (obs k).length = m ∧ ∀ a ∈ obs k, Finite a ∧
      InRange (grids k).length (fun i => ((grids k).map val).getD i 0) (val a)) :
    ∃ reg res, pyInterpn fma .float64 (List.ofFn obs) (List.ofFn grids) vals "linear" none lin false
        false atol = .ok (⟨"linear", reg, .float64⟩, res) ∧ res.length = m ∧
      ∀ i pt, PointAt obs i pt → ∃ r, res[i]? = some r ∧ Finite r ∧
        (∀ D, SecondDerivsOn (fun k => (grids k).length) (fun k i => ((grids k).map val).getD i 0)
            F D → |((val r : ℚ) : ℝ) - F fun k => ((val (pt k) : ℚ) : ℝ)| ≤
          ∑ k, D k / 8 * h k ^ 2 + ε + (110 * N * (1 + κ) * (1 / 2 ^ 53) * M + 3 * N * (1 / 2 ^ 1075))) ∧
        ∀ ω, VariesAtMost (fun k => (grids k).length) (fun k i => ((grids k).map val).getD i 0)
            F h ω → |((val r : ℚ) : ℝ) - F fun k => ((val (pt k) : ℚ) : ℝ)| ≤
          ω + ε + (110 * N * (1 + κ) * (1 / 2 ^ 53) * M + 3 * N * (1 / 2 ^ 1075)) := by
  obtain ⟨reg, res, a1, -, a3, a4⟩ := C92_interpn_f64 fma lin atol h1 h8 κ hκ hN grids vals hG hgrid
    hnormal hlarge M hM hvals obs m hobs
  obtain ⟨g, hg, hε⟩ := htab.samples
  have hsz : (Axes.rectilinear fun k => (grids k).map val : Axes ℚ N).size =
      fun k => (grids k).length := funext fun k => by simp [Axes.size]
  refine ⟨reg, res, a1, a3, fun i pt hpt => ?_⟩
  obtain ⟨r, y, b1, b2, b3, b4⟩ := a4 i pt hpt
  have hin : ∀ k, InRange (grids k).length (fun i => ((grids k).map val).getD i 0) (val (pt k)) :=
    fun k => ((hobs k).2 _ (List.mem_of_getElem? (hpt k))).2
  have he : Evaluator.flat.Fits N := show 0 < N by omega
  refine ⟨r, b1, b2, fun D hD => (add_rounding b4 (linear_total .flat he false _ _ hG F D h ?_ ?_ ε g
    ?_ ?_ _ ?_ y b3)).trans_eq (by push_cast; ring), fun ω hω => (add_rounding b4 (linear_modulus .flat
    he false _ _ hG F h ω ε ?_ ?_ g ?_ ?_ _ ?_ y b3)).trans_eq (by push_cast; ring)⟩
  · rw [hsz]; exact hD
  · rw [hsz]; exact hh
  · rw [hsz]; exact hg
  · rw [hsz]; exact hε
  · rw [hsz]; exact hin
  · rw [hsz]; exact hω
  · rw [hsz]; exact hh
  · rw [hsz]; exact hg
  · rw [hsz]; exact hε
  · rw [hsz]; exact hin

/-- C140, `float64`, "cubic"; the change of the function is that over two cells. -/
theorem C140_cubic_f64 (fma lin : Bool) (atol : F64) (h1 : 1 ≤ N) (h8 : N ≤ 8)
    (κ : ℚ) (hκ : 0 ≤ κ) (ρ : ℚ) (hρ : 1 ≤ ρ) (hN : 4700 * N * ρ * (1 + κ) ≤ 2 ^ 53)
    (grids : Fin N → List F64) (vals : List F64)
    (hG : (Axes.rectilinear fun k => (grids k).map val).Valid 4 (vals.map val))
    (hgrid : ∀ k, ∀ a ∈ grids k, Finite a ∧
      |val a| ≤ κ * (((grids k).map val).getD 1 0 - ((grids k).map val).getD 0 0))
    (hnormal : ∀ k, 1 / 2 ^ 1021 ≤ ((grids k).map val).getD 1 0 - ((grids k).map val).getD 0 0)
    (hlarge : ∀ k, κ * (((grids k).map val).getD 1 0 - ((grids k).map val).getD 0 0) ≤ 2 ^ 1020)
    (hmesh : ∀ k, MeshRatio (grids k).length (fun i => ((grids k).map val).getD i 0) ρ)
    (M : ℚ) (hM : M ≤ 2 ^ 600) (hM1 : 1 / 2 ^ 1022 ≤ M)
    (hvals : ∀ v ∈ vals, Finite v ∧ |val v| ≤ M)
    (F : (Fin N → ℝ) → ℝ) (h : Fin N → ℝ) (ε : ℝ)
    (hh : CellsAtMost (fun k => (grids k).length) (fun k i => ((grids k).map val).getD i 0) h)
    (htab : TableOf (fun k => (grids k).length) (fun k i => ((grids k).map val).getD i 0) F ε vals)
    (obs : Fin N → List F64) (m : Nat)
    (hobs : ∀ k, (obs k).length = m ∧ ∀ a ∈ obs k, Finite a ∧
      InRange (grids k).length (fun i => ((grids k).map val).getD i 0) (val a)) :
    ∃ reg res, pyInterpn fma .float64 (List.ofFn obs) (List.ofFn grids) vals "cubic" none lin false
        false atol = .ok (⟨"cubic", reg, .float64⟩, res) ∧ res.length = m ∧
      ∀ i pt, PointAt obs i pt → ∃ r, res[i]? = some r ∧ Finite r ∧
        (∀ D, ThirdDerivsOn (fun k => (grids k).length) (fun k i => ((grids k).map val).getD i 0)
            F D → |((val r : ℚ) : ℝ) - F fun k => ((val (pt k) : ℚ) : ℝ)| ≤
          (1 + (ρ : ℝ) ^ 2 / (2 * (1 + ρ))) ^ (N - 1) *
            ∑ k, (1 + 9 * ((ρ : ℝ) ^ 2 / (4 * (1 + ρ)))) / 6 * (D k * h k ^ 3) +
          (1 + (ρ : ℝ) ^ 2 / (2 * (1 + ρ))) ^ N * ε +
          4700 * N * ρ * (1 + κ) * (1 / 2 ^ 53) * (1 + (ρ : ℝ) ^ 2 / (2 * (1 + ρ))) ^ N * M) ∧
        ∀ ω, VariesAtMost (fun k => (grids k).length) (fun k i => ((grids k).map val).getD i 0)
            F (fun k => 2 * h k) ω →
          |((val r : ℚ) : ℝ) - F fun k => ((val (pt k) : ℚ) : ℝ)| ≤
          (1 + (ρ : ℝ) ^ 2 / (2 * (1 + ρ))) ^ N * (ω + ε) +
          4700 * N * ρ * (1 + κ) * (1 / 2 ^ 53) * (1 + (ρ : ℝ) ^ 2 / (2 * (1 + ρ))) ^ N * M := by
  obtain ⟨reg, res, a1, -, a3, a4⟩ := C98_interpn_cubic_f64 fma lin atol h1 h8 κ hκ ρ hρ hN grids vals hG
    hgrid hnormal hlarge hmesh M hM hM1 hvals obs m hobs
  obtain ⟨g, hg, hε⟩ := htab.samples
  have hsz : (Axes.rectilinear fun k => (grids k).map val : Axes ℚ N).size =
      fun k => (grids k).length := funext fun k => by simp [Axes.size]
  refine ⟨reg, res, a1, a3, fun i pt hpt => ?_⟩
  obtain ⟨r, y, b1, b2, b3, b4⟩ := a4 i pt hpt
  have hin : ∀ k, InRange (grids k).length (fun i => ((grids k).map val).getD i 0) (val (pt k)) :=
    fun k => ((hobs k).2 _ (List.mem_of_getElem? (hpt k))).2
  have he : Evaluator.flat.Fits N := show 0 < N by omega
  refine ⟨r, b1, b2, fun D hD => (add_rounding b4 (cubic_total .flat he false _ _ lin hG F D h ?_ ?_ ρ ?_ ε
    g ?_ ?_ _ ?_ y b3)).trans_eq (by push_cast; ring), fun ω hω => (add_rounding b4 (cubic_modulus .flat
    he false _ _ lin hG F h ω ε ?_ ?_ ρ ?_ g ?_ ?_ _ ?_ y b3)).trans_eq (by push_cast; ring)⟩
  · rw [hsz]; exact hD
  · rw [hsz]; exact hh
  · rw [hsz]; exact hmesh
  · rw [hsz]; exact hg
  · rw [hsz]; exact hε
  · rw [hsz]; exact hin
  · rw [hsz]; exact hω
  · rw [hsz]; exact hh
  · rw [hsz]; exact hmesh
  · rw [hsz]; exact hg
  · rw [hsz]; exact hε
  · rw [hsz]; exact hin

/-- C140, `float64`, "nearest": the error is at most the change of the function over a cell plus the
error of the table; rounding adds nothing. -/
theorem C140_nearest_f64 (fma lin : Bool) (atol : F64) (h1 : 1 ≤ N) (h6 : N ≤ 6)
    (κ : ℚ) (hκ : 0 ≤ κ) (hN : 110 * (1 + κ) ≤ 2 ^ 53)
    (grids : Fin N → List F64) (vals : List F64)
    (hG : (Axes.rectilinear fun k => (grids k).map val).Valid 2 (vals.map val))
    (hgrid : ∀ k, ∀ a ∈ grids k, Finite a ∧
      |val a| ≤ κ * (((grids k).map val).getD 1 0 - ((grids k).map val).getD 0 0))
    (hnormal : ∀ k, 1 / 2 ^ 1021 ≤ ((grids k).map val).getD 1 0 - ((grids k).map val).getD 0 0)
    (hlarge : ∀ k, κ * (((grids k).map val).getD 1 0 - ((grids k).map val).getD 0 0) ≤ 2 ^ 1020)
    (hvals : ∀ v ∈ vals, Finite v)
    (F : (Fin N → ℝ) → ℝ) (h : Fin N → ℝ) (ε : ℝ)
    (hh : CellsAtMost (fun k => (grids k).length) (fun k i => ((grids k).map val).getD i 0) h)
    (htab : TableOf (fun k => (grids k).length) (fun k i => ((grids k).map val).getD i 0) F ε vals)
    (obs : Fin N → List F64) (m : Nat)
    (hobs : ∀ k, (obs k).length = m ∧ ∀ a ∈ obs k, Finite a ∧
      InRange (grids k).length (fun i => ((grids k).map val).getD i 0) (val a)) :
    ∃ reg res, pyInterpn fma .float64 (List.ofFn obs) (List.ofFn grids) vals "nearest" none lin false
        false atol = .ok (⟨"nearest", reg, .float64⟩, res) ∧ res.length = m ∧
      ∀ i pt, PointAt obs i pt → ∃ r ∈ vals, res[i]? = some r ∧ Finite r ∧
        ∀ ω, VariesAtMost (fun k => (grids k).length) (fun k i => ((grids k).map val).getD i 0)
            F h ω → |((val r : ℚ) : ℝ) - F fun k => ((val (pt k) : ℚ) : ℝ)| ≤ ω + ε := by
  have hsz : (Axes.rectilinear fun k => (grids k).map val : Axes ℚ N).size =
      fun k => (grids k).length := funext fun k => by simp [Axes.size]
  have hlen : vals.length = ∏ k, (grids k).length := by
    have := hG.len
    rw [hsz] at this
    simpa using this
  have hs := samples_valAt (.nan : F64) (fun k => (grids k).length) vals hlen
  obtain ⟨reg, res, a1, -, a3, a4⟩ := C95_interpn_nearest_f64 fma lin atol h1 h6 κ hκ hN grids vals hG
    hgrid hnormal hlarge _ hs obs m hobs
  refine ⟨reg, res, a1, a3, fun i pt hpt => ?_⟩
  obtain ⟨loc, b1, b2⟩ := a4 i pt hpt
  have hin : ∀ k, InRange (grids k).length (fun i => ((grids k).map val).getD i 0) (val (pt k)) :=
    fun k => ((hobs k).2 _ (List.mem_of_getElem? (hpt k))).2
  have hlt : ∀ k, loc k < (grids k).length := fun k => (b2 k).1
  have hget := hs loc hlt
  obtain ⟨v, hv1, hv2⟩ := htab loc hlt
  rw [hget] at hv1
  cases hv1
  refine ⟨_, List.mem_of_getElem? hget, b1, hvals _ (List.mem_of_getElem? hget), fun ω hω =>
    near_node hG (by rw [hsz]; exact hω) (by rw [hsz]; exact hin) (loc := loc) (by rw [hsz]; exact hlt)
      (fun k => ?_) hv2⟩
  obtain ⟨c, hc⟩ := hG.cells le_rfl fun k => val (pt k)
  rw [hsz] at hc
  refine within_near (hc k) (hin k) (hh k _ (hc k).1) ?_ (b2 k)
  have h2 : 2 ≤ (grids k).length := by have := hG.big k; rwa [hsz] at this
  have hw := hh k 0 h2
  have hk : 20 * (1 + κ) * (1 / 2 ^ 53) ≤ 1 / 2 := by
    rw [mul_one_div, div_le_iff₀ (by norm_num)]; linarith
  have hd : (0 : ℚ) ≤ (((grids k).map val).getD 1 0 - ((grids k).map val).getD 0 0) :=
    le_trans (by norm_num) (hnormal k)
  have h3 := mul_le_mul_of_nonneg_right hk hd
  have h4 : ((20 * (1 + κ) * (1 / 2 ^ 53) * (((grids k).map val).getD 1 0 - ((grids k).map val).getD 0 0) : ℚ) : ℝ) ≤
      ((1 / 2 * (((grids k).map val).getD 1 0 - ((grids k).map val).getD 0 0) : ℚ) : ℝ) := by
    exact_mod_cast h3
  refine h4.trans ?_
  push_cast at hw ⊢
  linarith

/-- C140, `float32`, "linear": every entry of the array that `interpn` returns differs from the value of
the tabulated function at its observation by at most `∑ D k / 8 * h k ^ 2` if the function has second
derivatives, and by at most its change over a cell in any case, plus the error `ε` of the table, plus
rounding errors. -/
theorem C140_linear_f32 (fma lin : Bool) (atol : F32) (h1 : 1 ≤ N) (h8 : N ≤ 8)
    (κ : ℚ) (hκ : 0 ≤ κ) (hN : 110 * N * (1 + κ) ≤ 2 ^ 24)
    (grids : Fin N → List F32) (vals : List F32)
    (hG : (Axes.rectilinear fun k => (grids k).map val).Valid 2 (vals.map val))
    (hgrid : ∀ k, ∀ a ∈ grids k, Finite a ∧
      |val a| ≤ κ * (((grids k).map val).getD 1 0 - ((grids k).map val).getD 0 0))
    (hnormal : ∀ k, 1 / 2 ^ 125 ≤ ((grids k).map val).getD 1 0 - ((grids k).map val).getD 0 0)
    (hlarge : ∀ k, κ * (((grids k).map val).getD 1 0 - ((grids k).map val).getD 0 0) ≤ 2 ^ 124)
    (M : ℚ) (hM : M ≤ 2 ^ 124) (hvals : ∀ v ∈ vals, Finite v ∧ |val v| ≤ M)
    (F : (Fin N → ℝ) → ℝ) (h : Fin N → ℝ) (ε : ℝ)
    (hh : CellsAtMost (fun k => (grids k).length) (fun k i => ((grids k).map val).getD i 0) h)
    (htab : TableOf (fun k => (grids k).length) (fun k i => ((grids k).map val).getD i 0) F ε vals)
    (obs : Fin N → List F32) (m : Nat)
    (hobs : ∀ k, (obs k).length = m ∧ ∀ a ∈ obs k, Finite a ∧
      InRange (grids k).length (fun i => ((grids k).map val).getD i 0) (val a)) :
    ∃ reg res, pyInterpn fma .float32 (List.ofFn obs) (List.ofFn grids) vals "linear" none lin false
        false atol = .ok (⟨"linear", reg, .float32⟩, res) ∧ res.length = m ∧
      ∀ i pt, PointAt obs i pt → ∃ r, res[i]? = some r ∧ Finite r ∧
        (∀ D, SecondDerivsOn (fun k => (grids k).length) (fun k i => ((grids k).map val).getD i 0)
            F D → |((val r : ℚ) : ℝ) - F fun k => ((val (pt k) : ℚ) : ℝ)| ≤
          ∑ k, D k / 8 * h k ^ 2 + ε + (110 * N * (1 + κ) * (1 / 2 ^ 24) * M + 3 * N * (1 / 2 ^ 150))) ∧
        ∀ ω, VariesAtMost (fun k => (grids k).length) (fun k i => ((grids k).map val).getD i 0)
            F h ω → |((val r : ℚ) : ℝ) - F fun k => ((val (pt k) : ℚ) : ℝ)| ≤
          ω + ε + (110 * N * (1 + κ) * (1 / 2 ^ 24) * M + 3 * N * (1 / 2 ^ 150)) := by
  obtain ⟨reg, res, a1, -, a3, a4⟩ := C92_interpn_f32 fma lin atol h1 h8 κ hκ hN grids vals hG hgrid
    hnormal hlarge M hM hvals obs m hobs
  obtain ⟨g, hg, hε⟩ := htab.samples
  have hsz : (Axes.rectilinear fun k => (grids k).map val : Axes ℚ N).size =
      fun k => (grids k).length := funext fun k => by simp [Axes.size]
  refine ⟨reg, res, a1, a3, fun i pt hpt => ?_⟩
  obtain ⟨r, y, b1, b2, b3, b4⟩ := a4 i pt hpt
  have hin : ∀ k, InRange (grids k).length (fun i => ((grids k).map val).getD i 0) (val (pt k)) :=
    fun k => ((hobs k).2 _ (List.mem_of_getElem? (hpt k))).2
  have he : Evaluator.flat.Fits N := show 0 < N by omega
  refine ⟨r, b1, b2, fun D hD => (add_rounding b4 (linear_total .flat he false _ _ hG F D h ?_ ?_ ε g
    ?_ ?_ _ ?_ y b3)).trans_eq (by push_cast; ring), fun ω hω => (add_rounding b4 (linear_modulus .flat
    he false _ _ hG F h ω ε ?_ ?_ g ?_ ?_ _ ?_ y b3)).trans_eq (by push_cast; ring)⟩
  · rw [hsz]; exact hD
  · rw [hsz]; exact hh
  · rw [hsz]; exact hg
  · rw [hsz]; exact hε
  · rw [hsz]; exact hin
  · rw [hsz]; exact hω
  · rw [hsz]; exact hh
  · rw [hsz]; exact hg
  · rw [hsz]; exact hε
  · rw [hsz]; exact hin

/-- C140, `float32`, "cubic"; the change of the function is that over two cells. -/
theorem C140_cubic_f32 (fma lin : Bool) (atol : F32) (h1 : 1 ≤ N) (h8 : N ≤ 8)
    (κ : ℚ) (hκ : 0 ≤ κ) (ρ : ℚ) (hρ : 1 ≤ ρ) (hN : 4700 * N * ρ * (1 + κ) ≤ 2 ^ 24)
    (grids : Fin N → List F32) (vals : List F32)
    (hG : (Axes.rectilinear fun k => (grids k).map val).Valid 4 (vals.map val))
    (hgrid : ∀ k, ∀ a ∈ grids k, Finite a ∧
      |val a| ≤ κ * (((grids k).map val).getD 1 0 - ((grids k).map val).getD 0 0))
    (hnormal : ∀ k, 1 / 2 ^ 125 ≤ ((grids k).map val).getD 1 0 - ((grids k).map val).getD 0 0)
    (hlarge : ∀ k, κ * (((grids k).map val).getD 1 0 - ((grids k).map val).getD 0 0) ≤ 2 ^ 124)
    (hmesh : ∀ k, MeshRatio (grids k).length (fun i => ((grids k).map val).getD i 0) ρ)
    (M : ℚ) (hM : M ≤ 2 ^ 20) (hM1 : 1 / 2 ^ 126 ≤ M)
    (hvals : ∀ v ∈ vals, Finite v ∧ |val v| ≤ M)
    (F : (Fin N → ℝ) → ℝ) (h : Fin N → ℝ) (ε : ℝ)
    (hh : CellsAtMost (fun k => (grids k).length) (fun k i => ((grids k).map val).getD i 0) h)
    (htab : TableOf (fun k => (grids k).length) (fun k i => ((grids k).map val).getD i 0) F ε vals)
    (obs : Fin N → List F32) (m : Nat)
    (hobs : ∀ k, (obs k).length = m ∧ ∀ a ∈ obs k, Finite a ∧
      InRange (grids k).length (fun i => ((grids k).map val).getD i 0) (val a)) :
    ∃ reg res, pyInterpn fma .float32 (List.ofFn obs) (List.ofFn grids) vals "cubic" none lin false
        false atol = .ok (⟨"cubic", reg, .float32⟩, res) ∧ res.length = m ∧
      ∀ i pt, PointAt obs i pt → ∃ r, res[i]? = some r ∧ Finite r ∧
        (∀ D, ThirdDerivsOn (fun k => (grids k).length) (fun k i => ((grids k).map val).getD i 0)
            F D → |((val r : ℚ) : ℝ) - F fun k => ((val (pt k) : ℚ) : ℝ)| ≤
          (1 + (ρ : ℝ) ^ 2 / (2 * (1 + ρ))) ^ (N - 1) *
            ∑ k, (1 + 9 * ((ρ : ℝ) ^ 2 / (4 * (1 + ρ)))) / 6 * (D k * h k ^ 3) +
          (1 + (ρ : ℝ) ^ 2 / (2 * (1 + ρ))) ^ N * ε +
          4700 * N * ρ * (1 + κ) * (1 / 2 ^ 24) * (1 + (ρ : ℝ) ^ 2 / (2 * (1 + ρ))) ^ N * M) ∧
        ∀ ω, VariesAtMost (fun k => (grids k).length) (fun k i => ((grids k).map val).getD i 0)
            F (fun k => 2 * h k) ω →
          |((val r : ℚ) : ℝ) - F fun k => ((val (pt k) : ℚ) : ℝ)| ≤
          (1 + (ρ : ℝ) ^ 2 / (2 * (1 + ρ))) ^ N * (ω + ε) +
          4700 * N * ρ * (1 + κ) * (1 / 2 ^ 24) * (1 + (ρ : ℝ) ^ 2 / (2 * (1 + ρ))) ^ N * M := by
  obtain ⟨reg, res, a1, -, a3, a4⟩ := C98_interpn_cubic_f32 fma lin atol h1 h8 κ hκ ρ hρ hN grids vals hG
    hgrid hnormal hlarge hmesh M hM hM1 hvals obs m hobs
  obtain ⟨g, hg, hε⟩ := htab.samples
  have hsz : (Axes.rectilinear fun k => (grids k).map val : Axes ℚ N).size =
      fun k => (grids k).length := funext fun k => by simp [Axes.size]
  refine ⟨reg, res, a1, a3, fun i pt hpt => ?_⟩
  obtain ⟨r, y, b1, b2, b3, b4⟩ := a4 i pt hpt
  have hin : ∀ k, InRange (grids k).length (fun i => ((grids k).map val).getD i 0) (val (pt k)) :=
    fun k => ((hobs k).2 _ (List.mem_of_getElem? (hpt k))).2
  have he : Evaluator.flat.Fits N := show 0 < N by omega
  refine ⟨r, b1, b2, fun D hD => (add_rounding b4 (cubic_total .flat he false _ _ lin hG F D h ?_ ?_ ρ ?_ ε
    g ?_ ?_ _ ?_ y b3)).trans_eq (by push_cast; ring), fun ω hω => (add_rounding b4 (cubic_modulus .flat
    he false _ _ lin hG F h ω ε ?_ ?_ ρ ?_ g ?_ ?_ _ ?_ y b3)).trans_eq (by push_cast; ring)⟩
  · rw [hsz]; exact hD
  · rw [hsz]; exact hh
  · rw [hsz]; exact hmesh
  · rw [hsz]; exact hg
  · rw [hsz]; exact hε
  · rw [hsz]; exact hin
  · rw [hsz]; exact hω
  · rw [hsz]; exact hh
  · rw [hsz]; exact hmesh
  · rw [hsz]; exact hg
  · rw [hsz]; exact hε
  · rw [hsz]; exact hin

/-- C140, `float32`, "nearest": the error is at most the change of the function over a cell plus the
error of the table; rounding adds nothing. -/
theorem C140_nearest_f32 (fma lin : Bool) (atol : F32) (h1 : 1 ≤ N) (h6 : N ≤ 6)
    (κ : ℚ) (hκ : 0 ≤ κ) (hN : 110 * (1 + κ) ≤ 2 ^ 24)
    (grids : Fin N → List F32) (vals : List F32)
    (hG : (Axes.rectilinear fun k => (grids k).map val).Valid 2 (vals.map val))
    (hgrid : ∀ k, ∀ a ∈ grids k, Finite a ∧
      |val a| ≤ κ * (((grids k).map val).getD 1 0 - ((grids k).map val).getD 0 0))
    (hnormal : ∀ k, 1 / 2 ^ 125 ≤ ((grids k).map val).getD 1 0 - ((grids k).map val).getD 0 0)
    (hlarge : ∀ k, κ * (((grids k).map val).getD 1 0 - ((grids k).map val).getD 0 0) ≤ 2 ^ 124)
    (hvals : ∀ v ∈ vals, Finite v)
    (F : (Fin N → ℝ) → ℝ) (h : Fin N → ℝ) (ε : ℝ)
    (hh : CellsAtMost (fun k => (grids k).length) (fun k i => ((grids k).map val).getD i 0) h)
    (htab : TableOf (fun k => (grids k).length) (fun k i => ((grids k).map val).getD i 0) F ε vals)
    (obs : Fin N → List F32) (m : Nat)
    (hobs : ∀ k, (obs k).length = m ∧ ∀ a ∈ obs k, Finite a ∧
      InRange (grids k).length (fun i => ((grids k).map val).getD i 0) (val a)) :
    ∃ reg res, pyInterpn fma .float32 (List.ofFn obs) (List.ofFn grids) vals "nearest" none lin false
        false atol = .ok (⟨"nearest", reg, .float32⟩, res) ∧ res.length = m ∧
      ∀ i pt, PointAt obs i pt → ∃ r ∈ vals, res[i]? = some r ∧ Finite r ∧
        ∀ ω, VariesAtMost (fun k => (grids k).length) (fun k i => ((grids k).map val).getD i 0)
            F h ω → |((val r : ℚ) : ℝ) - F fun k => ((val (pt k) : ℚ) : ℝ)| ≤ ω + ε := by
  have hsz : (Axes.rectilinear fun k => (grids k).map val : Axes ℚ N).size =
      fun k => (grids k).length := funext fun k => by simp [Axes.size]
  have hlen : vals.length = ∏ k, (grids k).length := by
    have := hG.len
    rw [hsz] at this
    simpa using this
  have hs := samples_valAt (.nan : F32) (fun k => (grids k).length) vals hlen
  obtain ⟨reg, res, a1, -, a3, a4⟩ := C95_interpn_nearest_f32 fma lin atol h1 h6 κ hκ hN grids vals hG
    hgrid hnormal hlarge _ hs obs m hobs
  refine ⟨reg, res, a1, a3, fun i pt hpt => ?_⟩
  obtain ⟨loc, b1, b2⟩ := a4 i pt hpt
  have hin : ∀ k, InRange (grids k).length (fun i => ((grids k).map val).getD i 0) (val (pt k)) :=
    fun k => ((hobs k).2 _ (List.mem_of_getElem? (hpt k))).2
  have hlt : ∀ k, loc k < (grids k).length := fun k => (b2 k).1
  have hget := hs loc hlt
  obtain ⟨v, hv1, hv2⟩ := htab loc hlt
  rw [hget] at hv1
  cases hv1
  refine ⟨_, List.mem_of_getElem? hget, b1, hvals _ (List.mem_of_getElem? hget), fun ω hω =>
    near_node hG (by rw [hsz]; exact hω) (by rw [hsz]; exact hin) (loc := loc) (by rw [hsz]; exact hlt)
      (fun k => ?_) hv2⟩
  obtain ⟨c, hc⟩ := hG.cells le_rfl fun k => val (pt k)
  rw [hsz] at hc
  refine within_near (hc k) (hin k) (hh k _ (hc k).1) ?_ (b2 k)
  have h2 : 2 ≤ (grids k).length := by have := hG.big k; rwa [hsz] at this
  have hw := hh k 0 h2
  have hk : 20 * (1 + κ) * (1 / 2 ^ 24) ≤ 1 / 2 := by
    rw [mul_one_div, div_le_iff₀ (by norm_num)]; linarith
  have hd : (0 : ℚ) ≤ (((grids k).map val).getD 1 0 - ((grids k).map val).getD 0 0) :=
    le_trans (by norm_num) (hnormal k)
  have h3 := mul_le_mul_of_nonneg_right hk hd
  have h4 : ((20 * (1 + κ) * (1 / 2 ^ 24) * (((grids k).map val).getD 1 0 - ((grids k).map val).getD 0 0) : ℚ) : ℝ) ≤
      ((1 / 2 * (((grids k).map val).getD 1 0 - ((grids k).map val).getD 0 0) : ℚ) : ℝ) := by
    exact_mod_cast h3
  refine h4.trans ?_
  push_cast at hw ⊢
  linarith

end

/-! ### Concrete cases -/

/-- Hypotheses of `C140_linear_f64` are satisfied: `y₀³ y₁` tabulated. -/
example : ∃ reg res r, pyInterpn false .float64 (List.ofFn ![[q64 (1 / 3)], [q64 (5 / 3)]])
      (List.ofFn exGrids64) exTab64 "linear" none false false false (q64 0) =
        .ok (⟨"linear", reg, .float64⟩, res) ∧ res[0]? = some r ∧
    |((val r : ℚ) : ℝ) - exCube fun k => ((val (![q64 (1 / 3), q64 (5 / 3)] k) : ℚ) : ℝ)| ≤
        72 / 8 * (391 / 100) ^ 2 + 1 / 10 ^ 9 := by
  obtain ⟨reg, res, h1, -, h2⟩ := C140_linear_f64 (N := 2) false false (q64 0) (by decide +kernel)
    (by decide +kernel) 41 (by norm_num) (by norm_num) exGrids64 exTab64
    (valid_of_check (by decide +kernel)) (by decide +kernel) (by decide +kernel) (by decide +kernel)
    192 (by norm_num) (by decide +kernel) exCube _ ((1 / 10 ^ 15 : ℚ) : ℝ)
    (cells_of_check (a := 391 / 100) (b := 2) (by decide +kernel)) (tableOf_of_check (Fq := fun q => q 0 ^ 3 * q 1) exCube_rat (by decide +kernel))
    ![[q64 (1 / 3)], [q64 (5 / 3)]] 1 (by unfold InRange; decide +kernel)
  obtain ⟨r, h3, -, h4, -⟩ := h2 0 ![q64 (1 / 3), q64 (5 / 3)] (fun k => by
    match k with
    | 0 => rfl
    | 1 => rfl)
  refine ⟨reg, res, r, h1, h3, (h4 ![6 * (4 : ℚ) * (3 : ℚ), 0] (exCube_second (by decide +kernel))).trans ?_⟩
  simp only [Fin.sum_univ_two, Matrix.cons_val_zero, Matrix.cons_val_one]
  norm_num

/-- Hypotheses of `C140_cubic_f64` are satisfied: a function with kinks. -/
example : ∃ reg res r, pyInterpn false .float64 (List.ofFn ![[q64 (1 / 3)], [q64 (5 / 3)]])
      (List.ofFn exGrids64c) exAbsTabC64 "cubic" none false false false (q64 0) =
        .ok (⟨"cubic", reg, .float64⟩, res) ∧ res[0]? = some r ∧
    |((val r : ℚ) : ℝ) - exAbs fun k => ((val (![q64 (1 / 3), q64 (5 / 3)] k) : ℚ) : ℝ)| ≤
        (5 / 3) ^ 2 * 6 + 1 / 10 ^ 8 := by
  obtain ⟨reg, res, h1, -, h2⟩ := C140_cubic_f64 (N := 2) false false (q64 0) (by decide +kernel)
    (by decide +kernel) 6 (by norm_num) 2 (by norm_num) (by norm_num) exGrids64c exAbsTabC64
    (valid_of_check (by decide +kernel)) (by decide +kernel) (by decide +kernel) (by decide +kernel)
    (fun k => meshRatio_of_check (by revert k; decide +kernel)) 6 (by norm_num) (by norm_num)
    (by decide +kernel) exAbs _ ((0 : ℚ) : ℝ) (cells_of_check (a := 2) (b := 1) (by decide +kernel))
    (tableOf_of_check (Fq := fun q => |q 0 - 1 / 4| + |q 1 - 2|) exAbs_rat
      (by decide +kernel))
    ![[q64 (1 / 3)], [q64 (5 / 3)]] 1 (by unfold InRange; decide +kernel)
  obtain ⟨r, h3, -, -, h4⟩ := h2 0 ![q64 (1 / 3), q64 (5 / 3)] (fun k => by
    match k with
    | 0 => rfl
    | 1 => rfl)
  refine ⟨reg, res, r, h1, h3, (h4 _ exAbs_varies).trans ?_⟩
  norm_num

/-- Hypotheses of `C140_nearest_f64` are satisfied. -/
example : ∃ reg res, ∃ r ∈ exAbsTab64, pyInterpn false .float64
      (List.ofFn ![[q64 (1 / 3)], [q64 (5 / 3)]]) (List.ofFn exGrids64) exAbsTab64 "nearest" none false
      false false (q64 0) = .ok (⟨"nearest", reg, .float64⟩, res) ∧ res[0]? = some r ∧
    |((val r : ℚ) : ℝ) - exAbs fun k => ((val (![q64 (1 / 3), q64 (5 / 3)] k) : ℚ) : ℝ)| ≤
        391 / 100 + 2 + 1 / 10 ^ 15 := by
  obtain ⟨reg, res, h1, -, h2⟩ := C140_nearest_f64 (N := 2) false false (q64 0) (by decide +kernel)
    (by decide +kernel) 41 (by norm_num) (by norm_num) exGrids64 exAbsTab64
    (valid_of_check (by decide +kernel)) (by decide +kernel) (by decide +kernel) (by decide +kernel)
    (by decide +kernel) exAbs _ ((1 / 10 ^ 15 : ℚ) : ℝ)
    (cells_of_check (a := 391 / 100) (b := 2) (by decide +kernel)) (tableOf_of_check (Fq := fun q => |q 0 - 1 / 4| + |q 1 - 2|) exAbs_rat
      (by decide +kernel))
    ![[q64 (1 / 3)], [q64 (5 / 3)]] 1 (by unfold InRange; decide +kernel)
  obtain ⟨r, h0, h3, -, h4⟩ := h2 0 ![q64 (1 / 3), q64 (5 / 3)] (fun k => by
    match k with
    | 0 => rfl
    | 1 => rfl)
  refine ⟨reg, res, r, h0, h1, h3, (h4 _ exAbs_varies).trans ?_⟩
  norm_num

/-- Hypotheses of `C140_linear_f32` are satisfied: `y₀³ y₁` tabulated. -/
example : ∃ reg res r, pyInterpn false .float32 (List.ofFn ![[q32 (1 / 3)], [q32 (5 / 3)]])
      (List.ofFn exGrids32) exTab32 "linear" none false false false (q32 0) =
        .ok (⟨"linear", reg, .float32⟩, res) ∧ res[0]? = some r ∧
    |((val r : ℚ) : ℝ) - exCube fun k => ((val (![q32 (1 / 3), q32 (5 / 3)] k) : ℚ) : ℝ)| ≤
        72 / 8 * (391 / 100) ^ 2 + 1 / 1 := by
  obtain ⟨reg, res, h1, -, h2⟩ := C140_linear_f32 (N := 2) false false (q32 0) (by decide +kernel)
    (by decide +kernel) 41 (by norm_num) (by norm_num) exGrids32 exTab32
    (valid_of_check (by decide +kernel)) (by decide +kernel) (by decide +kernel) (by decide +kernel)
    192 (by norm_num) (by decide +kernel) exCube _ ((1 / 10 ^ 7 : ℚ) : ℝ)
    (cells_of_check (a := 391 / 100) (b := 2) (by decide +kernel)) (tableOf_of_check (Fq := fun q => q 0 ^ 3 * q 1) exCube_rat (by decide +kernel))
    ![[q32 (1 / 3)], [q32 (5 / 3)]] 1 (by unfold InRange; decide +kernel)
  obtain ⟨r, h3, -, h4, -⟩ := h2 0 ![q32 (1 / 3), q32 (5 / 3)] (fun k => by
    match k with
    | 0 => rfl
    | 1 => rfl)
  refine ⟨reg, res, r, h1, h3, (h4 ![6 * (4 : ℚ) * (3 : ℚ), 0] (exCube_second (by decide +kernel))).trans ?_⟩
  simp only [Fin.sum_univ_two, Matrix.cons_val_zero, Matrix.cons_val_one]
  norm_num

/-- Hypotheses of `C140_cubic_f32` are satisfied: a function with kinks. -/
example : ∃ reg res r, pyInterpn false .float32 (List.ofFn ![[q32 (1 / 3)], [q32 (5 / 3)]])
      (List.ofFn exGrids32c) exAbsTabC32 "cubic" none false false false (q32 0) =
        .ok (⟨"cubic", reg, .float32⟩, res) ∧ res[0]? = some r ∧
    |((val r : ℚ) : ℝ) - exAbs fun k => ((val (![q32 (1 / 3), q32 (5 / 3)] k) : ℚ) : ℝ)| ≤
        (5 / 3) ^ 2 * 6 + 1 / 1 := by
  obtain ⟨reg, res, h1, -, h2⟩ := C140_cubic_f32 (N := 2) false false (q32 0) (by decide +kernel)
    (by decide +kernel) 6 (by norm_num) 2 (by norm_num) (by norm_num) exGrids32c exAbsTabC32
    (valid_of_check (by decide +kernel)) (by decide +kernel) (by decide +kernel) (by decide +kernel)
    (fun k => meshRatio_of_check (by revert k; decide +kernel)) 6 (by norm_num) (by norm_num)
    (by decide +kernel) exAbs _ ((0 : ℚ) : ℝ) (cells_of_check (a := 2) (b := 1) (by decide +kernel))
    (tableOf_of_check (Fq := fun q => |q 0 - 1 / 4| + |q 1 - 2|) exAbs_rat
      (by decide +kernel))
    ![[q32 (1 / 3)], [q32 (5 / 3)]] 1 (by unfold InRange; decide +kernel)
  obtain ⟨r, h3, -, -, h4⟩ := h2 0 ![q32 (1 / 3), q32 (5 / 3)] (fun k => by
    match k with
    | 0 => rfl
    | 1 => rfl)
  refine ⟨reg, res, r, h1, h3, (h4 _ exAbs_varies).trans ?_⟩
  norm_num

/-- Hypotheses of `C140_nearest_f32` are satisfied. -/
example : ∃ reg res, ∃ r ∈ exAbsTab32, pyInterpn false .float32
      (List.ofFn ![[q32 (1 / 3)], [q32 (5 / 3)]]) (List.ofFn exGrids32) exAbsTab32 "nearest" none false
      false false (q32 0) = .ok (⟨"nearest", reg, .float32⟩, res) ∧ res[0]? = some r ∧
    |((val r : ℚ) : ℝ) - exAbs fun k => ((val (![q32 (1 / 3), q32 (5 / 3)] k) : ℚ) : ℝ)| ≤
        391 / 100 + 2 + 1 / 10 ^ 6 := by
  obtain ⟨reg, res, h1, -, h2⟩ := C140_nearest_f32 (N := 2) false false (q32 0) (by decide +kernel)
    (by decide +kernel) 41 (by norm_num) (by norm_num) exGrids32 exAbsTab32
    (valid_of_check (by decide +kernel)) (by decide +kernel) (by decide +kernel) (by decide +kernel)
    (by decide +kernel) exAbs _ ((1 / 10 ^ 6 : ℚ) : ℝ)
    (cells_of_check (a := 391 / 100) (b := 2) (by decide +kernel)) (tableOf_of_check (Fq := fun q => |q 0 - 1 / 4| + |q 1 - 2|) exAbs_rat
      (by decide +kernel))
    ![[q32 (1 / 3)], [q32 (5 / 3)]] 1 (by unfold InRange; decide +kernel)
  obtain ⟨r, h0, h3, -, h4⟩ := h2 0 ![q32 (1 / 3), q32 (5 / 3)] (fun k => by
    match k with
    | 0 => rfl
    | 1 => rfl)
  refine ⟨reg, res, r, h0, h1, h3, (h4 _ exAbs_varies).trans ?_⟩
  norm_num

end Interpn
