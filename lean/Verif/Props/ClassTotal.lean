import Verif.Props.ConvergenceFloat
import Verif.Props.ClassAccuracy

/-! C140, the Python classes: total error of tabulating a function, constructing an object and calling
`eval`. -/

set_option autoImplicit false
set_option linter.unusedSectionVars false
set_option exponentiation.threshold 1100

namespace Interpn
open FloatOps Ieee

section
variable {N : Nat} {X : Type}

/-- C140, class `MultilinearRegular` with `float64` values. -/
theorem C140_multilinear_regular_f64 (np : Numpy F32 F64 X) (fma : Bool) (h1 : 1 ≤ N) (h8 : N ≤ 8)
    (κ : ℚ) (hκ : 0 ≤ κ) (hN : 100 * N * (1 + κ) ≤ 2 ^ 53)
    (dims : Fin N → Nat) (starts steps : Fin N → F64) (vals : List F64)
    (hG : (Axes.regular dims (fun k => val (starts k)) fun k => val (steps k)).Valid 2
      (vals.map val))
    (starts' steps' : NpArray F32 F64 X) (hst : starts'.values64 np = List.ofFn starts)
    (hsp : steps'.values64 np = List.ofFn steps)
    (hfin : ∀ k, Finite (starts k) ∧ Finite (steps k)) (hnormal : ∀ k, 1 / 2 ^ 1022 ≤ val (steps k))
    (hnodes : ∀ k, |val (starts k)| ≤ κ * val (steps k) ∧
      |val (starts k) + val (steps k) * ((dims k - 1 : Nat) : ℚ)| ≤ κ * val (steps k))
    (hlarge : ∀ k, κ * val (steps k) ≤ 2 ^ 1020)
    (M : ℚ) (hM : M ≤ 2 ^ 1020) (hvals : ∀ v ∈ vals, Finite v ∧ |val v| ≤ M)
    (F : (Fin N → ℝ) → ℝ) (ε : ℝ)
    (htab : TableOf dims (fun k i => val (starts k) + val (steps k) * (i : ℚ)) F ε vals)
    (obs : Fin N → List F64) (n : Nat)
    (hobs : ∀ k, (obs k).length = n ∧ ∀ a ∈ obs k, Finite a ∧
      InRange (dims k) (fun i => val (starts k) + val (steps k) * (i : ℚ)) (val a)) :
    ∃ m res, RegularObj.new np .multilinear ((List.ofFn dims).map fun d : Nat => (d : Int))
        starts' steps' (.f64 vals) = .ok m ∧
      m.eval np fma ((List.ofFn obs).map .f64) none = .ok (.f64 res) ∧ res.length = n ∧
      ∀ i pt, PointAt obs i pt → ∃ r, res[i]? = some r ∧ Finite r ∧
        (∀ D, SecondDerivsOn dims (fun k i => val (starts k) + val (steps k) * (i : ℚ))
            F D → |((val r : ℚ) : ℝ) - F fun k => ((val (pt k) : ℚ) : ℝ)| ≤
            ∑ k, D k / 8 * ((val (steps k) : ℚ) : ℝ) ^ 2 + ε + (60 * N * (1 + κ) * (1 / 2 ^ 53) * M + 3 * N * (1 / 2 ^ 1075))) ∧
        ∀ ω, VariesAtMost dims (fun k i => val (starts k) + val (steps k) * (i : ℚ))
            F (fun k => ((val (steps k) : ℚ) : ℝ)) ω →
          |((val r : ℚ) : ℝ) - F fun k => ((val (pt k) : ℚ) : ℝ)| ≤
            ω + ε + (60 * N * (1 + κ) * (1 / 2 ^ 53) * M + 3 * N * (1 / 2 ^ 1075)) := by
  obtain ⟨m, res, a1, a2, a3, a4⟩ := C104_multilinear_regular_f64 np fma h1 h8 κ hκ hN dims starts steps vals hG starts' steps' hst hsp hfin hnormal hnodes hlarge M hM hvals obs n hobs
  obtain ⟨g, hg, hε⟩ := htab.samples
  refine ⟨m, res, a1, a2, a3, fun i pt hpt => ?_⟩
  obtain ⟨r, b1, b2, y, b3, b4⟩ := a4 i pt hpt
  have hin : ∀ k, InRange (dims k) (fun i => val (starts k) + val (steps k) * (i : ℚ))
      (val (pt k)) := fun k => ((hobs k).2 _ (List.mem_of_getElem? (hpt k))).2
  have he : Evaluator.flat.Fits N := show 0 < N by omega
  have hcell : CellsAtMost dims (fun k i => val (starts k) + val (steps k) * (i : ℚ))
      fun k => ((val (steps k) : ℚ) : ℝ) := fun k i _ => by push_cast; linarith
  exact ⟨r, b1, b2, fun D hD => (add_rounding b4 (linear_total .flat he false _ _ hG F D _ hD hcell ε g
    hg hε _ hin y b3)).trans_eq (by push_cast; ring), fun ω hω => (add_rounding b4 (linear_modulus
    .flat he false _ _ hG F _ ω ε hω hcell g hg hε _ hin y b3)).trans_eq (by push_cast; ring)⟩

/-- C140, class `MultilinearRectilinear` with `float64` values. -/
theorem C140_multilinear_rectilinear_f64 (np : Numpy F32 F64 X) (fma : Bool) (h1 : 1 ≤ N) (h8 : N ≤ 8)
    (grids : Fin N → List F64) (vals : List F64)
    (hG : (Axes.rectilinear fun k => (grids k).map val).Valid 2 (vals.map val))
    (grids' : List (NpArray F32 F64 X)) (hgr : grids'.map (fun g => g.values64 np) = List.ofFn grids)
    (hgrid : ∀ k, ∀ a ∈ grids k, Finite a ∧ |val a| ≤ 2 ^ 1022)
    (M : ℚ) (hM : M ≤ 2 ^ 1020) (hvals : ∀ v ∈ vals, Finite v ∧ |val v| ≤ M)
    (F : (Fin N → ℝ) → ℝ) (h : Fin N → ℝ) (ε : ℝ)
    (hh : CellsAtMost (fun k => (grids k).length) (fun k i => ((grids k).map val).getD i 0) h)
    (htab : TableOf (fun k => (grids k).length) (fun k i => ((grids k).map val).getD i 0) F ε vals)
    (obs : Fin N → List F64) (n : Nat)
    (hobs : ∀ k, (obs k).length = n ∧ ∀ a ∈ obs k, Finite a ∧
      InRange (grids k).length (fun i => ((grids k).map val).getD i 0) (val a)) :
    ∃ m res, RectilinearObj.new np .multilinear grids' (.f64 vals) = .ok m ∧
      m.eval np fma ((List.ofFn obs).map .f64) none = .ok (.f64 res) ∧ res.length = n ∧
      ∀ i pt, PointAt obs i pt → ∃ r, res[i]? = some r ∧ Finite r ∧
        (∀ D, SecondDerivsOn (fun k => (grids k).length) (fun k i => ((grids k).map val).getD i 0)
            F D → |((val r : ℚ) : ℝ) - F fun k => ((val (pt k) : ℚ) : ℝ)| ≤
            ∑ k, D k / 8 * h k ^ 2 + ε + (26 * N * (1 / 2 ^ 53) * M + 3 * N * (1 / 2 ^ 1075))) ∧
        ∀ ω, VariesAtMost (fun k => (grids k).length) (fun k i => ((grids k).map val).getD i 0)
            F h ω →
          |((val r : ℚ) : ℝ) - F fun k => ((val (pt k) : ℚ) : ℝ)| ≤
            ω + ε + (26 * N * (1 / 2 ^ 53) * M + 3 * N * (1 / 2 ^ 1075)) := by
  obtain ⟨m, res, a1, a2, a3, a4⟩ := C104_multilinear_rectilinear_f64 np fma h1 h8 grids vals hG grids' hgr hgrid M hM hvals obs n hobs
  obtain ⟨g, hg, hε⟩ := htab.samples
  refine ⟨m, res, a1, a2, a3, fun i pt hpt => ?_⟩
  obtain ⟨r, b1, b2, y, b3, b4⟩ := a4 i pt hpt
  have hin : ∀ k, InRange (grids k).length (fun i => ((grids k).map val).getD i 0)
      (val (pt k)) := fun k => ((hobs k).2 _ (List.mem_of_getElem? (hpt k))).2
  have he : Evaluator.flat.Fits N := show 0 < N by omega
  have hsz : (Axes.rectilinear fun k => (grids k).map val : Axes ℚ N).size =
      fun k => (grids k).length := funext fun k => by simp [Axes.size]
  refine ⟨r, b1, b2, fun D hD => (add_rounding b4 (linear_total .flat he false _ _ hG F D h ?_ ?_ ε
    g ?_ ?_ _ ?_ y b3)).trans_eq (by push_cast; ring), fun ω hω => (add_rounding b4 (linear_modulus
    .flat he false _ _ hG F h ω ε ?_ ?_ g ?_ ?_ _ ?_ y b3)).trans_eq (by push_cast; ring)⟩
  · rw [hsz]; exact hD
  · rw [hsz]; exact hh
  · rw [hsz]; exact hg
  · rw [hsz]; exact hε
  · rw [hsz]; exact hin
  · rw [hsz]; exact hω
  · rw [hsz]; exact hh
  · rw [hsz]; exact hg
  · rw [hsz]; exact hε
  · rw [hsz]; exact hin

/-- C140, class `MulticubicRegular` with `float64` values. -/
theorem C140_multicubic_regular_f64 (np : Numpy F32 F64 X) (fma lin : Bool) (h1 : 1 ≤ N) (h8 : N ≤ 8)
    (κ : ℚ) (hκ : 0 ≤ κ) (hN : 4200 * N * (1 + κ) ≤ 2 ^ 53)
    (dims : Fin N → Nat) (starts steps : Fin N → F64) (vals : List F64)
    (hG : (Axes.regular dims (fun k => val (starts k)) fun k => val (steps k)).Valid 4
      (vals.map val))
    (starts' steps' : NpArray F32 F64 X) (hst : starts'.values64 np = List.ofFn starts)
    (hsp : steps'.values64 np = List.ofFn steps)
    (hfin : ∀ k, Finite (starts k) ∧ Finite (steps k)) (hnormal : ∀ k, 1 / 2 ^ 1022 ≤ val (steps k))
    (hnodes : ∀ k, |val (starts k)| ≤ κ * val (steps k) ∧
      |val (starts k) + val (steps k) * ((dims k - 1 : Nat) : ℚ)| ≤ κ * val (steps k))
    (hlarge : ∀ k, κ * val (steps k) ≤ 2 ^ 1020)
    (M : ℚ) (hM : M ≤ 2 ^ 1000) (hM1 : 1 / 2 ^ 1022 ≤ M) (hvals : ∀ v ∈ vals, Finite v ∧ |val v| ≤ M)
    (F : (Fin N → ℝ) → ℝ) (ε : ℝ)
    (htab : TableOf dims (fun k i => val (starts k) + val (steps k) * (i : ℚ)) F ε vals)
    (obs : Fin N → List F64) (n : Nat)
    (hobs : ∀ k, (obs k).length = n ∧ ∀ a ∈ obs k, Finite a ∧
      InRange (dims k) (fun i => val (starts k) + val (steps k) * (i : ℚ)) (val a)) :
    ∃ m res, RegularObj.new np (.multicubic lin) ((List.ofFn dims).map fun d : Nat => (d : Int))
        starts' steps' (.f64 vals) = .ok m ∧
      m.eval np fma ((List.ofFn obs).map .f64) none = .ok (.f64 res) ∧ res.length = n ∧
      ∀ i pt, PointAt obs i pt → ∃ r, res[i]? = some r ∧ Finite r ∧
        (∀ D, ThirdDerivsOn dims (fun k i => val (starts k) + val (steps k) * (i : ℚ))
            F D → |((val r : ℚ) : ℝ) - F fun k => ((val (pt k) : ℚ) : ℝ)| ≤
            (5 / 4 : ℝ) ^ (N - 1) * ∑ k, 17 / 48 * (D k * ((val (steps k) : ℚ) : ℝ) ^ 3) +
            (5 / 4 : ℝ) ^ N * ε +
            4200 * N * (1 + κ) * (1 / 2 ^ 53) * (5 / 4) ^ N * M) ∧
        ∀ ω, VariesAtMost dims (fun k i => val (starts k) + val (steps k) * (i : ℚ))
            F (fun k => 2 * ((val (steps k) : ℚ) : ℝ)) ω →
          |((val r : ℚ) : ℝ) - F fun k => ((val (pt k) : ℚ) : ℝ)| ≤
            (5 / 4 : ℝ) ^ N * (ω + ε) +
            4200 * N * (1 + κ) * (1 / 2 ^ 53) * (5 / 4) ^ N * M := by
  obtain ⟨m, res, a1, a2, a3, a4⟩ := C104_multicubic_regular_f64 np fma lin h1 h8 κ hκ hN dims starts steps vals hG starts' steps' hst hsp hfin hnormal hnodes hlarge M hM hM1 hvals obs n hobs
  obtain ⟨g, hg, hε⟩ := htab.samples
  refine ⟨m, res, a1, a2, a3, fun i pt hpt => ?_⟩
  obtain ⟨r, b1, b2, y, b3, b4⟩ := a4 i pt hpt
  have hin : ∀ k, InRange (dims k) (fun i => val (starts k) + val (steps k) * (i : ℚ))
      (val (pt k)) := fun k => ((hobs k).2 _ (List.mem_of_getElem? (hpt k))).2
  have he : Evaluator.flat.Fits N := show 0 < N by omega
  have hcell : CellsAtMost dims (fun k i => val (starts k) + val (steps k) * (i : ℚ))
      fun k => ((val (steps k) : ℚ) : ℝ) := fun k i _ => by push_cast; linarith
  have e5 : (1 : ℝ) + ((1 : ℚ) : ℝ) ^ 2 / (2 * (1 + ((1 : ℚ) : ℝ))) = 5 / 4 := by norm_num
  have e6 : ((1 : ℝ) + 9 * (((1 : ℚ) : ℝ) ^ 2 / (4 * (1 + ((1 : ℚ) : ℝ))))) / 6 = 17 / 48 := by norm_num
  refine ⟨r, b1, b2, fun D hD => ?_, fun ω hω => ?_⟩
  · have h5 := cubic_total .flat he false _ _ lin hG F D _ hD hcell 1 (meshRatio_regular _ _ _) ε g hg hε _
      hin y b3
    rw [e5, e6] at h5
    exact (add_rounding b4 h5).trans_eq (by push_cast; ring)
  · have h5 := cubic_modulus .flat he false _ _ lin hG F _ ω ε hω hcell 1 (meshRatio_regular _ _ _) g hg hε
      _ hin y b3
    rw [e5] at h5
    exact (add_rounding b4 h5).trans_eq (by push_cast; ring)

/-- C140, class `MulticubicRectilinear` with `float64` values. -/
theorem C140_multicubic_rectilinear_f64 (np : Numpy F32 F64 X) (fma lin : Bool) (h1 : 1 ≤ N) (h8 : N ≤ 8)
    (grids : Fin N → List F64) (vals : List F64)
    (hG : (Axes.rectilinear fun k => (grids k).map val).Valid 4 (vals.map val))
    (grids' : List (NpArray F32 F64 X)) (hgr : grids'.map (fun g => g.values64 np) = List.ofFn grids)
    (hgrid : ∀ k, ∀ a ∈ grids k, Finite a ∧ |val a| ≤ 2 ^ 1022)
    (M : ℚ) (hM : M ≤ 2 ^ 700) (hM1 : 1 / 2 ^ 1022 ≤ M) (hvals : ∀ v ∈ vals, Finite v ∧ |val v| ≤ M)
    (ρ : ℚ) (hρ : 1 ≤ ρ) (hρ2 : ρ ≤ 2 ^ 30)
    (hmesh : ∀ k, MeshRatio (grids k).length (fun i => ((grids k).map val).getD i 0) ρ)
    (F : (Fin N → ℝ) → ℝ) (h : Fin N → ℝ) (ε : ℝ)
    (hh : CellsAtMost (fun k => (grids k).length) (fun k i => ((grids k).map val).getD i 0) h)
    (htab : TableOf (fun k => (grids k).length) (fun k i => ((grids k).map val).getD i 0) F ε vals)
    (obs : Fin N → List F64) (n : Nat)
    (hobs : ∀ k, (obs k).length = n ∧ ∀ a ∈ obs k, Finite a ∧
      InRange (grids k).length (fun i => ((grids k).map val).getD i 0) (val a)) :
    ∃ m res, RectilinearObj.new np (.multicubic lin) grids' (.f64 vals) = .ok m ∧
      m.eval np fma ((List.ofFn obs).map .f64) none = .ok (.f64 res) ∧ res.length = n ∧
      ∀ i pt, PointAt obs i pt → ∃ r, res[i]? = some r ∧ Finite r ∧
        (∀ D, ThirdDerivsOn (fun k => (grids k).length) (fun k i => ((grids k).map val).getD i 0)
            F D → |((val r : ℚ) : ℝ) - F fun k => ((val (pt k) : ℚ) : ℝ)| ≤
            (1 + (ρ : ℝ) ^ 2 / (2 * (1 + ρ))) ^ (N - 1) * ∑ k, (1 + 9 * ((ρ : ℝ) ^ 2 / (4 * (1 + ρ)))) / 6 * (D k * h k ^ 3) +
            (1 + (ρ : ℝ) ^ 2 / (2 * (1 + ρ))) ^ N * ε +
            3200 * N * ρ * (1 / 2 ^ 53) * (1 + (ρ : ℝ) ^ 2 / (2 * (1 + ρ))) ^ N * M) ∧
        ∀ ω, VariesAtMost (fun k => (grids k).length) (fun k i => ((grids k).map val).getD i 0)
            F (fun k => 2 * h k) ω →
          |((val r : ℚ) : ℝ) - F fun k => ((val (pt k) : ℚ) : ℝ)| ≤
            (1 + (ρ : ℝ) ^ 2 / (2 * (1 + ρ))) ^ N * (ω + ε) +
            3200 * N * ρ * (1 / 2 ^ 53) * (1 + (ρ : ℝ) ^ 2 / (2 * (1 + ρ))) ^ N * M := by
  obtain ⟨m, res, a1, a2, a3, a4⟩ := C104_multicubic_rectilinear_f64 np fma lin h1 h8 grids vals hG grids' hgr hgrid M hM hM1 hvals ρ hρ hρ2 hmesh obs n hobs
  obtain ⟨g, hg, hε⟩ := htab.samples
  refine ⟨m, res, a1, a2, a3, fun i pt hpt => ?_⟩
  obtain ⟨r, b1, b2, y, b3, b4⟩ := a4 i pt hpt
  have hin : ∀ k, InRange (grids k).length (fun i => ((grids k).map val).getD i 0)
      (val (pt k)) := fun k => ((hobs k).2 _ (List.mem_of_getElem? (hpt k))).2
  have he : Evaluator.flat.Fits N := show 0 < N by omega
  have hsz : (Axes.rectilinear fun k => (grids k).map val : Axes ℚ N).size =
      fun k => (grids k).length := funext fun k => by simp [Axes.size]
  refine ⟨r, b1, b2, fun D hD => (add_rounding b4 (cubic_total .flat he false _ _ lin hG F D h ?_ ?_ ρ ?_ ε
    g ?_ ?_ _ ?_ y b3)).trans_eq (by push_cast; ring), fun ω hω => (add_rounding b4 (cubic_modulus
    .flat he false _ _ lin hG F h ω ε ?_ ?_ ρ ?_ g ?_ ?_ _ ?_ y b3)).trans_eq (by push_cast; ring)⟩
  · rw [hsz]; exact hD
  · rw [hsz]; exact hh
  · rw [hsz]; exact hmesh
  · rw [hsz]; exact hg
  · rw [hsz]; exact hε
  · rw [hsz]; exact hin
  · rw [hsz]; exact hω
  · rw [hsz]; exact hh
  · rw [hsz]; exact hmesh
  · rw [hsz]; exact hg
  · rw [hsz]; exact hε
  · rw [hsz]; exact hin

/-- C140, class `MultilinearRegular` with `float32` values. -/
theorem C140_multilinear_regular_f32 (np : Numpy F32 F64 X) (fma : Bool) (h1 : 1 ≤ N) (h8 : N ≤ 8)
    (κ : ℚ) (hκ : 0 ≤ κ) (hN : 100 * N * (1 + κ) ≤ 2 ^ 24)
    (dims : Fin N → Nat) (starts steps : Fin N → F32) (vals : List F32)
    (hG : (Axes.regular dims (fun k => val (starts k)) fun k => val (steps k)).Valid 2
      (vals.map val))
    (starts' steps' : NpArray F32 F64 X) (hst : starts'.values32 np = List.ofFn starts)
    (hsp : steps'.values32 np = List.ofFn steps)
    (vals' : NpArray F32 F64 X) (hv64 : ∀ d, vals' ≠ .f64 d) (hv : vals'.values32 np = vals)
    (hfin : ∀ k, Finite (starts k) ∧ Finite (steps k)) (hnormal : ∀ k, 1 / 2 ^ 126 ≤ val (steps k))
    (hnodes : ∀ k, |val (starts k)| ≤ κ * val (steps k) ∧
      |val (starts k) + val (steps k) * ((dims k - 1 : Nat) : ℚ)| ≤ κ * val (steps k))
    (hlarge : ∀ k, κ * val (steps k) ≤ 2 ^ 124)
    (M : ℚ) (hM : M ≤ 2 ^ 124) (hvals : ∀ v ∈ vals, Finite v ∧ |val v| ≤ M)
    (F : (Fin N → ℝ) → ℝ) (ε : ℝ)
    (htab : TableOf dims (fun k i => val (starts k) + val (steps k) * (i : ℚ)) F ε vals)
    (obs : Fin N → List F32) (n : Nat)
    (hobs : ∀ k, (obs k).length = n ∧ ∀ a ∈ obs k, Finite a ∧
      InRange (dims k) (fun i => val (starts k) + val (steps k) * (i : ℚ)) (val a)) :
    ∃ m res, RegularObj.new np .multilinear ((List.ofFn dims).map fun d : Nat => (d : Int))
        starts' steps' vals' = .ok m ∧
      m.eval np fma ((List.ofFn obs).map .f32) none = .ok (.f32 res) ∧ res.length = n ∧
      ∀ i pt, PointAt obs i pt → ∃ r, res[i]? = some r ∧ Finite r ∧
        (∀ D, SecondDerivsOn dims (fun k i => val (starts k) + val (steps k) * (i : ℚ))
            F D → |((val r : ℚ) : ℝ) - F fun k => ((val (pt k) : ℚ) : ℝ)| ≤
            ∑ k, D k / 8 * ((val (steps k) : ℚ) : ℝ) ^ 2 + ε + (60 * N * (1 + κ) * (1 / 2 ^ 24) * M + 3 * N * (1 / 2 ^ 150))) ∧
        ∀ ω, VariesAtMost dims (fun k i => val (starts k) + val (steps k) * (i : ℚ))
            F (fun k => ((val (steps k) : ℚ) : ℝ)) ω →
          |((val r : ℚ) : ℝ) - F fun k => ((val (pt k) : ℚ) : ℝ)| ≤
            ω + ε + (60 * N * (1 + κ) * (1 / 2 ^ 24) * M + 3 * N * (1 / 2 ^ 150)) := by
  obtain ⟨m, res, a1, a2, a3, a4⟩ := C104_multilinear_regular_f32 np fma h1 h8 κ hκ hN dims starts steps vals hG starts' steps' hst hsp vals' hv64 hv hfin hnormal hnodes hlarge M hM hvals obs n hobs
  obtain ⟨g, hg, hε⟩ := htab.samples
  refine ⟨m, res, a1, a2, a3, fun i pt hpt => ?_⟩
  obtain ⟨r, b1, b2, y, b3, b4⟩ := a4 i pt hpt
  have hin : ∀ k, InRange (dims k) (fun i => val (starts k) + val (steps k) * (i : ℚ))
      (val (pt k)) := fun k => ((hobs k).2 _ (List.mem_of_getElem? (hpt k))).2
  have he : Evaluator.flat.Fits N := show 0 < N by omega
  have hcell : CellsAtMost dims (fun k i => val (starts k) + val (steps k) * (i : ℚ))
      fun k => ((val (steps k) : ℚ) : ℝ) := fun k i _ => by push_cast; linarith
  exact ⟨r, b1, b2, fun D hD => (add_rounding b4 (linear_total .flat he false _ _ hG F D _ hD hcell ε g
    hg hε _ hin y b3)).trans_eq (by push_cast; ring), fun ω hω => (add_rounding b4 (linear_modulus
    .flat he false _ _ hG F _ ω ε hω hcell g hg hε _ hin y b3)).trans_eq (by push_cast; ring)⟩

/-- C140, class `MultilinearRectilinear` with `float32` values. -/
theorem C140_multilinear_rectilinear_f32 (np : Numpy F32 F64 X) (fma : Bool) (h1 : 1 ≤ N) (h8 : N ≤ 8)
    (grids : Fin N → List F32) (vals : List F32)
    (hG : (Axes.rectilinear fun k => (grids k).map val).Valid 2 (vals.map val))
    (grids' : List (NpArray F32 F64 X)) (hgr : grids'.map (fun g => g.values32 np) = List.ofFn grids)
    (vals' : NpArray F32 F64 X) (hv64 : ∀ d, vals' ≠ .f64 d) (hv : vals'.values32 np = vals)
    (hgrid : ∀ k, ∀ a ∈ grids k, Finite a ∧ |val a| ≤ 2 ^ 126)
    (M : ℚ) (hM : M ≤ 2 ^ 124) (hvals : ∀ v ∈ vals, Finite v ∧ |val v| ≤ M)
    (F : (Fin N → ℝ) → ℝ) (h : Fin N → ℝ) (ε : ℝ)
    (hh : CellsAtMost (fun k => (grids k).length) (fun k i => ((grids k).map val).getD i 0) h)
    (htab : TableOf (fun k => (grids k).length) (fun k i => ((grids k).map val).getD i 0) F ε vals)
    (obs : Fin N → List F32) (n : Nat)
    (hobs : ∀ k, (obs k).length = n ∧ ∀ a ∈ obs k, Finite a ∧
      InRange (grids k).length (fun i => ((grids k).map val).getD i 0) (val a)) :
    ∃ m res, RectilinearObj.new np .multilinear grids' vals' = .ok m ∧
      m.eval np fma ((List.ofFn obs).map .f32) none = .ok (.f32 res) ∧ res.length = n ∧
      ∀ i pt, PointAt obs i pt → ∃ r, res[i]? = some r ∧ Finite r ∧
        (∀ D, SecondDerivsOn (fun k => (grids k).length) (fun k i => ((grids k).map val).getD i 0)
            F D → |((val r : ℚ) : ℝ) - F fun k => ((val (pt k) : ℚ) : ℝ)| ≤
            ∑ k, D k / 8 * h k ^ 2 + ε + (26 * N * (1 / 2 ^ 24) * M + 3 * N * (1 / 2 ^ 150))) ∧
        ∀ ω, VariesAtMost (fun k => (grids k).length) (fun k i => ((grids k).map val).getD i 0)
            F h ω →
          |((val r : ℚ) : ℝ) - F fun k => ((val (pt k) : ℚ) : ℝ)| ≤
            ω + ε + (26 * N * (1 / 2 ^ 24) * M + 3 * N * (1 / 2 ^ 150)) := by
  obtain ⟨m, res, a1, a2, a3, a4⟩ := C104_multilinear_rectilinear_f32 np fma h1 h8 grids vals hG grids' hgr vals' hv64 hv hgrid M hM hvals obs n hobs
  obtain ⟨g, hg, hε⟩ := htab.samples
  refine ⟨m, res, a1, a2, a3, fun i pt hpt => ?_⟩
  obtain ⟨r, b1, b2, y, b3, b4⟩ := a4 i pt hpt
  have hin : ∀ k, InRange (grids k).length (fun i => ((grids k).map val).getD i 0)
      (val (pt k)) := fun k => ((hobs k).2 _ (List.mem_of_getElem? (hpt k))).2
  have he : Evaluator.flat.Fits N := show 0 < N by omega
  have hsz : (Axes.rectilinear fun k => (grids k).map val : Axes ℚ N).size =
      fun k => (grids k).length := funext fun k => by simp [Axes.size]
  refine ⟨r, b1, b2, fun D hD => (add_rounding b4 (linear_total .flat he false _ _ hG F D h ?_ ?_ ε
    g ?_ ?_ _ ?_ y b3)).trans_eq (by push_cast; ring), fun ω hω => (add_rounding b4 (linear_modulus
    .flat he false _ _ hG F h ω ε ?_ ?_ g ?_ ?_ _ ?_ y b3)).trans_eq (by push_cast; ring)⟩
  · rw [hsz]; exact hD
  · rw [hsz]; exact hh
  · rw [hsz]; exact hg
  · rw [hsz]; exact hε
  · rw [hsz]; exact hin
  · rw [hsz]; exact hω
  · rw [hsz]; exact hh
  · rw [hsz]; exact hg
  · rw [hsz]; exact hε
  · rw [hsz]; exact hin

/-- C140, class `MulticubicRegular` with `float32` values. -/
theorem C140_multicubic_regular_f32 (np : Numpy F32 F64 X) (fma lin : Bool) (h1 : 1 ≤ N) (h8 : N ≤ 8)
    (κ : ℚ) (hκ : 0 ≤ κ) (hN : 4200 * N * (1 + κ) ≤ 2 ^ 24)
    (dims : Fin N → Nat) (starts steps : Fin N → F32) (vals : List F32)
    (hG : (Axes.regular dims (fun k => val (starts k)) fun k => val (steps k)).Valid 4
      (vals.map val))
    (starts' steps' : NpArray F32 F64 X) (hst : starts'.values32 np = List.ofFn starts)
    (hsp : steps'.values32 np = List.ofFn steps)
    (vals' : NpArray F32 F64 X) (hv64 : ∀ d, vals' ≠ .f64 d) (hv : vals'.values32 np = vals)
    (hfin : ∀ k, Finite (starts k) ∧ Finite (steps k)) (hnormal : ∀ k, 1 / 2 ^ 126 ≤ val (steps k))
    (hnodes : ∀ k, |val (starts k)| ≤ κ * val (steps k) ∧
      |val (starts k) + val (steps k) * ((dims k - 1 : Nat) : ℚ)| ≤ κ * val (steps k))
    (hlarge : ∀ k, κ * val (steps k) ≤ 2 ^ 124)
    (M : ℚ) (hM : M ≤ 2 ^ 110) (hM1 : 1 / 2 ^ 126 ≤ M) (hvals : ∀ v ∈ vals, Finite v ∧ |val v| ≤ M)
    (F : (Fin N → ℝ) → ℝ) (ε : ℝ)
    (htab : TableOf dims (fun k i => val (starts k) + val (steps k) * (i : ℚ)) F ε vals)
    (obs : Fin N → List F32) (n : Nat)
    (hobs : ∀ k, (obs k).length = n ∧ ∀ a ∈ obs k, Finite a ∧
      InRange (dims k) (fun i => val (starts k) + val (steps k) * (i : ℚ)) (val a)) :
    ∃ m res, RegularObj.new np (.multicubic lin) ((List.ofFn dims).map fun d : Nat => (d : Int))
        starts' steps' vals' = .ok m ∧
      m.eval np fma ((List.ofFn obs).map .f32) none = .ok (.f32 res) ∧ res.length = n ∧
      ∀ i pt, PointAt obs i pt → ∃ r, res[i]? = some r ∧ Finite r ∧
        (∀ D, ThirdDerivsOn dims (fun k i => val (starts k) + val (steps k) * (i : ℚ))
            F D → |((val r : ℚ) : ℝ) - F fun k => ((val (pt k) : ℚ) : ℝ)| ≤
            (5 / 4 : ℝ) ^ (N - 1) * ∑ k, 17 / 48 * (D k * ((val (steps k) : ℚ) : ℝ) ^ 3) +
            (5 / 4 : ℝ) ^ N * ε +
            4200 * N * (1 + κ) * (1 / 2 ^ 24) * (5 / 4) ^ N * M) ∧
        ∀ ω, VariesAtMost dims (fun k i => val (starts k) + val (steps k) * (i : ℚ))
            F (fun k => 2 * ((val (steps k) : ℚ) : ℝ)) ω →
          |((val r : ℚ) : ℝ) - F fun k => ((val (pt k) : ℚ) : ℝ)| ≤
            (5 / 4 : ℝ) ^ N * (ω + ε) +
            4200 * N * (1 + κ) * (1 / 2 ^ 24) * (5 / 4) ^ N * M := by
  obtain ⟨m, res, a1, a2, a3, a4⟩ := C104_multicubic_regular_f32 np fma lin h1 h8 κ hκ hN dims starts steps vals hG starts' steps' hst hsp vals' hv64 hv hfin hnormal hnodes hlarge M hM hM1 hvals obs n hobs
  obtain ⟨g, hg, hε⟩ := htab.samples
  refine ⟨m, res, a1, a2, a3, fun i pt hpt => ?_⟩
  obtain ⟨r, b1, b2, y, b3, b4⟩ := a4 i pt hpt
  have hin : ∀ k, InRange (dims k) (fun i => val (starts k) + val (steps k) * (i : ℚ))
      (val (pt k)) := fun k => ((hobs k).2 _ (List.mem_of_getElem? (hpt k))).2
  have he : Evaluator.flat.Fits N := show 0 < N by omega
  have hcell : CellsAtMost dims (fun k i => val (starts k) + val (steps k) * (i : ℚ))
      fun k => ((val (steps k) : ℚ) : ℝ) := fun k i _ => by push_cast; linarith
  have e5 : (1 : ℝ) + ((1 : ℚ) : ℝ) ^ 2 / (2 * (1 + ((1 : ℚ) : ℝ))) = 5 / 4 := by norm_num
  have e6 : ((1 : ℝ) + 9 * (((1 : ℚ) : ℝ) ^ 2 / (4 * (1 + ((1 : ℚ) : ℝ))))) / 6 = 17 / 48 := by norm_num
  refine ⟨r, b1, b2, fun D hD => ?_, fun ω hω => ?_⟩
  · have h5 := cubic_total .flat he false _ _ lin hG F D _ hD hcell 1 (meshRatio_regular _ _ _) ε g hg hε _
      hin y b3
    rw [e5, e6] at h5
    exact (add_rounding b4 h5).trans_eq (by push_cast; ring)
  · have h5 := cubic_modulus .flat he false _ _ lin hG F _ ω ε hω hcell 1 (meshRatio_regular _ _ _) g hg hε
      _ hin y b3
    rw [e5] at h5
    exact (add_rounding b4 h5).trans_eq (by push_cast; ring)

/-- C140, class `MulticubicRectilinear` with `float32` values. -/
theorem C140_multicubic_rectilinear_f32 (np : Numpy F32 F64 X) (fma lin : Bool) (h1 : 1 ≤ N) (h8 : N ≤ 8)
    (grids : Fin N → List F32) (vals : List F32)
    (hG : (Axes.rectilinear fun k => (grids k).map val).Valid 4 (vals.map val))
    (grids' : List (NpArray F32 F64 X)) (hgr : grids'.map (fun g => g.values32 np) = List.ofFn grids)
    (vals' : NpArray F32 F64 X) (hv64 : ∀ d, vals' ≠ .f64 d) (hv : vals'.values32 np = vals)
    (hgrid : ∀ k, ∀ a ∈ grids k, Finite a ∧ |val a| ≤ 2 ^ 126)
    (M : ℚ) (hM : M ≤ 2 ^ 40) (hM1 : 1 / 2 ^ 126 ≤ M) (hvals : ∀ v ∈ vals, Finite v ∧ |val v| ≤ M)
    (ρ : ℚ) (hρ : 1 ≤ ρ) (hρ2 : ρ ≤ 2 ^ 9)
    (hmesh : ∀ k, MeshRatio (grids k).length (fun i => ((grids k).map val).getD i 0) ρ)
    (F : (Fin N → ℝ) → ℝ) (h : Fin N → ℝ) (ε : ℝ)
    (hh : CellsAtMost (fun k => (grids k).length) (fun k i => ((grids k).map val).getD i 0) h)
    (htab : TableOf (fun k => (grids k).length) (fun k i => ((grids k).map val).getD i 0) F ε vals)
    (obs : Fin N → List F32) (n : Nat)
    (hobs : ∀ k, (obs k).length = n ∧ ∀ a ∈ obs k, Finite a ∧
      InRange (grids k).length (fun i => ((grids k).map val).getD i 0) (val a)) :
    ∃ m res, RectilinearObj.new np (.multicubic lin) grids' vals' = .ok m ∧
      m.eval np fma ((List.ofFn obs).map .f32) none = .ok (.f32 res) ∧ res.length = n ∧
      ∀ i pt, PointAt obs i pt → ∃ r, res[i]? = some r ∧ Finite r ∧
        (∀ D, ThirdDerivsOn (fun k => (grids k).length) (fun k i => ((grids k).map val).getD i 0)
            F D → |((val r : ℚ) : ℝ) - F fun k => ((val (pt k) : ℚ) : ℝ)| ≤
            (1 + (ρ : ℝ) ^ 2 / (2 * (1 + ρ))) ^ (N - 1) * ∑ k, (1 + 9 * ((ρ : ℝ) ^ 2 / (4 * (1 + ρ)))) / 6 * (D k * h k ^ 3) +
            (1 + (ρ : ℝ) ^ 2 / (2 * (1 + ρ))) ^ N * ε +
            3200 * N * ρ * (1 / 2 ^ 24) * (1 + (ρ : ℝ) ^ 2 / (2 * (1 + ρ))) ^ N * M) ∧
        ∀ ω, VariesAtMost (fun k => (grids k).length) (fun k i => ((grids k).map val).getD i 0)
            F (fun k => 2 * h k) ω →
          |((val r : ℚ) : ℝ) - F fun k => ((val (pt k) : ℚ) : ℝ)| ≤
            (1 + (ρ : ℝ) ^ 2 / (2 * (1 + ρ))) ^ N * (ω + ε) +
            3200 * N * ρ * (1 / 2 ^ 24) * (1 + (ρ : ℝ) ^ 2 / (2 * (1 + ρ))) ^ N * M := by
  obtain ⟨m, res, a1, a2, a3, a4⟩ := C104_multicubic_rectilinear_f32 np fma lin h1 h8 grids vals hG grids' hgr vals' hv64 hv hgrid M hM hM1 hvals ρ hρ hρ2 hmesh obs n hobs
  obtain ⟨g, hg, hε⟩ := htab.samples
  refine ⟨m, res, a1, a2, a3, fun i pt hpt => ?_⟩
  obtain ⟨r, b1, b2, y, b3, b4⟩ := a4 i pt hpt
  have hin : ∀ k, InRange (grids k).length (fun i => ((grids k).map val).getD i 0)
      (val (pt k)) := fun k => ((hobs k).2 _ (List.mem_of_getElem? (hpt k))).2
  have he : Evaluator.flat.Fits N := show 0 < N by omega
  have hsz : (Axes.rectilinear fun k => (grids k).map val : Axes ℚ N).size =
      fun k => (grids k).length := funext fun k => by simp [Axes.size]
  refine ⟨r, b1, b2, fun D hD => (add_rounding b4 (cubic_total .flat he false _ _ lin hG F D h ?_ ?_ ρ ?_ ε
    g ?_ ?_ _ ?_ y b3)).trans_eq (by push_cast; ring), fun ω hω => (add_rounding b4 (cubic_modulus
    .flat he false _ _ lin hG F h ω ε ?_ ?_ ρ ?_ g ?_ ?_ _ ?_ y b3)).trans_eq (by push_cast; ring)⟩
  · rw [hsz]; exact hD
  · rw [hsz]; exact hh
  · rw [hsz]; exact hmesh
  · rw [hsz]; exact hg
  · rw [hsz]; exact hε
  · rw [hsz]; exact hin
  · rw [hsz]; exact hω
  · rw [hsz]; exact hh
  · rw [hsz]; exact hmesh
  · rw [hsz]; exact hg
  · rw [hsz]; exact hε
  · rw [hsz]; exact hin

end

/-! ### Concrete cases -/

/-- Hypotheses of `C140_multilinear_regular_f64` are satisfied: a function with kinks. -/
example : ∃ m res r, RegularObj.new ieeeNumpy .multilinear [3, 2] (.f64 [q64 (1 / 10), q64 1])
      (.f64 [q64 (1 / 10), q64 2]) (.f64 exAbsTabR64) = .ok m ∧
    m.eval ieeeNumpy true [.f64 [q64 (2 / 7)], .f64 [q64 (5 / 3)]] none = .ok (.f64 res) ∧ res[0]? = some r ∧
    |((val r : ℚ) : ℝ) - exAbs fun k => ((val (![q64 (2 / 7), q64 (5 / 3)] k) : ℚ) : ℝ)| ≤
      11 / 100 + 2 + 1 / 10 ^ 8 := by
  obtain ⟨m, res, h1, h2, -, h4⟩ := C140_multilinear_regular_f64 (N := 2) ieeeNumpy true (by norm_num)
    (by norm_num) 20 (by norm_num) (by norm_num) ![3, 2] ![q64 (1 / 10), q64 1] ![q64 (1 / 10), q64 2]
    exAbsTabR64 (valid_of_check (by decide +kernel)) (.f64 [q64 (1 / 10), q64 1])
    (.f64 [q64 (1 / 10), q64 2]) (by decide +kernel) (by decide +kernel)
    (by decide +kernel) (by decide +kernel) (by decide +kernel) (by decide +kernel) 6 (by norm_num)
    (by decide +kernel) exAbs ((1 / 10 ^ 15 : ℚ) : ℝ)
    (tableOf_of_check (Fq := fun q => |q 0 - 1 / 4| + |q 1 - 2|) exAbs_rat
      (by decide +kernel))
    ![[q64 (2 / 7)], [q64 (5 / 3)]] 1 (by unfold InRange; decide +kernel)
  obtain ⟨r, a1, -, -, a3⟩ := h4 0 ![q64 (2 / 7), q64 (5 / 3)] (by unfold PointAt; decide +kernel)
  refine ⟨m, res, r, h1, h2, a1, (a3 _ exAbs_varies).trans ?_⟩
  have s1 : ((val (q64 (1 / 10)) : ℚ) : ℝ) ≤ 11 / 100 := by
    have h : val (q64 (1 / 10)) ≤ 11 / 100 := by decide +kernel
    have := (Rat.cast_le (K := ℝ)).2 h
    push_cast at this
    exact this
  have s2 : ((val (q64 2) : ℚ) : ℝ) = 2 := by
    have h : val (q64 2) = 2 := by decide +kernel
    rw [h]; norm_num
  simp only [Matrix.cons_val_zero, Matrix.cons_val_one, s2]
  norm_num
  linarith

/-- Hypotheses of `C140_multilinear_rectilinear_f64` are satisfied: a function with kinks. -/
example : ∃ m res r, RectilinearObj.new ieeeNumpy .multilinear [.f64 (exGrids64 0), .f64 (exGrids64 1)]
      (.f64 exAbsTab64) = .ok m ∧
    m.eval ieeeNumpy true [.f64 [q64 (1 / 3)], .f64 [q64 (5 / 3)]] none = .ok (.f64 res) ∧ res[0]? = some r ∧
    |((val r : ℚ) : ℝ) - exAbs fun k => ((val (![q64 (1 / 3), q64 (5 / 3)] k) : ℚ) : ℝ)| ≤
      391 / 100 + 2 + 1 / 10 ^ 8 := by
  obtain ⟨m, res, h1, h2, -, h4⟩ := C140_multilinear_rectilinear_f64 (N := 2) ieeeNumpy true (by norm_num)
    (by norm_num) exGrids64 exAbsTab64 (valid_of_check (by decide +kernel))
    [.f64 (exGrids64 0), .f64 (exGrids64 1)] (by decide +kernel)
    (by decide +kernel) 6 (by norm_num) (by decide +kernel) exAbs _
    ((1 / 10 ^ 15 : ℚ) : ℝ) (cells_of_check (a := 391 / 100) (b := 2) (by decide +kernel))
    (tableOf_of_check (Fq := fun q => |q 0 - 1 / 4| + |q 1 - 2|) exAbs_rat
      (by decide +kernel))
    ![[q64 (1 / 3)], [q64 (5 / 3)]] 1 (by unfold InRange; decide +kernel)
  obtain ⟨r, a1, -, -, a3⟩ := h4 0 ![q64 (1 / 3), q64 (5 / 3)] (by unfold PointAt; decide +kernel)
  refine ⟨m, res, r, h1, h2, a1, (a3 _ exAbs_varies).trans ?_⟩
  norm_num

/-- Hypotheses of `C140_multicubic_regular_f64` are satisfied: a function with kinks. -/
example : ∃ m res r, RegularObj.new ieeeNumpy (.multicubic true) [4, 5] (.f64 [q64 (1 / 10), q64 0])
      (.f64 [q64 (1 / 10), q64 1]) (.f64 exAbsTabS64) = .ok m ∧
    m.eval ieeeNumpy true [.f64 [q64 (2 / 7)], .f64 [q64 (5 / 3)]] none = .ok (.f64 res) ∧ res[0]? = some r ∧
    |((val r : ℚ) : ℝ) - exAbs fun k => ((val (![q64 (2 / 7), q64 (5 / 3)] k) : ℚ) : ℝ)| ≤
      (5 / 4) ^ 2 * (2 * (11 / 100) + 2 * 1) + 1 / 10 ^ 8 := by
  obtain ⟨m, res, h1, h2, -, h4⟩ := C140_multicubic_regular_f64 (N := 2) ieeeNumpy true true (by norm_num)
    (by norm_num) 20 (by norm_num) (by norm_num) ![4, 5] ![q64 (1 / 10), q64 0] ![q64 (1 / 10), q64 1]
    exAbsTabS64 (valid_of_check (by decide +kernel)) (.f64 [q64 (1 / 10), q64 0])
    (.f64 [q64 (1 / 10), q64 1]) (by decide +kernel) (by decide +kernel)
    (by decide +kernel) (by decide +kernel) (by decide +kernel) (by decide +kernel) 6 (by norm_num)
    (by norm_num) (by decide +kernel) exAbs ((1 / 10 ^ 15 : ℚ) : ℝ)
    (tableOf_of_check (Fq := fun q => |q 0 - 1 / 4| + |q 1 - 2|) exAbs_rat
      (by decide +kernel))
    ![[q64 (2 / 7)], [q64 (5 / 3)]] 1 (by unfold InRange; decide +kernel)
  obtain ⟨r, a1, -, -, a3⟩ := h4 0 ![q64 (2 / 7), q64 (5 / 3)] (by unfold PointAt; decide +kernel)
  refine ⟨m, res, r, h1, h2, a1, (a3 _ exAbs_varies).trans ?_⟩
  have s1 : ((val (q64 (1 / 10)) : ℚ) : ℝ) ≤ 11 / 100 := by
    have h : val (q64 (1 / 10)) ≤ 11 / 100 := by decide +kernel
    have := (Rat.cast_le (K := ℝ)).2 h
    push_cast at this
    exact this
  have s2 : ((val (q64 1) : ℚ) : ℝ) = 1 := by
    have h : val (q64 1) = 1 := by decide +kernel
    rw [h]; norm_num
  simp only [Matrix.cons_val_zero, Matrix.cons_val_one, s2]
  norm_num
  linarith

/-- Hypotheses of `C140_multicubic_rectilinear_f64` are satisfied: a function with kinks. -/
example : ∃ m res r, RectilinearObj.new ieeeNumpy (.multicubic true) [.f64 (exGrids64c 0), .f64 (exGrids64c 1)]
      (.f64 exAbsTabC64) = .ok m ∧
    m.eval ieeeNumpy true [.f64 [q64 (1 / 3)], .f64 [q64 (5 / 3)]] none = .ok (.f64 res) ∧ res[0]? = some r ∧
    |((val r : ℚ) : ℝ) - exAbs fun k => ((val (![q64 (1 / 3), q64 (5 / 3)] k) : ℚ) : ℝ)| ≤
      (5 / 3) ^ 2 * 6 + 1 / 10 ^ 8 := by
  obtain ⟨m, res, h1, h2, -, h4⟩ := C140_multicubic_rectilinear_f64 (N := 2) ieeeNumpy true true (by norm_num)
    (by norm_num) exGrids64c exAbsTabC64 (valid_of_check (by decide +kernel))
    [.f64 (exGrids64c 0), .f64 (exGrids64c 1)] (by decide +kernel)
    (by decide +kernel) 6 (by norm_num) (by norm_num) (by decide +kernel) 2 (by norm_num) (by norm_num)
    (fun k => meshRatio_of_check (by revert k; decide +kernel)) exAbs _
    ((0 : ℚ) : ℝ) (cells_of_check (a := 2) (b := 1) (by decide +kernel))
    (tableOf_of_check (Fq := fun q => |q 0 - 1 / 4| + |q 1 - 2|) exAbs_rat
      (by decide +kernel))
    ![[q64 (1 / 3)], [q64 (5 / 3)]] 1 (by unfold InRange; decide +kernel)
  obtain ⟨r, a1, -, -, a3⟩ := h4 0 ![q64 (1 / 3), q64 (5 / 3)] (by unfold PointAt; decide +kernel)
  refine ⟨m, res, r, h1, h2, a1, (a3 _ exAbs_varies).trans ?_⟩
  norm_num

/-- Hypotheses of `C140_multilinear_regular_f32` are satisfied: a function with kinks. -/
example : ∃ m res r, RegularObj.new ieeeNumpy .multilinear [3, 2] (.f64 [q64 (1 / 10), q64 1])
      (.f64 [q64 (1 / 10), q64 2]) (.f32 exAbsTabR32) = .ok m ∧
    m.eval ieeeNumpy true [.f32 [q32 (2 / 7)], .f32 [q32 (5 / 3)]] none = .ok (.f32 res) ∧ res[0]? = some r ∧
    |((val r : ℚ) : ℝ) - exAbs fun k => ((val (![q32 (2 / 7), q32 (5 / 3)] k) : ℚ) : ℝ)| ≤
      11 / 100 + 2 + 1 := by
  obtain ⟨m, res, h1, h2, -, h4⟩ := C140_multilinear_regular_f32 (N := 2) ieeeNumpy true (by norm_num)
    (by norm_num) 20 (by norm_num) (by norm_num) ![3, 2] ![q32 (1 / 10), q32 1] ![q32 (1 / 10), q32 2]
    exAbsTabR32 (valid_of_check (by decide +kernel)) (.f64 [q64 (1 / 10), q64 1])
    (.f64 [q64 (1 / 10), q64 2]) (by decide +kernel) (by decide +kernel) (.f32 exAbsTabR32) (fun _ => nofun) rfl
    (by decide +kernel) (by decide +kernel) (by decide +kernel) (by decide +kernel) 6 (by norm_num)
    (by decide +kernel) exAbs ((1 / 10 ^ 6 : ℚ) : ℝ)
    (tableOf_of_check (Fq := fun q => |q 0 - 1 / 4| + |q 1 - 2|) exAbs_rat
      (by decide +kernel))
    ![[q32 (2 / 7)], [q32 (5 / 3)]] 1 (by unfold InRange; decide +kernel)
  obtain ⟨r, a1, -, -, a3⟩ := h4 0 ![q32 (2 / 7), q32 (5 / 3)] (by unfold PointAt; decide +kernel)
  refine ⟨m, res, r, h1, h2, a1, (a3 _ exAbs_varies).trans ?_⟩
  have s1 : ((val (q32 (1 / 10)) : ℚ) : ℝ) ≤ 11 / 100 := by
    have h : val (q32 (1 / 10)) ≤ 11 / 100 := by decide +kernel
    have := (Rat.cast_le (K := ℝ)).2 h
    push_cast at this
    exact this
  have s2 : ((val (q32 2) : ℚ) : ℝ) = 2 := by
    have h : val (q32 2) = 2 := by decide +kernel
    rw [h]; norm_num
  simp only [Matrix.cons_val_zero, Matrix.cons_val_one, s2]
  norm_num
  linarith

/-- Hypotheses of `C140_multilinear_rectilinear_f32` are satisfied: a function with kinks. -/
example : ∃ m res r, RectilinearObj.new ieeeNumpy .multilinear [.f32 (exGrids32 0), .f32 (exGrids32 1)]
      (.f32 exAbsTab32) = .ok m ∧
    m.eval ieeeNumpy true [.f32 [q32 (1 / 3)], .f32 [q32 (5 / 3)]] none = .ok (.f32 res) ∧ res[0]? = some r ∧
    |((val r : ℚ) : ℝ) - exAbs fun k => ((val (![q32 (1 / 3), q32 (5 / 3)] k) : ℚ) : ℝ)| ≤
      391 / 100 + 2 + 1 := by
  obtain ⟨m, res, h1, h2, -, h4⟩ := C140_multilinear_rectilinear_f32 (N := 2) ieeeNumpy true (by norm_num)
    (by norm_num) exGrids32 exAbsTab32 (valid_of_check (by decide +kernel))
    [.f32 (exGrids32 0), .f32 (exGrids32 1)] (by decide +kernel) (.f32 exAbsTab32) (fun _ => nofun) rfl
    (by decide +kernel) 6 (by norm_num) (by decide +kernel) exAbs _
    ((1 / 10 ^ 6 : ℚ) : ℝ) (cells_of_check (a := 391 / 100) (b := 2) (by decide +kernel))
    (tableOf_of_check (Fq := fun q => |q 0 - 1 / 4| + |q 1 - 2|) exAbs_rat
      (by decide +kernel))
    ![[q32 (1 / 3)], [q32 (5 / 3)]] 1 (by unfold InRange; decide +kernel)
  obtain ⟨r, a1, -, -, a3⟩ := h4 0 ![q32 (1 / 3), q32 (5 / 3)] (by unfold PointAt; decide +kernel)
  refine ⟨m, res, r, h1, h2, a1, (a3 _ exAbs_varies).trans ?_⟩
  norm_num

/-- Hypotheses of `C140_multicubic_regular_f32` are satisfied: a function with kinks. -/
example : ∃ m res r, RegularObj.new ieeeNumpy (.multicubic true) [4, 5] (.f64 [q64 (1 / 10), q64 0])
      (.f64 [q64 (1 / 10), q64 1]) (.f32 exAbsTabS32) = .ok m ∧
    m.eval ieeeNumpy true [.f32 [q32 (2 / 7)], .f32 [q32 (5 / 3)]] none = .ok (.f32 res) ∧ res[0]? = some r ∧
    |((val r : ℚ) : ℝ) - exAbs fun k => ((val (![q32 (2 / 7), q32 (5 / 3)] k) : ℚ) : ℝ)| ≤
      (5 / 4) ^ 2 * (2 * (11 / 100) + 2 * 1) + 1 := by
  obtain ⟨m, res, h1, h2, -, h4⟩ := C140_multicubic_regular_f32 (N := 2) ieeeNumpy true true (by norm_num)
    (by norm_num) 20 (by norm_num) (by norm_num) ![4, 5] ![q32 (1 / 10), q32 0] ![q32 (1 / 10), q32 1]
    exAbsTabS32 (valid_of_check (by decide +kernel)) (.f64 [q64 (1 / 10), q64 0])
    (.f64 [q64 (1 / 10), q64 1]) (by decide +kernel) (by decide +kernel) (.f32 exAbsTabS32) (fun _ => nofun) rfl
    (by decide +kernel) (by decide +kernel) (by decide +kernel) (by decide +kernel) 6 (by norm_num)
    (by norm_num) (by decide +kernel) exAbs ((1 / 10 ^ 6 : ℚ) : ℝ)
    (tableOf_of_check (Fq := fun q => |q 0 - 1 / 4| + |q 1 - 2|) exAbs_rat
      (by decide +kernel))
    ![[q32 (2 / 7)], [q32 (5 / 3)]] 1 (by unfold InRange; decide +kernel)
  obtain ⟨r, a1, -, -, a3⟩ := h4 0 ![q32 (2 / 7), q32 (5 / 3)] (by unfold PointAt; decide +kernel)
  refine ⟨m, res, r, h1, h2, a1, (a3 _ exAbs_varies).trans ?_⟩
  have s1 : ((val (q32 (1 / 10)) : ℚ) : ℝ) ≤ 11 / 100 := by
    have h : val (q32 (1 / 10)) ≤ 11 / 100 := by decide +kernel
    have := (Rat.cast_le (K := ℝ)).2 h
    push_cast at this
    exact this
  have s2 : ((val (q32 1) : ℚ) : ℝ) = 1 := by
    have h : val (q32 1) = 1 := by decide +kernel
    rw [h]; norm_num
  simp only [Matrix.cons_val_zero, Matrix.cons_val_one, s2]
  norm_num
  linarith

/-- Hypotheses of `C140_multicubic_rectilinear_f32` are satisfied: a function with kinks. -/
example : ∃ m res r, RectilinearObj.new ieeeNumpy (.multicubic true) [.f32 (exGrids32c 0), .f32 (exGrids32c 1)]
      (.f32 exAbsTabC32) = .ok m ∧
    m.eval ieeeNumpy true [.f32 [q32 (1 / 3)], .f32 [q32 (5 / 3)]] none = .ok (.f32 res) ∧ res[0]? = some r ∧
    |((val r : ℚ) : ℝ) - exAbs fun k => ((val (![q32 (1 / 3), q32 (5 / 3)] k) : ℚ) : ℝ)| ≤
      (5 / 3) ^ 2 * 6 + 1 := by
  obtain ⟨m, res, h1, h2, -, h4⟩ := C140_multicubic_rectilinear_f32 (N := 2) ieeeNumpy true true (by norm_num)
    (by norm_num) exGrids32c exAbsTabC32 (valid_of_check (by decide +kernel))
    [.f32 (exGrids32c 0), .f32 (exGrids32c 1)] (by decide +kernel) (.f32 exAbsTabC32) (fun _ => nofun) rfl
    (by decide +kernel) 6 (by norm_num) (by norm_num) (by decide +kernel) 2 (by norm_num) (by norm_num)
    (fun k => meshRatio_of_check (by revert k; decide +kernel)) exAbs _
    ((0 : ℚ) : ℝ) (cells_of_check (a := 2) (b := 1) (by decide +kernel))
    (tableOf_of_check (Fq := fun q => |q 0 - 1 / 4| + |q 1 - 2|) exAbs_rat
      (by decide +kernel))
    ![[q32 (1 / 3)], [q32 (5 / 3)]] 1 (by unfold InRange; decide +kernel)
  obtain ⟨r, a1, -, -, a3⟩ := h4 0 ![q32 (1 / 3), q32 (5 / 3)] (by unfold PointAt; decide +kernel)
  refine ⟨m, res, r, h1, h2, a1, (a3 _ exAbs_varies).trans ?_⟩
  norm_num

/-! ### Nearest neighbour -/

section
variable {N : Nat} {X : Type}

/-- C140, class `NearestRegular` with `float64` values: no rounding term. -/
theorem C140_nearest_regular_f64 (np : Numpy F32 F64 X) (fma : Bool) (h1 : 1 ≤ N) (h6 : N ≤ 6)
    (κ : ℚ) (hκ : 0 ≤ κ) (hN : 100 * (1 + κ) ≤ 2 ^ 53)
    (dims : Fin N → Nat) (starts steps : Fin N → F64) (vals : List F64)
    (hG : (Axes.regular dims (fun k => val (starts k)) fun k => val (steps k)).Valid 2
      (vals.map val))
    (starts' steps' : NpArray F32 F64 X) (hst : starts'.values64 np = List.ofFn starts)
    (hsp : steps'.values64 np = List.ofFn steps)
    (hfin : ∀ k, Finite (starts k) ∧ Finite (steps k)) (hnormal : ∀ k, 1 / 2 ^ 1022 ≤ val (steps k))
    (hnodes : ∀ k, |val (starts k)| ≤ κ * val (steps k) ∧
      |val (starts k) + val (steps k) * ((dims k - 1 : Nat) : ℚ)| ≤ κ * val (steps k))
    (hlarge : ∀ k, κ * val (steps k) ≤ 2 ^ 1020)
    (hvals : ∀ v ∈ vals, Finite v) (F : (Fin N → ℝ) → ℝ) (ε : ℝ)
    (htab : TableOf dims (fun k i => val (starts k) + val (steps k) * (i : ℚ)) F ε vals)
    (obs : Fin N → List F64) (n : Nat)
    (hobs : ∀ k, (obs k).length = n ∧ ∀ a ∈ obs k, Finite a ∧
      InRange (dims k) (fun i => val (starts k) + val (steps k) * (i : ℚ)) (val a)) :
    ∃ m res, RegularObj.new np .nearest ((List.ofFn dims).map fun d : Nat => (d : Int))
        starts' steps' (.f64 vals) = .ok m ∧
      m.eval np fma ((List.ofFn obs).map .f64) none = .ok (.f64 res) ∧ res.length = n ∧
      ∀ i pt, PointAt obs i pt → ∃ r ∈ vals, res[i]? = some r ∧ Finite r ∧
        ∀ ω, VariesAtMost dims (fun k i => val (starts k) + val (steps k) * (i : ℚ))
            F (fun k => ((val (steps k) : ℚ) : ℝ)) ω →
          |((val r : ℚ) : ℝ) - F fun k => ((val (pt k) : ℚ) : ℝ)| ≤ ω + ε := by
  have hlen : vals.length = ∏ k, dims k := by simpa [Axes.size] using hG.len
  have hs := samples_valAt (.nan : F64) dims vals hlen
  obtain ⟨m, res, a1, a2, a3, a4⟩ := C104_nearest_regular_f64 np fma h1 h6 κ hκ hN dims starts steps vals hG starts' steps' hst hsp hfin hnormal hnodes hlarge _ hs obs n hobs
  refine ⟨m, res, a1, a2, a3, fun i pt hpt => ?_⟩
  obtain ⟨r, b1, loc, rfl, b2⟩ := a4 i pt hpt
  have hin : ∀ k, InRange (dims k) (fun i => val (starts k) + val (steps k) * (i : ℚ))
      (val (pt k)) := fun k => ((hobs k).2 _ (List.mem_of_getElem? (hpt k))).2
  have hlt : ∀ k, loc k < dims k := fun k => (b2 k).1
  have hget := hs loc hlt
  obtain ⟨v, hv1, hv2⟩ := htab loc hlt
  rw [hget] at hv1
  cases hv1
  refine ⟨_, List.mem_of_getElem? hget, b1, hvals _ (List.mem_of_getElem? hget), fun ω hω =>
    near_node hG hω hin (loc := loc) hlt (fun k => ?_) hv2⟩
  have hk : (1 + κ) * (1 / 2 ^ 53) ≤ 1 / 100 := by
    rw [mul_one_div, div_le_iff₀ (by norm_num)]; linarith
  obtain ⟨c, hc⟩ := hG.cells le_rfl fun k => val (pt k)
  have hs0 : 0 ≤ val (steps k) := le_trans (by norm_num) (hnormal k)
  have h3 := mul_le_mul_of_nonneg_right hk hs0
  exact step_near (hc k) (hin k) (by linarith) (b2 k)

/-- C140, class `NearestRectilinear` with `float64` values: no rounding term. -/
theorem C140_nearest_rectilinear_f64 (np : Numpy F32 F64 X) (fma : Bool) (h1 : 1 ≤ N) (h6 : N ≤ 6)
    (grids : Fin N → List F64) (vals : List F64)
    (hG : (Axes.rectilinear fun k => (grids k).map val).Valid 2 (vals.map val))
    (grids' : List (NpArray F32 F64 X)) (hgr : grids'.map (fun g => g.values64 np) = List.ofFn grids)
    (hgrid : ∀ k, ∀ a ∈ grids k, Finite a ∧ |val a| ≤ 2 ^ 1022)
    (hvals : ∀ v ∈ vals, Finite v) (F : (Fin N → ℝ) → ℝ) (h : Fin N → ℝ) (ε : ℝ)
    (hh : CellsAtMost (fun k => (grids k).length) (fun k i => ((grids k).map val).getD i 0) h)
    (htab : TableOf (fun k => (grids k).length) (fun k i => ((grids k).map val).getD i 0) F ε vals)
    (obs : Fin N → List F64) (n : Nat)
    (hobs : ∀ k, (obs k).length = n ∧ ∀ a ∈ obs k, Finite a ∧
      InRange (grids k).length (fun i => ((grids k).map val).getD i 0) (val a)) :
    ∃ m res, RectilinearObj.new np .nearest grids' (.f64 vals) = .ok m ∧
      m.eval np fma ((List.ofFn obs).map .f64) none = .ok (.f64 res) ∧ res.length = n ∧
      ∀ i pt, PointAt obs i pt → ∃ r ∈ vals, res[i]? = some r ∧ Finite r ∧
        ∀ ω, VariesAtMost (fun k => (grids k).length) (fun k i => ((grids k).map val).getD i 0)
            F h ω →
          |((val r : ℚ) : ℝ) - F fun k => ((val (pt k) : ℚ) : ℝ)| ≤ ω + ε := by
  have hsz : (Axes.rectilinear fun k => (grids k).map val : Axes ℚ N).size =
      fun k => (grids k).length := funext fun k => by simp [Axes.size]
  have hlen : vals.length = ∏ k, (grids k).length := by
    have := hG.len
    rw [hsz] at this
    simpa using this
  have hs := samples_valAt (.nan : F64) (fun k => (grids k).length) vals hlen
  obtain ⟨m, res, a1, a2, a3, a4⟩ := C104_nearest_rectilinear_f64 np fma h1 h6 grids vals hG grids' hgr hgrid _ hs obs n hobs
  refine ⟨m, res, a1, a2, a3, fun i pt hpt => ?_⟩
  obtain ⟨r, b1, loc, rfl, b2⟩ := a4 i pt hpt
  have hin : ∀ k, InRange (grids k).length (fun i => ((grids k).map val).getD i 0)
      (val (pt k)) := fun k => ((hobs k).2 _ (List.mem_of_getElem? (hpt k))).2
  have hlt : ∀ k, loc k < (grids k).length := fun k => by
    obtain ⟨_, _, _, h⟩ := b2 k
    exact h.1
  have hget := hs loc hlt
  obtain ⟨v, hv1, hv2⟩ := htab loc hlt
  rw [hget] at hv1
  cases hv1
  refine ⟨_, List.mem_of_getElem? hget, b1, hvals _ (List.mem_of_getElem? hget), fun ω hω =>
    near_node hG (by rw [hsz]; exact hω) (by rw [hsz]; exact hin) (loc := loc) (by rw [hsz]; exact hlt)
      (fun k => ?_) hv2⟩
  obtain ⟨c, hc, hcl, -⟩ := b2 k
  exact corner_near hc (hin k) (hh k _ hc.1) hcl

/-- C140, class `NearestRegular` with `float32` values: no rounding term. -/
theorem C140_nearest_regular_f32 (np : Numpy F32 F64 X) (fma : Bool) (h1 : 1 ≤ N) (h6 : N ≤ 6)
    (κ : ℚ) (hκ : 0 ≤ κ) (hN : 100 * (1 + κ) ≤ 2 ^ 24)
    (dims : Fin N → Nat) (starts steps : Fin N → F32) (vals : List F32)
    (hG : (Axes.regular dims (fun k => val (starts k)) fun k => val (steps k)).Valid 2
      (vals.map val))
    (starts' steps' : NpArray F32 F64 X) (hst : starts'.values32 np = List.ofFn starts)
    (hsp : steps'.values32 np = List.ofFn steps)
    (vals' : NpArray F32 F64 X) (hv64 : ∀ d, vals' ≠ .f64 d) (hv : vals'.values32 np = vals)
    (hfin : ∀ k, Finite (starts k) ∧ Finite (steps k)) (hnormal : ∀ k, 1 / 2 ^ 126 ≤ val (steps k))
    (hnodes : ∀ k, |val (starts k)| ≤ κ * val (steps k) ∧
      |val (starts k) + val (steps k) * ((dims k - 1 : Nat) : ℚ)| ≤ κ * val (steps k))
    (hlarge : ∀ k, κ * val (steps k) ≤ 2 ^ 124)
    (hvals : ∀ v ∈ vals, Finite v) (F : (Fin N → ℝ) → ℝ) (ε : ℝ)
    (htab : TableOf dims (fun k i => val (starts k) + val (steps k) * (i : ℚ)) F ε vals)
    (obs : Fin N → List F32) (n : Nat)
    (hobs : ∀ k, (obs k).length = n ∧ ∀ a ∈ obs k, Finite a ∧
      InRange (dims k) (fun i => val (starts k) + val (steps k) * (i : ℚ)) (val a)) :
    ∃ m res, RegularObj.new np .nearest ((List.ofFn dims).map fun d : Nat => (d : Int))
        starts' steps' vals' = .ok m ∧
      m.eval np fma ((List.ofFn obs).map .f32) none = .ok (.f32 res) ∧ res.length = n ∧
      ∀ i pt, PointAt obs i pt → ∃ r ∈ vals, res[i]? = some r ∧ Finite r ∧
        ∀ ω, VariesAtMost dims (fun k i => val (starts k) + val (steps k) * (i : ℚ))
            F (fun k => ((val (steps k) : ℚ) : ℝ)) ω →
          |((val r : ℚ) : ℝ) - F fun k => ((val (pt k) : ℚ) : ℝ)| ≤ ω + ε := by
  have hlen : vals.length = ∏ k, dims k := by simpa [Axes.size] using hG.len
  have hs := samples_valAt (.nan : F32) dims vals hlen
  obtain ⟨m, res, a1, a2, a3, a4⟩ := C104_nearest_regular_f32 np fma h1 h6 κ hκ hN dims starts steps vals hG starts' steps' hst hsp vals' hv64 hv hfin hnormal hnodes hlarge _ hs obs n hobs
  refine ⟨m, res, a1, a2, a3, fun i pt hpt => ?_⟩
  obtain ⟨r, b1, loc, rfl, b2⟩ := a4 i pt hpt
  have hin : ∀ k, InRange (dims k) (fun i => val (starts k) + val (steps k) * (i : ℚ))
      (val (pt k)) := fun k => ((hobs k).2 _ (List.mem_of_getElem? (hpt k))).2
  have hlt : ∀ k, loc k < dims k := fun k => (b2 k).1
  have hget := hs loc hlt
  obtain ⟨v, hv1, hv2⟩ := htab loc hlt
  rw [hget] at hv1
  cases hv1
  refine ⟨_, List.mem_of_getElem? hget, b1, hvals _ (List.mem_of_getElem? hget), fun ω hω =>
    near_node hG hω hin (loc := loc) hlt (fun k => ?_) hv2⟩
  have hk : (1 + κ) * (1 / 2 ^ 24) ≤ 1 / 100 := by
    rw [mul_one_div, div_le_iff₀ (by norm_num)]; linarith
  obtain ⟨c, hc⟩ := hG.cells le_rfl fun k => val (pt k)
  have hs0 : 0 ≤ val (steps k) := le_trans (by norm_num) (hnormal k)
  have h3 := mul_le_mul_of_nonneg_right hk hs0
  exact step_near (hc k) (hin k) (by linarith) (b2 k)

/-- C140, class `NearestRectilinear` with `float32` values: no rounding term. -/
theorem C140_nearest_rectilinear_f32 (np : Numpy F32 F64 X) (fma : Bool) (h1 : 1 ≤ N) (h6 : N ≤ 6)
    (grids : Fin N → List F32) (vals : List F32)
    (hG : (Axes.rectilinear fun k => (grids k).map val).Valid 2 (vals.map val))
    (grids' : List (NpArray F32 F64 X)) (hgr : grids'.map (fun g => g.values32 np) = List.ofFn grids)
    (vals' : NpArray F32 F64 X) (hv64 : ∀ d, vals' ≠ .f64 d) (hv : vals'.values32 np = vals)
    (hgrid : ∀ k, ∀ a ∈ grids k, Finite a ∧ |val a| ≤ 2 ^ 126)
    (hvals : ∀ v ∈ vals, Finite v) (F : (Fin N → ℝ) → ℝ) (h : Fin N → ℝ) (ε : ℝ)
    (hh : CellsAtMost (fun k => (grids k).length) (fun k i => ((grids k).map val).getD i 0) h)
    (htab : TableOf (fun k => (grids k).length) (fun k i => ((grids k).map val).getD i 0) F ε vals)
    (obs : Fin N → List F32) (n : Nat)
    (hobs : ∀ k, (obs k).length = n ∧ ∀ a ∈ obs k, Finite a ∧
      InRange (grids k).length (fun i => ((grids k).map val).getD i 0) (val a)) :
    ∃ m res, RectilinearObj.new np .nearest grids' vals' = .ok m ∧
      m.eval np fma ((List.ofFn obs).map .f32) none = .ok (.f32 res) ∧ res.length = n ∧
      ∀ i pt, PointAt obs i pt → ∃ r ∈ vals, res[i]? = some r ∧ Finite r ∧
        ∀ ω, VariesAtMost (fun k => (grids k).length) (fun k i => ((grids k).map val).getD i 0)
            F h ω →
          |((val r : ℚ) : ℝ) - F fun k => ((val (pt k) : ℚ) : ℝ)| ≤ ω + ε := by
  have hsz : (Axes.rectilinear fun k => (grids k).map val : Axes ℚ N).size =
      fun k => (grids k).length := funext fun k => by simp [Axes.size]
  have hlen : vals.length = ∏ k, (grids k).length := by
    have := hG.len
    rw [hsz] at this
    simpa using this
  have hs := samples_valAt (.nan : F32) (fun k => (grids k).length) vals hlen
  obtain ⟨m, res, a1, a2, a3, a4⟩ := C104_nearest_rectilinear_f32 np fma h1 h6 grids vals hG grids' hgr vals' hv64 hv hgrid _ hs obs n hobs
  refine ⟨m, res, a1, a2, a3, fun i pt hpt => ?_⟩
  obtain ⟨r, b1, loc, rfl, b2⟩ := a4 i pt hpt
  have hin : ∀ k, InRange (grids k).length (fun i => ((grids k).map val).getD i 0)
      (val (pt k)) := fun k => ((hobs k).2 _ (List.mem_of_getElem? (hpt k))).2
  have hlt : ∀ k, loc k < (grids k).length := fun k => by
    obtain ⟨_, _, _, h⟩ := b2 k
    exact h.1
  have hget := hs loc hlt
  obtain ⟨v, hv1, hv2⟩ := htab loc hlt
  rw [hget] at hv1
  cases hv1
  refine ⟨_, List.mem_of_getElem? hget, b1, hvals _ (List.mem_of_getElem? hget), fun ω hω =>
    near_node hG (by rw [hsz]; exact hω) (by rw [hsz]; exact hin) (loc := loc) (by rw [hsz]; exact hlt)
      (fun k => ?_) hv2⟩
  obtain ⟨c, hc, hcl, -⟩ := b2 k
  exact corner_near hc (hin k) (hh k _ hc.1) hcl

end

/-- Hypotheses of `C140_nearest_regular_f64` are satisfied: a function with kinks. -/
example : ∃ m res, ∃ r ∈ exAbsTabR64, RegularObj.new ieeeNumpy .nearest [3, 2] (.f64 [q64 (1 / 10), q64 1])
      (.f64 [q64 (1 / 10), q64 2]) (.f64 exAbsTabR64) = .ok m ∧
    m.eval ieeeNumpy true [.f64 [q64 (2 / 7)], .f64 [q64 (5 / 3)]] none = .ok (.f64 res) ∧ res[0]? = some r ∧
    |((val r : ℚ) : ℝ) - exAbs fun k => ((val (![q64 (2 / 7), q64 (5 / 3)] k) : ℚ) : ℝ)| ≤
      11 / 100 + 2 + 1 / 10 ^ 15 := by
  obtain ⟨m, res, h1, h2, -, h4⟩ := C140_nearest_regular_f64 (N := 2) ieeeNumpy true (by norm_num)
    (by norm_num) 20 (by norm_num) (by norm_num) ![3, 2] ![q64 (1 / 10), q64 1] ![q64 (1 / 10), q64 2]
    exAbsTabR64 (valid_of_check (by decide +kernel)) (.f64 [q64 (1 / 10), q64 1])
    (.f64 [q64 (1 / 10), q64 2]) (by decide +kernel) (by decide +kernel)
    (by decide +kernel) (by decide +kernel) (by decide +kernel) (by decide +kernel) (by decide +kernel) exAbs
    ((1 / 10 ^ 15 : ℚ) : ℝ) (tableOf_of_check (Fq := fun q => |q 0 - 1 / 4| + |q 1 - 2|) exAbs_rat
      (by decide +kernel))
    ![[q64 (2 / 7)], [q64 (5 / 3)]] 1 (by unfold InRange; decide +kernel)
  obtain ⟨r, a0, a1, -, a3⟩ := h4 0 ![q64 (2 / 7), q64 (5 / 3)] (by unfold PointAt; decide +kernel)
  refine ⟨m, res, r, a0, h1, h2, a1, (a3 _ exAbs_varies).trans ?_⟩
  have s1 : ((val (q64 (1 / 10)) : ℚ) : ℝ) ≤ 11 / 100 := by
    have h : val (q64 (1 / 10)) ≤ 11 / 100 := by decide +kernel
    have := (Rat.cast_le (K := ℝ)).2 h
    push_cast at this
    exact this
  have s2 : ((val (q64 2) : ℚ) : ℝ) = 2 := by
    have h : val (q64 2) = 2 := by decide +kernel
    rw [h]; norm_num
  simp only [Matrix.cons_val_zero, Matrix.cons_val_one, s2]
  norm_num
  linarith

/-- Hypotheses of `C140_nearest_rectilinear_f64` are satisfied: a function with kinks. -/
example : ∃ m res, ∃ r ∈ exAbsTab64, RectilinearObj.new ieeeNumpy .nearest [.f64 (exGrids64 0), .f64 (exGrids64 1)]
      (.f64 exAbsTab64) = .ok m ∧
    m.eval ieeeNumpy true [.f64 [q64 (1 / 3)], .f64 [q64 (5 / 3)]] none = .ok (.f64 res) ∧ res[0]? = some r ∧
    |((val r : ℚ) : ℝ) - exAbs fun k => ((val (![q64 (1 / 3), q64 (5 / 3)] k) : ℚ) : ℝ)| ≤
      391 / 100 + 2 + 1 / 10 ^ 15 := by
  obtain ⟨m, res, h1, h2, -, h4⟩ := C140_nearest_rectilinear_f64 (N := 2) ieeeNumpy true (by norm_num)
    (by norm_num) exGrids64 exAbsTab64 (valid_of_check (by decide +kernel))
    [.f64 (exGrids64 0), .f64 (exGrids64 1)] (by decide +kernel)
    (by decide +kernel) (by decide +kernel) exAbs _ ((1 / 10 ^ 15 : ℚ) : ℝ)
    (cells_of_check (a := 391 / 100) (b := 2) (by decide +kernel))
    (tableOf_of_check (Fq := fun q => |q 0 - 1 / 4| + |q 1 - 2|) exAbs_rat
      (by decide +kernel))
    ![[q64 (1 / 3)], [q64 (5 / 3)]] 1 (by unfold InRange; decide +kernel)
  obtain ⟨r, a0, a1, -, a3⟩ := h4 0 ![q64 (1 / 3), q64 (5 / 3)] (by unfold PointAt; decide +kernel)
  refine ⟨m, res, r, a0, h1, h2, a1, (a3 _ exAbs_varies).trans ?_⟩
  norm_num

/-- Hypotheses of `C140_nearest_regular_f32` are satisfied: a function with kinks. -/
example : ∃ m res, ∃ r ∈ exAbsTabR32, RegularObj.new ieeeNumpy .nearest [3, 2] (.f64 [q64 (1 / 10), q64 1])
      (.f64 [q64 (1 / 10), q64 2]) (.f32 exAbsTabR32) = .ok m ∧
    m.eval ieeeNumpy true [.f32 [q32 (2 / 7)], .f32 [q32 (5 / 3)]] none = .ok (.f32 res) ∧ res[0]? = some r ∧
    |((val r : ℚ) : ℝ) - exAbs fun k => ((val (![q32 (2 / 7), q32 (5 / 3)] k) : ℚ) : ℝ)| ≤
      11 / 100 + 2 + 1 / 10 ^ 6 := by
  obtain ⟨m, res, h1, h2, -, h4⟩ := C140_nearest_regular_f32 (N := 2) ieeeNumpy true (by norm_num)
    (by norm_num) 20 (by norm_num) (by norm_num) ![3, 2] ![q32 (1 / 10), q32 1] ![q32 (1 / 10), q32 2]
    exAbsTabR32 (valid_of_check (by decide +kernel)) (.f64 [q64 (1 / 10), q64 1])
    (.f64 [q64 (1 / 10), q64 2]) (by decide +kernel) (by decide +kernel) (.f32 exAbsTabR32) (fun _ => nofun) rfl
    (by decide +kernel) (by decide +kernel) (by decide +kernel) (by decide +kernel) (by decide +kernel) exAbs
    ((1 / 10 ^ 6 : ℚ) : ℝ) (tableOf_of_check (Fq := fun q => |q 0 - 1 / 4| + |q 1 - 2|) exAbs_rat
      (by decide +kernel))
    ![[q32 (2 / 7)], [q32 (5 / 3)]] 1 (by unfold InRange; decide +kernel)
  obtain ⟨r, a0, a1, -, a3⟩ := h4 0 ![q32 (2 / 7), q32 (5 / 3)] (by unfold PointAt; decide +kernel)
  refine ⟨m, res, r, a0, h1, h2, a1, (a3 _ exAbs_varies).trans ?_⟩
  have s1 : ((val (q32 (1 / 10)) : ℚ) : ℝ) ≤ 11 / 100 := by
    have h : val (q32 (1 / 10)) ≤ 11 / 100 := by decide +kernel
    have := (Rat.cast_le (K := ℝ)).2 h
    push_cast at this
    exact this
  have s2 : ((val (q32 2) : ℚ) : ℝ) = 2 := by
    have h : val (q32 2) = 2 := by decide +kernel
    rw [h]; norm_num
  simp only [Matrix.cons_val_zero, Matrix.cons_val_one, s2]
  norm_num
  linarith

/-- Hypotheses of `C140_nearest_rectilinear_f32` are satisfied: a function with kinks. -/
example : ∃ m res, ∃ r ∈ exAbsTab32, RectilinearObj.new ieeeNumpy .nearest [.f32 (exGrids32 0), .f32 (exGrids32 1)]
      (.f32 exAbsTab32) = .ok m ∧
    m.eval ieeeNumpy true [.f32 [q32 (1 / 3)], .f32 [q32 (5 / 3)]] none = .ok (.f32 res) ∧ res[0]? = some r ∧
    |((val r : ℚ) : ℝ) - exAbs fun k => ((val (![q32 (1 / 3), q32 (5 / 3)] k) : ℚ) : ℝ)| ≤
      391 / 100 + 2 + 1 / 10 ^ 6 := by
  obtain ⟨m, res, h1, h2, -, h4⟩ := C140_nearest_rectilinear_f32 (N := 2) ieeeNumpy true (by norm_num)
    (by norm_num) exGrids32 exAbsTab32 (valid_of_check (by decide +kernel))
    [.f32 (exGrids32 0), .f32 (exGrids32 1)] (by decide +kernel) (.f32 exAbsTab32) (fun _ => nofun) rfl
    (by decide +kernel) (by decide +kernel) exAbs _ ((1 / 10 ^ 6 : ℚ) : ℝ)
    (cells_of_check (a := 391 / 100) (b := 2) (by decide +kernel))
    (tableOf_of_check (Fq := fun q => |q 0 - 1 / 4| + |q 1 - 2|) exAbs_rat
      (by decide +kernel))
    ![[q32 (1 / 3)], [q32 (5 / 3)]] 1 (by unfold InRange; decide +kernel)
  obtain ⟨r, a0, a1, -, a3⟩ := h4 0 ![q32 (1 / 3), q32 (5 / 3)] (by unfold PointAt; decide +kernel)
  refine ⟨m, res, r, a0, h1, h2, a1, (a3 _ exAbs_varies).trans ?_⟩
  norm_num

end Interpn
