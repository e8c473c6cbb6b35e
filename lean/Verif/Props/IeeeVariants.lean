import Verif.Lemmas.IeeeVariants
import Verif.Props.IeeeAccuracy
import Verif.Props.IeeeCubic
import Verif.Props.GridKinds
import Verif.Props.Symmetry
import Verif.Lemmas.IeeeExamples

/-! C102: variants of one and the same computation in IEEE 754 arithmetic. -/

set_option autoImplicit false
set_option exponentiation.threshold 1100

namespace Interpn
open FloatOps Ieee Variants

/-! ### `f64` -/

section
variable {N : Nat}

/-- C102, linear, rectilinear grids, `f64`: results computed with and without `fma`, by the flattened
and the recursive evaluator, differ by rounding error only. -/
theorem C102_linear_rectilinear_f64 (e e' : Evaluator) (he : e.Fits N) (he' : e'.Fits N)
    (hN : N ≤ 1000) (fma fma' : Bool) (grids : Fin N → List F64) (vals : List F64)
    (hG : (Axes.rectilinear fun k => (grids k).map val).Valid 2 (vals.map val))
    (hgrid : ∀ k, ∀ a ∈ grids k, Finite a ∧ |val a| ≤ 2 ^ 1022) (M : ℚ) (hM : M ≤ 2 ^ 1020)
    (hvals : ∀ v ∈ vals, Finite v ∧ |val v| ≤ M) (x : Fin N → F64) (hx : ∀ k, Finite (x k))
    (hin : ∀ k, InRange (grids k).length (fun i => ((grids k).map val).getD i 0) (val (x k))) :
    ∃ r r', multilinearRectilinearAt e fma grids vals x = .ok r ∧
      multilinearRectilinearAt e' fma' grids vals x = .ok r' ∧ Finite r ∧ Finite r' ∧
      |val r - val r'| ≤ 52 * N * (1 / 2 ^ 53) * M + 6 * N * (1 / 2 ^ 1075) := by
  obtain ⟨r, y, h1, h2, h3, h4⟩ :=
    C81_rectilinear_f64 e he hN fma grids vals hG hgrid M hM hvals x hx hin
  obtain ⟨r', y', h1', h2', h3', h4'⟩ :=
    C81_rectilinear_f64 e' he' hN fma' grids vals hG hgrid M hM hvals x hx hin
  have : y' = y := by
    have := (linear_indep e e' he he' fma fma' _ _ hG fun k => val (x k)).symm.trans h3
    rw [h3'] at this
    exact Res.ok.inj this
  subst this
  exact ⟨r, r', h1, h1', h2, h2', close h4 h4' (by linarith)⟩

/-- C102, linear, regular grids, `f64`: with and without `fma`, flattened and recursive evaluator. -/
theorem C102_linear_regular_f64 (e e' : Evaluator) (he : e.Fits N) (he' : e'.Fits N)
    (fma fma' : Bool) (κ : ℚ) (hκ : 0 ≤ κ) (hN : 100 * N * (1 + κ) ≤ 2 ^ 53)
    (dims : Fin N → Nat) (starts steps : Fin N → F64) (vals : List F64)
    (hG : (Axes.regular dims (fun k => val (starts k)) fun k => val (steps k)).Valid 2
      (vals.map val))
    (hfin : ∀ k, Finite (starts k) ∧ Finite (steps k)) (hnormal : ∀ k, 1 / 2 ^ 1022 ≤ val (steps k))
    (hnodes : ∀ k, |val (starts k)| ≤ κ * val (steps k) ∧
      |val (starts k) + val (steps k) * ((dims k - 1 : Nat) : ℚ)| ≤ κ * val (steps k))
    (hlarge : ∀ k, κ * val (steps k) ≤ 2 ^ 1020) (M : ℚ) (hM : M ≤ 2 ^ 1020)
    (hvals : ∀ v ∈ vals, Finite v ∧ |val v| ≤ M) (x : Fin N → F64) (hx : ∀ k, Finite (x k))
    (hin : ∀ k, InRange (dims k) (fun i => val (starts k) + val (steps k) * (i : ℚ)) (val (x k))) :
    ∃ r r', multilinearRegularAt e fma dims starts steps vals x = .ok r ∧
      multilinearRegularAt e' fma' dims starts steps vals x = .ok r' ∧ Finite r ∧ Finite r' ∧
      |val r - val r'| ≤ 120 * N * (1 + κ) * (1 / 2 ^ 53) * M + 6 * N * (1 / 2 ^ 1075) := by
  obtain ⟨r, y, h1, h2, h3, h4⟩ := C81_regular_f64 e he fma κ hκ hN dims starts steps vals hG hfin
    hnormal hnodes hlarge M hM hvals x hx hin
  obtain ⟨r', y', h1', h2', h3', h4'⟩ := C81_regular_f64 e' he' fma' κ hκ hN dims starts steps vals
    hG hfin hnormal hnodes hlarge M hM hvals x hx hin
  have : y' = y := by
    have := (linear_indep e e' he he' fma fma' _ _ hG fun k => val (x k)).symm.trans h3
    rw [h3'] at this
    exact Res.ok.inj this
  subst this
  exact ⟨r, r', h1, h1', h2, h2', close h4 h4' (by linarith)⟩

/-- C102, linear, `f64`: the same grid described by starts and steps or by its nodes, where these are
floats, so that both describe the same grid. -/
theorem C102_linear_kinds_f64 (e e' : Evaluator) (he : e.Fits N) (he' : e'.Fits N) (h1000 : N ≤ 1000)
    (fma fma' : Bool) (κ : ℚ) (hκ : 0 ≤ κ) (hN : 100 * N * (1 + κ) ≤ 2 ^ 53)
    (dims : Fin N → Nat) (starts steps : Fin N → F64) (grids : Fin N → List F64)
    (vals : List F64)
    (hG : (Axes.regular dims (fun k => val (starts k)) fun k => val (steps k)).Valid 2
      (vals.map val))
    (hsame : ∀ k, (grids k).map val =
      (List.range (dims k)).map fun i : Nat => val (starts k) + val (steps k) * (i : ℚ))
    (hgrid : ∀ k, ∀ a ∈ grids k, Finite a ∧ |val a| ≤ 2 ^ 1022)
    (hfin : ∀ k, Finite (starts k) ∧ Finite (steps k)) (hnormal : ∀ k, 1 / 2 ^ 1022 ≤ val (steps k))
    (hnodes : ∀ k, |val (starts k)| ≤ κ * val (steps k) ∧
      |val (starts k) + val (steps k) * ((dims k - 1 : Nat) : ℚ)| ≤ κ * val (steps k))
    (hlarge : ∀ k, κ * val (steps k) ≤ 2 ^ 1020) (M : ℚ) (hM : M ≤ 2 ^ 1020)
    (hvals : ∀ v ∈ vals, Finite v ∧ |val v| ≤ M) (x : Fin N → F64) (hx : ∀ k, Finite (x k))
    (hin : ∀ k, InRange (dims k) (fun i => val (starts k) + val (steps k) * (i : ℚ)) (val (x k))) :
    ∃ r r', multilinearRegularAt e fma dims starts steps vals x = .ok r ∧
      multilinearRectilinearAt e' fma' grids vals x = .ok r' ∧ Finite r ∧ Finite r' ∧
      |val r - val r'| ≤ 86 * N * (1 + κ) * (1 / 2 ^ 53) * M + 6 * N * (1 / 2 ^ 1075) := by
  have hg : (fun k => (grids k).map val) =
      uniformGrids dims (fun k => val (starts k)) fun k => val (steps k) := by
    funext k; exact hsame k
  have hG' : (Axes.rectilinear fun k => (grids k).map val).Valid 2 (vals.map val) := by
    rw [hg]; exact uniformGrids_valid hG
  obtain ⟨r, y, h1, h2, h3, h4⟩ := C81_regular_f64 e he fma κ hκ hN dims starts steps vals hG hfin
    hnormal hnodes hlarge M hM hvals x hx hin
  obtain ⟨r', y', h1', h2', h3', h4'⟩ :=
    C81_rectilinear_f64 e' he' h1000 fma' grids vals hG' hgrid M hM hvals x hx
      (fun k => same_inRange (hsame k) (hG.big k) (hin k))
  obtain ⟨z, e1, e2⟩ := C27_agree e e' he he' fma fma' dims (fun k => val (starts k))
    (fun k => val (steps k)) (vals.map val) hG (fun k => val (x k))
    (hG.inRange_fits le_rfl hin _ (by decide))
  rw [hg, e2] at h3'
  rw [e1] at h3
  cases h3
  cases h3'
  refine ⟨r, r', h1, h1', h2, h2', close h4 h4' ?_⟩
  have hM0 := bound_nonneg hG' (by norm_num) hvals
  have : (26 : ℚ) * N * (1 / 2 ^ 53) * M ≤ 26 * N * (1 + κ) * (1 / 2 ^ 53) * M := by
    have h0 : (0 : ℚ) ≤ 26 * N * (1 / 2 ^ 53) * M * κ := by positivity
    linarith
  linarith

/-- C102, linear, rectilinear grids, `f64`: listing the axes in another order, with the values
transposed accordingly, changes the result by rounding error only. -/
theorem C102_linear_axes_f64 (e e' : Evaluator) (he : e.Fits N) (he' : e'.Fits N)
    (hN : N ≤ 1000) (fma fma' : Bool) (grids : Fin N → List F64) (vals vals' : List F64)
    (hG : (Axes.rectilinear fun k => (grids k).map val).Valid 2 (vals.map val))
    (hgrid : ∀ k, ∀ a ∈ grids k, Finite a ∧ |val a| ≤ 2 ^ 1022) (M : ℚ) (hM : M ≤ 2 ^ 1020)
    (hvals : ∀ v ∈ vals, Finite v ∧ |val v| ≤ M) (σ : Equiv.Perm (Fin N))
    (ht : Transposed σ (fun k => (grids k).length) vals vals')
    (hvals' : ∀ v ∈ vals', Finite v ∧ |val v| ≤ M) (x : Fin N → F64) (hx : ∀ k, Finite (x k))
    (hin : ∀ k, InRange (grids k).length (fun i => ((grids k).map val).getD i 0) (val (x k))) :
    ∃ r r', multilinearRectilinearAt e fma grids vals x = .ok r ∧
      multilinearRectilinearAt e' fma' (fun k => grids (σ k)) vals' (fun k => x (σ k)) = .ok r' ∧
      Finite r ∧ Finite r' ∧ |val r - val r'| ≤ 52 * N * (1 / 2 ^ 53) * M + 6 * N * (1 / 2 ^ 1075) := by
  have hs : (Axes.rectilinear fun k => (grids k).map val).size = fun k => (grids k).length := by
    funext k; simp [Axes.size]
  have ht' : Transposed σ (Axes.rectilinear fun k => (grids k).map val).size (vals.map val)
      (vals'.map val) := by rw [hs]; exact map_transposed ht
  have hG' := permute_valid hG ht'
  obtain ⟨r, y, h1, h2, h3, h4⟩ :=
    C81_rectilinear_f64 e he hN fma grids vals hG hgrid M hM hvals x hx hin
  obtain ⟨r', y', h1', h2', h3', h4'⟩ :=
    C81_rectilinear_f64 e' he' hN fma' (fun k => grids (σ k)) vals' hG' (fun k => hgrid (σ k)) M hM
      hvals' (fun k => x (σ k)) (fun k => hx (σ k)) (fun k => hin (σ k))
  have : y' = y := by
    have e1 := C26_multilinear e he fma _ _ _ hG σ ht' fun k => val (x k)
    have e2 := linear_indep e e' he he' fma fma' _ _ hG' fun k => val (x (σ k))
    have e3 := (e2.symm.trans e1).trans h3
    exact Res.ok.inj (h3'.symm.trans e3)
  subst this
  exact ⟨r, r', h1, h1', h2, h2', close h4 h4' (by linarith)⟩

/-- C102, cubic, rectilinear grids, `f64`: with and without `fma`, flattened and recursive
evaluator. -/
theorem C102_cubic_rectilinear_f64 (e e' : Evaluator) (he : e.Fits N) (he' : e'.Fits N)
    (hN8 : N ≤ 8) (fma fma' : Bool) (grids : Fin N → List F64) (vals : List F64) (lin : Bool)
    (hG : (Axes.rectilinear fun k => (grids k).map val).Valid 4 (vals.map val))
    (hgrid : ∀ k, ∀ a ∈ grids k, Finite a ∧ |val a| ≤ 2 ^ 1022)
    (M : ℚ) (hM : M ≤ 2 ^ 700) (hM1 : 1 / 2 ^ 1022 ≤ M)
    (hvals : ∀ v ∈ vals, Finite v ∧ |val v| ≤ M) (x : Fin N → F64) (hx : ∀ k, Finite (x k))
    (hin : ∀ k, InRange (grids k).length (fun i => ((grids k).map val).getD i 0) (val (x k)))
    (ρ : ℚ) (hρ : 1 ≤ ρ) (hρ2 : ρ ≤ 2 ^ 30)
    (hmesh : ∀ k, MeshRatio (grids k).length (fun i => ((grids k).map val).getD i 0) ρ) :
    ∃ r r', multicubicRectilinearAt e fma grids vals lin x = .ok r ∧
      multicubicRectilinearAt e' fma' grids vals lin x = .ok r' ∧ Finite r ∧ Finite r' ∧
      |val r - val r'| ≤ 6400 * N * ρ * (1 / 2 ^ 53) * (1 + ρ ^ 2 / (2 * (1 + ρ))) ^ N * M := by
  obtain ⟨r, y, h1, h2, h3, h4⟩ := C82_rectilinear_f64 e he hN8 fma grids vals lin hG hgrid M hM hM1
    hvals x hx hin ρ hρ hρ2 hmesh
  obtain ⟨r', y', h1', h2', h3', h4'⟩ := C82_rectilinear_f64 e' he' hN8 fma' grids vals lin hG hgrid
    M hM hM1 hvals x hx hin ρ hρ hρ2 hmesh
  have : y' = y := by
    have := (cubic_indep e e' he he' fma fma' _ _ lin hG (fun k => val (x k))
      (rect_inRange hin)).symm.trans h3
    rw [h3'] at this
    exact Res.ok.inj this
  subst this
  exact ⟨r, r', h1, h1', h2, h2', close h4 h4' (by linarith)⟩

/-- C102, cubic, regular grids, `f64`: with and without `fma`, flattened and recursive evaluator. -/
theorem C102_cubic_regular_f64 (e e' : Evaluator) (he : e.Fits N) (he' : e'.Fits N) (hN8 : N ≤ 8)
    (fma fma' : Bool) (κ : ℚ) (hκ : 0 ≤ κ) (hN : 4200 * N * (1 + κ) ≤ 2 ^ 53)
    (dims : Fin N → Nat) (starts steps : Fin N → F64) (vals : List F64) (lin : Bool)
    (hG : (Axes.regular dims (fun k => val (starts k)) fun k => val (steps k)).Valid 4
      (vals.map val))
    (hfin : ∀ k, Finite (starts k) ∧ Finite (steps k)) (hnormal : ∀ k, 1 / 2 ^ 1022 ≤ val (steps k))
    (hnodes : ∀ k, |val (starts k)| ≤ κ * val (steps k) ∧
      |val (starts k) + val (steps k) * ((dims k - 1 : Nat) : ℚ)| ≤ κ * val (steps k))
    (hlarge : ∀ k, κ * val (steps k) ≤ 2 ^ 1020) (M : ℚ) (hM : M ≤ 2 ^ 1000) (hM1 : 1 / 2 ^ 1022 ≤ M)
    (hvals : ∀ v ∈ vals, Finite v ∧ |val v| ≤ M) (x : Fin N → F64) (hx : ∀ k, Finite (x k))
    (hin : ∀ k, InRange (dims k) (fun i => val (starts k) + val (steps k) * (i : ℚ)) (val (x k))) :
    ∃ r r', multicubicRegularAt e fma dims starts steps vals lin x = .ok r ∧
      multicubicRegularAt e' fma' dims starts steps vals lin x = .ok r' ∧ Finite r ∧ Finite r' ∧
      |val r - val r'| ≤ 8400 * N * (1 + κ) * (1 / 2 ^ 53) * (5 / 4) ^ N * M := by
  obtain ⟨r, y, h1, h2, h3, h4⟩ := C82_regular_f64 e he hN8 fma κ hκ hN dims starts steps vals lin hG
    hfin hnormal hnodes hlarge M hM hM1 hvals x hx hin
  obtain ⟨r', y', h1', h2', h3', h4'⟩ := C82_regular_f64 e' he' hN8 fma' κ hκ hN dims starts steps vals
    lin hG hfin hnormal hnodes hlarge M hM hM1 hvals x hx hin
  have : y' = y := by
    have := (cubic_indep e e' he he' fma fma' _ _ lin hG (fun k => val (x k)) hin).symm.trans h3
    rw [h3'] at this
    exact Res.ok.inj this
  subst this
  exact ⟨r, r', h1, h1', h2, h2', close h4 h4' (by linarith)⟩

/-- C102, cubic, `f64`: the same grid described by starts and steps or by its nodes. -/
theorem C102_cubic_kinds_f64 (e e' : Evaluator) (he : e.Fits N) (he' : e'.Fits N) (hN8 : N ≤ 8)
    (fma fma' : Bool) (κ : ℚ) (hκ : 0 ≤ κ) (hN : 4200 * N * (1 + κ) ≤ 2 ^ 53)
    (dims : Fin N → Nat) (starts steps : Fin N → F64) (grids : Fin N → List F64)
    (vals : List F64) (lin : Bool)
    (hG : (Axes.regular dims (fun k => val (starts k)) fun k => val (steps k)).Valid 4
      (vals.map val))
    (hsame : ∀ k, (grids k).map val =
      (List.range (dims k)).map fun i : Nat => val (starts k) + val (steps k) * (i : ℚ))
    (hgrid : ∀ k, ∀ a ∈ grids k, Finite a ∧ |val a| ≤ 2 ^ 1022)
    (hfin : ∀ k, Finite (starts k) ∧ Finite (steps k)) (hnormal : ∀ k, 1 / 2 ^ 1022 ≤ val (steps k))
    (hnodes : ∀ k, |val (starts k)| ≤ κ * val (steps k) ∧
      |val (starts k) + val (steps k) * ((dims k - 1 : Nat) : ℚ)| ≤ κ * val (steps k))
    (hlarge : ∀ k, κ * val (steps k) ≤ 2 ^ 1020) (M : ℚ) (hM : M ≤ 2 ^ 700) (hM1 : 1 / 2 ^ 1022 ≤ M)
    (hvals : ∀ v ∈ vals, Finite v ∧ |val v| ≤ M) (x : Fin N → F64) (hx : ∀ k, Finite (x k))
    (hin : ∀ k, InRange (dims k) (fun i => val (starts k) + val (steps k) * (i : ℚ)) (val (x k))) :
    ∃ r r', multicubicRegularAt e fma dims starts steps vals lin x = .ok r ∧
      multicubicRectilinearAt e' fma' grids vals lin x = .ok r' ∧ Finite r ∧ Finite r' ∧
      |val r - val r'| ≤ 7400 * N * (1 + κ) * (1 / 2 ^ 53) * (5 / 4) ^ N * M := by
  have hg : (fun k => (grids k).map val) =
      uniformGrids dims (fun k => val (starts k)) fun k => val (steps k) := by
    funext k; exact hsame k
  have hG' : (Axes.rectilinear fun k => (grids k).map val).Valid 4 (vals.map val) := by
    rw [hg]; exact uniformGrids_valid hG
  obtain ⟨r, y, h1, h2, h3, h4⟩ := C82_regular_f64 e he hN8 fma κ hκ hN dims starts steps vals lin hG
    hfin hnormal hnodes hlarge M (hM.trans (by norm_num)) hM1 hvals x hx hin
  obtain ⟨r', y', h1', h2', h3', h4'⟩ :=
    C82_rectilinear_f64 e' he' hN8 fma' grids vals lin hG' hgrid M hM hM1 hvals x hx
      (fun k => same_inRange (hsame k) (le_trans (by norm_num) (hG.big k)) (hin k)) 1 le_rfl
      (by norm_num) (fun k => same_mesh (hsame k))
  obtain ⟨z, e1, e2⟩ := C28_agree e e' he he' fma fma' dims (fun k => val (starts k))
    (fun k => val (steps k)) (vals.map val) lin hG (fun k => val (x k))
    (hG.inRange_fits (by omega) hin _ (by decide))
  rw [hg, e2] at h3'
  rw [e1] at h3
  cases h3
  cases h3'
  refine ⟨r, r', h1, h1', h2, h2', close h4 h4' ?_⟩
  have hM0 := bound_nonneg hG' (by norm_num) hvals
  have e3 : (1 : ℚ) + 1 ^ 2 / (2 * (1 + 1)) = 5 / 4 := by norm_num
  rw [e3]
  have : (3200 : ℚ) * N * 1 * (1 / 2 ^ 53) * (5 / 4) ^ N * M ≤
      3200 * N * (1 + κ) * (1 / 2 ^ 53) * (5 / 4) ^ N * M := by
    gcongr
    linarith
  linarith

/-- C102, cubic, rectilinear grids, `f64`: the axes in another order. -/
theorem C102_cubic_axes_f64 (e e' : Evaluator) (he : e.Fits N) (he' : e'.Fits N)
    (hN8 : N ≤ 8) (fma fma' : Bool) (grids : Fin N → List F64) (vals vals' : List F64) (lin : Bool)
    (hG : (Axes.rectilinear fun k => (grids k).map val).Valid 4 (vals.map val))
    (hgrid : ∀ k, ∀ a ∈ grids k, Finite a ∧ |val a| ≤ 2 ^ 1022)
    (M : ℚ) (hM : M ≤ 2 ^ 700) (hM1 : 1 / 2 ^ 1022 ≤ M)
    (hvals : ∀ v ∈ vals, Finite v ∧ |val v| ≤ M) (σ : Equiv.Perm (Fin N))
    (ht : Transposed σ (fun k => (grids k).length) vals vals')
    (hvals' : ∀ v ∈ vals', Finite v ∧ |val v| ≤ M) (x : Fin N → F64) (hx : ∀ k, Finite (x k))
    (hin : ∀ k, InRange (grids k).length (fun i => ((grids k).map val).getD i 0) (val (x k)))
    (ρ : ℚ) (hρ : 1 ≤ ρ) (hρ2 : ρ ≤ 2 ^ 30)
    (hmesh : ∀ k, MeshRatio (grids k).length (fun i => ((grids k).map val).getD i 0) ρ) :
    ∃ r r', multicubicRectilinearAt e fma grids vals lin x = .ok r ∧
      multicubicRectilinearAt e' fma' (fun k => grids (σ k)) vals' lin (fun k => x (σ k)) = .ok r' ∧
      Finite r ∧ Finite r' ∧
      |val r - val r'| ≤ 6400 * N * ρ * (1 / 2 ^ 53) * (1 + ρ ^ 2 / (2 * (1 + ρ))) ^ N * M := by
  have hs : (Axes.rectilinear fun k => (grids k).map val).size = fun k => (grids k).length := by
    funext k; simp [Axes.size]
  have ht' : Transposed σ (Axes.rectilinear fun k => (grids k).map val).size (vals.map val)
      (vals'.map val) := by rw [hs]; exact map_transposed ht
  have hG' := permute_valid hG ht'
  obtain ⟨r, y, h1, h2, h3, h4⟩ := C82_rectilinear_f64 e he hN8 fma grids vals lin hG hgrid M hM hM1
    hvals x hx hin ρ hρ hρ2 hmesh
  obtain ⟨r', y', h1', h2', h3', h4'⟩ := C82_rectilinear_f64 e' he' hN8 fma' (fun k => grids (σ k))
    vals' lin hG' (fun k => hgrid (σ k)) M hM hM1 hvals' (fun k => x (σ k)) (fun k => hx (σ k))
    (fun k => hin (σ k)) ρ hρ hρ2 (fun k => hmesh (σ k))
  have : y' = y := by
    obtain ⟨z, e1, e2⟩ := C26_multicubic e he fma _ _ _ lin hG σ ht' (fun k => val (x k)) trivial
    have e3 := cubic_indep e e' he he' fma fma' _ _ lin hG' (fun k => val (x (σ k)))
      (rect_inRange (grids := fun k => grids (σ k)) fun k => hin (σ k))
    have e4 := h3'.symm.trans (e3.symm.trans e2)
    have e5 := h3.symm.trans e1
    rw [Res.ok.inj e4, Res.ok.inj e5]
  subst this
  exact ⟨r, r', h1, h1', h2, h2', close h4 h4' (by linarith)⟩

end

/-! ### `f32` -/

section
variable {N : Nat}

/-- C102, linear, rectilinear grids, `f32`: results computed with and without `fma`, by the flattened
and the recursive evaluator, differ by rounding error only. -/
theorem C102_linear_rectilinear_f32 (e e' : Evaluator) (he : e.Fits N) (he' : e'.Fits N)
    (hN : N ≤ 1000) (fma fma' : Bool) (grids : Fin N → List F32) (vals : List F32)
    (hG : (Axes.rectilinear fun k => (grids k).map val).Valid 2 (vals.map val))
    (hgrid : ∀ k, ∀ a ∈ grids k, Finite a ∧ |val a| ≤ 2 ^ 126) (M : ℚ) (hM : M ≤ 2 ^ 124)
    (hvals : ∀ v ∈ vals, Finite v ∧ |val v| ≤ M) (x : Fin N → F32) (hx : ∀ k, Finite (x k))
    (hin : ∀ k, InRange (grids k).length (fun i => ((grids k).map val).getD i 0) (val (x k))) :
    ∃ r r', multilinearRectilinearAt e fma grids vals x = .ok r ∧
      multilinearRectilinearAt e' fma' grids vals x = .ok r' ∧ Finite r ∧ Finite r' ∧
      |val r - val r'| ≤ 52 * N * (1 / 2 ^ 24) * M + 6 * N * (1 / 2 ^ 150) := by
  obtain ⟨r, y, h1, h2, h3, h4⟩ :=
    C81_rectilinear_f32 e he hN fma grids vals hG hgrid M hM hvals x hx hin
  obtain ⟨r', y', h1', h2', h3', h4'⟩ :=
    C81_rectilinear_f32 e' he' hN fma' grids vals hG hgrid M hM hvals x hx hin
  have : y' = y := by
    have := (linear_indep e e' he he' fma fma' _ _ hG fun k => val (x k)).symm.trans h3
    rw [h3'] at this
    exact Res.ok.inj this
  subst this
  exact ⟨r, r', h1, h1', h2, h2', close h4 h4' (by linarith)⟩

/-- C102, linear, regular grids, `f32`: with and without `fma`, flattened and recursive evaluator. -/
theorem C102_linear_regular_f32 (e e' : Evaluator) (he : e.Fits N) (he' : e'.Fits N)
    (fma fma' : Bool) (κ : ℚ) (hκ : 0 ≤ κ) (hN : 100 * N * (1 + κ) ≤ 2 ^ 24)
    (dims : Fin N → Nat) (starts steps : Fin N → F32) (vals : List F32)
    (hG : (Axes.regular dims (fun k => val (starts k)) fun k => val (steps k)).Valid 2
      (vals.map val))
    (hfin : ∀ k, Finite (starts k) ∧ Finite (steps k)) (hnormal : ∀ k, 1 / 2 ^ 126 ≤ val (steps k))
    (hnodes : ∀ k, |val (starts k)| ≤ κ * val (steps k) ∧
      |val (starts k) + val (steps k) * ((dims k - 1 : Nat) : ℚ)| ≤ κ * val (steps k))
    (hlarge : ∀ k, κ * val (steps k) ≤ 2 ^ 124) (M : ℚ) (hM : M ≤ 2 ^ 124)
    (hvals : ∀ v ∈ vals, Finite v ∧ |val v| ≤ M) (x : Fin N → F32) (hx : ∀ k, Finite (x k))
    (hin : ∀ k, InRange (dims k) (fun i => val (starts k) + val (steps k) * (i : ℚ)) (val (x k))) :
    ∃ r r', multilinearRegularAt e fma dims starts steps vals x = .ok r ∧
      multilinearRegularAt e' fma' dims starts steps vals x = .ok r' ∧ Finite r ∧ Finite r' ∧
      |val r - val r'| ≤ 120 * N * (1 + κ) * (1 / 2 ^ 24) * M + 6 * N * (1 / 2 ^ 150) := by
  obtain ⟨r, y, h1, h2, h3, h4⟩ := C81_regular_f32 e he fma κ hκ hN dims starts steps vals hG hfin
    hnormal hnodes hlarge M hM hvals x hx hin
  obtain ⟨r', y', h1', h2', h3', h4'⟩ := C81_regular_f32 e' he' fma' κ hκ hN dims starts steps vals
    hG hfin hnormal hnodes hlarge M hM hvals x hx hin
  have : y' = y := by
    have := (linear_indep e e' he he' fma fma' _ _ hG fun k => val (x k)).symm.trans h3
    rw [h3'] at this
    exact Res.ok.inj this
  subst this
  exact ⟨r, r', h1, h1', h2, h2', close h4 h4' (by linarith)⟩

/-- C102, linear, `f32`: the same grid described by starts and steps or by its nodes, where these are
floats, so that both describe the same grid. -/
theorem C102_linear_kinds_f32 (e e' : Evaluator) (he : e.Fits N) (he' : e'.Fits N) (h1000 : N ≤ 1000)
    (fma fma' : Bool) (κ : ℚ) (hκ : 0 ≤ κ) (hN : 100 * N * (1 + κ) ≤ 2 ^ 24)
    (dims : Fin N → Nat) (starts steps : Fin N → F32) (grids : Fin N → List F32)
    (vals : List F32)
    (hG : (Axes.regular dims (fun k => val (starts k)) fun k => val (steps k)).Valid 2
      (vals.map val))
    (hsame : ∀ k, (grids k).map val =
      (List.range (dims k)).map fun i : Nat => val (starts k) + val (steps k) * (i : ℚ))
    (hgrid : ∀ k, ∀ a ∈ grids k, Finite a ∧ |val a| ≤ 2 ^ 126)
    (hfin : ∀ k, Finite (starts k) ∧ Finite (steps k)) (hnormal : ∀ k, 1 / 2 ^ 126 ≤ val (steps k))
    (hnodes : ∀ k, |val (starts k)| ≤ κ * val (steps k) ∧
      |val (starts k) + val (steps k) * ((dims k - 1 : Nat) : ℚ)| ≤ κ * val (steps k))
    (hlarge : ∀ k, κ * val (steps k) ≤ 2 ^ 124) (M : ℚ) (hM : M ≤ 2 ^ 124)
    (hvals : ∀ v ∈ vals, Finite v ∧ |val v| ≤ M) (x : Fin N → F32) (hx : ∀ k, Finite (x k))
    (hin : ∀ k, InRange (dims k) (fun i => val (starts k) + val (steps k) * (i : ℚ)) (val (x k))) :
    ∃ r r', multilinearRegularAt e fma dims starts steps vals x = .ok r ∧
      multilinearRectilinearAt e' fma' grids vals x = .ok r' ∧ Finite r ∧ Finite r' ∧
      |val r - val r'| ≤ 86 * N * (1 + κ) * (1 / 2 ^ 24) * M + 6 * N * (1 / 2 ^ 150) := by
  have hg : (fun k => (grids k).map val) =
      uniformGrids dims (fun k => val (starts k)) fun k => val (steps k) := by
    funext k; exact hsame k
  have hG' : (Axes.rectilinear fun k => (grids k).map val).Valid 2 (vals.map val) := by
    rw [hg]; exact uniformGrids_valid hG
  obtain ⟨r, y, h1, h2, h3, h4⟩ := C81_regular_f32 e he fma κ hκ hN dims starts steps vals hG hfin
    hnormal hnodes hlarge M hM hvals x hx hin
  obtain ⟨r', y', h1', h2', h3', h4'⟩ :=
    C81_rectilinear_f32 e' he' h1000 fma' grids vals hG' hgrid M hM hvals x hx
      (fun k => same_inRange (hsame k) (hG.big k) (hin k))
  obtain ⟨z, e1, e2⟩ := C27_agree e e' he he' fma fma' dims (fun k => val (starts k))
    (fun k => val (steps k)) (vals.map val) hG (fun k => val (x k))
    (hG.inRange_fits le_rfl hin _ (by decide))
  rw [hg, e2] at h3'
  rw [e1] at h3
  cases h3
  cases h3'
  refine ⟨r, r', h1, h1', h2, h2', close h4 h4' ?_⟩
  have hM0 := bound_nonneg hG' (by norm_num) hvals
  have : (26 : ℚ) * N * (1 / 2 ^ 24) * M ≤ 26 * N * (1 + κ) * (1 / 2 ^ 24) * M := by
    have h0 : (0 : ℚ) ≤ 26 * N * (1 / 2 ^ 24) * M * κ := by positivity
    linarith
  linarith

/-- C102, linear, rectilinear grids, `f32`: listing the axes in another order, with the values
transposed accordingly, changes the result by rounding error only. -/
theorem C102_linear_axes_f32 (e e' : Evaluator) (he : e.Fits N) (he' : e'.Fits N)
    (hN : N ≤ 1000) (fma fma' : Bool) (grids : Fin N → List F32) (vals vals' : List F32)
    (hG : (Axes.rectilinear fun k => (grids k).map val).Valid 2 (vals.map val))
    (hgrid : ∀ k, ∀ a ∈ grids k, Finite a ∧ |val a| ≤ 2 ^ 126) (M : ℚ) (hM : M ≤ 2 ^ 124)
    (hvals : ∀ v ∈ vals, Finite v ∧ |val v| ≤ M) (σ : Equiv.Perm (Fin N))
    (ht : Transposed σ (fun k => (grids k).length) vals vals')
    (hvals' : ∀ v ∈ vals', Finite v ∧ |val v| ≤ M) (x : Fin N → F32) (hx : ∀ k, Finite (x k))
    (hin : ∀ k, InRange (grids k).length (fun i => ((grids k).map val).getD i 0) (val (x k))) :
    ∃ r r', multilinearRectilinearAt e fma grids vals x = .ok r ∧
      multilinearRectilinearAt e' fma' (fun k => grids (σ k)) vals' (fun k => x (σ k)) = .ok r' ∧
      Finite r ∧ Finite r' ∧ |val r - val r'| ≤ 52 * N * (1 / 2 ^ 24) * M + 6 * N * (1 / 2 ^ 150) := by
  have hs : (Axes.rectilinear fun k => (grids k).map val).size = fun k => (grids k).length := by
    funext k; simp [Axes.size]
  have ht' : Transposed σ (Axes.rectilinear fun k => (grids k).map val).size (vals.map val)
      (vals'.map val) := by rw [hs]; exact map_transposed ht
  have hG' := permute_valid hG ht'
  obtain ⟨r, y, h1, h2, h3, h4⟩ :=
    C81_rectilinear_f32 e he hN fma grids vals hG hgrid M hM hvals x hx hin
  obtain ⟨r', y', h1', h2', h3', h4'⟩ :=
    C81_rectilinear_f32 e' he' hN fma' (fun k => grids (σ k)) vals' hG' (fun k => hgrid (σ k)) M hM
      hvals' (fun k => x (σ k)) (fun k => hx (σ k)) (fun k => hin (σ k))
  have : y' = y := by
    have e1 := C26_multilinear e he fma _ _ _ hG σ ht' fun k => val (x k)
    have e2 := linear_indep e e' he he' fma fma' _ _ hG' fun k => val (x (σ k))
    have e3 := (e2.symm.trans e1).trans h3
    exact Res.ok.inj (h3'.symm.trans e3)
  subst this
  exact ⟨r, r', h1, h1', h2, h2', close h4 h4' (by linarith)⟩

/-- C102, cubic, rectilinear grids, `f32`: with and without `fma`, flattened and recursive
evaluator. -/
theorem C102_cubic_rectilinear_f32 (e e' : Evaluator) (he : e.Fits N) (he' : e'.Fits N)
    (hN8 : N ≤ 8) (fma fma' : Bool) (grids : Fin N → List F32) (vals : List F32) (lin : Bool)
    (hG : (Axes.rectilinear fun k => (grids k).map val).Valid 4 (vals.map val))
    (hgrid : ∀ k, ∀ a ∈ grids k, Finite a ∧ |val a| ≤ 2 ^ 126)
    (M : ℚ) (hM : M ≤ 2 ^ 40) (hM1 : 1 / 2 ^ 126 ≤ M)
    (hvals : ∀ v ∈ vals, Finite v ∧ |val v| ≤ M) (x : Fin N → F32) (hx : ∀ k, Finite (x k))
    (hin : ∀ k, InRange (grids k).length (fun i => ((grids k).map val).getD i 0) (val (x k)))
    (ρ : ℚ) (hρ : 1 ≤ ρ) (hρ2 : ρ ≤ 2 ^ 9)
    (hmesh : ∀ k, MeshRatio (grids k).length (fun i => ((grids k).map val).getD i 0) ρ) :
    ∃ r r', multicubicRectilinearAt e fma grids vals lin x = .ok r ∧
      multicubicRectilinearAt e' fma' grids vals lin x = .ok r' ∧ Finite r ∧ Finite r' ∧
      |val r - val r'| ≤ 6400 * N * ρ * (1 / 2 ^ 24) * (1 + ρ ^ 2 / (2 * (1 + ρ))) ^ N * M := by
  obtain ⟨r, y, h1, h2, h3, h4⟩ := C82_rectilinear_f32 e he hN8 fma grids vals lin hG hgrid M hM hM1
    hvals x hx hin ρ hρ hρ2 hmesh
  obtain ⟨r', y', h1', h2', h3', h4'⟩ := C82_rectilinear_f32 e' he' hN8 fma' grids vals lin hG hgrid
    M hM hM1 hvals x hx hin ρ hρ hρ2 hmesh
  have : y' = y := by
    have := (cubic_indep e e' he he' fma fma' _ _ lin hG (fun k => val (x k))
      (rect_inRange hin)).symm.trans h3
    rw [h3'] at this
    exact Res.ok.inj this
  subst this
  exact ⟨r, r', h1, h1', h2, h2', close h4 h4' (by linarith)⟩

/-- C102, cubic, regular grids, `f32`: with and without `fma`, flattened and recursive evaluator. -/
theorem C102_cubic_regular_f32 (e e' : Evaluator) (he : e.Fits N) (he' : e'.Fits N) (hN8 : N ≤ 8)
    (fma fma' : Bool) (κ : ℚ) (hκ : 0 ≤ κ) (hN : 4200 * N * (1 + κ) ≤ 2 ^ 24)
    (dims : Fin N → Nat) (starts steps : Fin N → F32) (vals : List F32) (lin : Bool)
    (hG : (Axes.regular dims (fun k => val (starts k)) fun k => val (steps k)).Valid 4
      (vals.map val))
    (hfin : ∀ k, Finite (starts k) ∧ Finite (steps k)) (hnormal : ∀ k, 1 / 2 ^ 126 ≤ val (steps k))
    (hnodes : ∀ k, |val (starts k)| ≤ κ * val (steps k) ∧
      |val (starts k) + val (steps k) * ((dims k - 1 : Nat) : ℚ)| ≤ κ * val (steps k))
    (hlarge : ∀ k, κ * val (steps k) ≤ 2 ^ 124) (M : ℚ) (hM : M ≤ 2 ^ 110) (hM1 : 1 / 2 ^ 126 ≤ M)
    (hvals : ∀ v ∈ vals, Finite v ∧ |val v| ≤ M) (x : Fin N → F32) (hx : ∀ k, Finite (x k))
    (hin : ∀ k, InRange (dims k) (fun i => val (starts k) + val (steps k) * (i : ℚ)) (val (x k))) :
    ∃ r r', multicubicRegularAt e fma dims starts steps vals lin x = .ok r ∧
      multicubicRegularAt e' fma' dims starts steps vals lin x = .ok r' ∧ Finite r ∧ Finite r' ∧
      |val r - val r'| ≤ 8400 * N * (1 + κ) * (1 / 2 ^ 24) * (5 / 4) ^ N * M := by
  obtain ⟨r, y, h1, h2, h3, h4⟩ := C82_regular_f32 e he hN8 fma κ hκ hN dims starts steps vals lin hG
    hfin hnormal hnodes hlarge M hM hM1 hvals x hx hin
  obtain ⟨r', y', h1', h2', h3', h4'⟩ := C82_regular_f32 e' he' hN8 fma' κ hκ hN dims starts steps vals
    lin hG hfin hnormal hnodes hlarge M hM hM1 hvals x hx hin
  have : y' = y := by
    have := (cubic_indep e e' he he' fma fma' _ _ lin hG (fun k => val (x k)) hin).symm.trans h3
    rw [h3'] at this
    exact Res.ok.inj this
  subst this
  exact ⟨r, r', h1, h1', h2, h2', close h4 h4' (by linarith)⟩

/-- C102, cubic, `f32`: the same grid described by starts and steps or by its nodes. -/
theorem C102_cubic_kinds_f32 (e e' : Evaluator) (he : e.Fits N) (he' : e'.Fits N) (hN8 : N ≤ 8)
    (fma fma' : Bool) (κ : ℚ) (hκ : 0 ≤ κ) (hN : 4200 * N * (1 + κ) ≤ 2 ^ 24)
    (dims : Fin N → Nat) (starts steps : Fin N → F32) (grids : Fin N → List F32)
    (vals : List F32) (lin : Bool)
    (hG : (Axes.regular dims (fun k => val (starts k)) fun k => val (steps k)).Valid 4
      (vals.map val))
    (hsame : ∀ k, (grids k).map val =
      (List.range (dims k)).map fun i : Nat => val (starts k) + val (steps k) * (i : ℚ))
    (hgrid : ∀ k, ∀ a ∈ grids k, Finite a ∧ |val a| ≤ 2 ^ 126)
    (hfin : ∀ k, Finite (starts k) ∧ Finite (steps k)) (hnormal : ∀ k, 1 / 2 ^ 126 ≤ val (steps k))
    (hnodes : ∀ k, |val (starts k)| ≤ κ * val (steps k) ∧
      |val (starts k) + val (steps k) * ((dims k - 1 : Nat) : ℚ)| ≤ κ * val (steps k))
    (hlarge : ∀ k, κ * val (steps k) ≤ 2 ^ 124) (M : ℚ) (hM : M ≤ 2 ^ 40) (hM1 : 1 / 2 ^ 126 ≤ M)
    (hvals : ∀ v ∈ vals, Finite v ∧ |val v| ≤ M) (x : Fin N → F32) (hx : ∀ k, Finite (x k))
    (hin : ∀ k, InRange (dims k) (fun i => val (starts k) + val (steps k) * (i : ℚ)) (val (x k))) :
    ∃ r r', multicubicRegularAt e fma dims starts steps vals lin x = .ok r ∧
      multicubicRectilinearAt e' fma' grids vals lin x = .ok r' ∧ Finite r ∧ Finite r' ∧
      |val r - val r'| ≤ 7400 * N * (1 + κ) * (1 / 2 ^ 24) * (5 / 4) ^ N * M := by
  have hg : (fun k => (grids k).map val) =
      uniformGrids dims (fun k => val (starts k)) fun k => val (steps k) := by
    funext k; exact hsame k
  have hG' : (Axes.rectilinear fun k => (grids k).map val).Valid 4 (vals.map val) := by
    rw [hg]; exact uniformGrids_valid hG
  obtain ⟨r, y, h1, h2, h3, h4⟩ := C82_regular_f32 e he hN8 fma κ hκ hN dims starts steps vals lin hG
    hfin hnormal hnodes hlarge M (hM.trans (by norm_num)) hM1 hvals x hx hin
  obtain ⟨r', y', h1', h2', h3', h4'⟩ :=
    C82_rectilinear_f32 e' he' hN8 fma' grids vals lin hG' hgrid M hM hM1 hvals x hx
      (fun k => same_inRange (hsame k) (le_trans (by norm_num) (hG.big k)) (hin k)) 1 le_rfl
      (by norm_num) (fun k => same_mesh (hsame k))
  obtain ⟨z, e1, e2⟩ := C28_agree e e' he he' fma fma' dims (fun k => val (starts k))
    (fun k => val (steps k)) (vals.map val) lin hG (fun k => val (x k))
    (hG.inRange_fits (by omega) hin _ (by decide))
  rw [hg, e2] at h3'
  rw [e1] at h3
  cases h3
  cases h3'
  refine ⟨r, r', h1, h1', h2, h2', close h4 h4' ?_⟩
  have hM0 := bound_nonneg hG' (by norm_num) hvals
  have e3 : (1 : ℚ) + 1 ^ 2 / (2 * (1 + 1)) = 5 / 4 := by norm_num
  rw [e3]
  have : (3200 : ℚ) * N * 1 * (1 / 2 ^ 24) * (5 / 4) ^ N * M ≤
      3200 * N * (1 + κ) * (1 / 2 ^ 24) * (5 / 4) ^ N * M := by
    gcongr
    linarith
  linarith

/-- C102, cubic, rectilinear grids, `f32`: the axes in another order. -/
theorem C102_cubic_axes_f32 (e e' : Evaluator) (he : e.Fits N) (he' : e'.Fits N)
    (hN8 : N ≤ 8) (fma fma' : Bool) (grids : Fin N → List F32) (vals vals' : List F32) (lin : Bool)
    (hG : (Axes.rectilinear fun k => (grids k).map val).Valid 4 (vals.map val))
    (hgrid : ∀ k, ∀ a ∈ grids k, Finite a ∧ |val a| ≤ 2 ^ 126)
    (M : ℚ) (hM : M ≤ 2 ^ 40) (hM1 : 1 / 2 ^ 126 ≤ M)
    (hvals : ∀ v ∈ vals, Finite v ∧ |val v| ≤ M) (σ : Equiv.Perm (Fin N))
    (ht : Transposed σ (fun k => (grids k).length) vals vals')
    (hvals' : ∀ v ∈ vals', Finite v ∧ |val v| ≤ M) (x : Fin N → F32) (hx : ∀ k, Finite (x k))
    (hin : ∀ k, InRange (grids k).length (fun i => ((grids k).map val).getD i 0) (val (x k)))
    (ρ : ℚ) (hρ : 1 ≤ ρ) (hρ2 : ρ ≤ 2 ^ 9)
    (hmesh : ∀ k, MeshRatio (grids k).length (fun i => ((grids k).map val).getD i 0) ρ) :
    ∃ r r', multicubicRectilinearAt e fma grids vals lin x = .ok r ∧
      multicubicRectilinearAt e' fma' (fun k => grids (σ k)) vals' lin (fun k => x (σ k)) = .ok r' ∧
      Finite r ∧ Finite r' ∧
      |val r - val r'| ≤ 6400 * N * ρ * (1 / 2 ^ 24) * (1 + ρ ^ 2 / (2 * (1 + ρ))) ^ N * M := by
  have hs : (Axes.rectilinear fun k => (grids k).map val).size = fun k => (grids k).length := by
    funext k; simp [Axes.size]
  have ht' : Transposed σ (Axes.rectilinear fun k => (grids k).map val).size (vals.map val)
      (vals'.map val) := by rw [hs]; exact map_transposed ht
  have hG' := permute_valid hG ht'
  obtain ⟨r, y, h1, h2, h3, h4⟩ := C82_rectilinear_f32 e he hN8 fma grids vals lin hG hgrid M hM hM1
    hvals x hx hin ρ hρ hρ2 hmesh
  obtain ⟨r', y', h1', h2', h3', h4'⟩ := C82_rectilinear_f32 e' he' hN8 fma' (fun k => grids (σ k))
    vals' lin hG' (fun k => hgrid (σ k)) M hM hM1 hvals' (fun k => x (σ k)) (fun k => hx (σ k))
    (fun k => hin (σ k)) ρ hρ hρ2 (fun k => hmesh (σ k))
  have : y' = y := by
    obtain ⟨z, e1, e2⟩ := C26_multicubic e he fma _ _ _ lin hG σ ht' (fun k => val (x k)) trivial
    have e3 := cubic_indep e e' he he' fma fma' _ _ lin hG' (fun k => val (x (σ k)))
      (rect_inRange (grids := fun k => grids (σ k)) fun k => hin (σ k))
    have e4 := h3'.symm.trans (e3.symm.trans e2)
    have e5 := h3.symm.trans e1
    rw [Res.ok.inj e4, Res.ok.inj e5]
  subst this
  exact ⟨r, r', h1, h1', h2, h2', close h4 h4' (by linarith)⟩

end

/-! ### Precision -/

section
variable {N : Nat}

/-- C102, linear, rectilinear grids: the computation in `f32` differs from that in `f64` with the same
data by at most the rounding error of `f32`. -/
theorem C102_linear_precision (e e' : Evaluator) (he : e.Fits N) (he' : e'.Fits N)
    (hN : N ≤ 1000) (fma fma' : Bool) (grids : Fin N → List F32) (vals : List F32)
    (grids' : Fin N → List F64) (vals' : List F64)
    (hgg : ∀ k, (grids' k).map val = (grids k).map val) (hvv : vals'.map val = vals.map val)
    (hG : (Axes.rectilinear fun k => (grids k).map val).Valid 2 (vals.map val))
    (hgrid : ∀ k, ∀ a ∈ grids k, Finite a ∧ |val a| ≤ 2 ^ 126) (hgrid' : ∀ k, ∀ a ∈ grids' k, Finite a)
    (M : ℚ) (hM : M ≤ 2 ^ 124) (hvals : ∀ v ∈ vals, Finite v ∧ |val v| ≤ M)
    (hvals' : ∀ v ∈ vals', Finite v) (x : Fin N → F32) (x' : Fin N → F64)
    (hxx : ∀ k, val (x' k) = val (x k)) (hx : ∀ k, Finite (x k)) (hx' : ∀ k, Finite (x' k))
    (hin : ∀ k, InRange (grids k).length (fun i => ((grids k).map val).getD i 0) (val (x k))) :
    ∃ r r', multilinearRectilinearAt e fma grids vals x = .ok r ∧
      multilinearRectilinearAt e' fma' grids' vals' x' = .ok r' ∧ Finite r ∧ Finite r' ∧
      |val r - val r'| ≤ 27 * N * (1 / 2 ^ 24) * M + 4 * N * (1 / 2 ^ 150) := by
  have hgf : (fun k => (grids' k).map val) = fun k => (grids k).map val := funext hgg
  have hG' : (Axes.rectilinear fun k => (grids' k).map val).Valid 2 (vals'.map val) := by
    rw [hgf, hvv]; exact hG
  have hxf : (fun k => val (x' k)) = fun k => val (x k) := funext hxx
  have hlen : ∀ k, (grids' k).length = (grids k).length := fun k => by
    simpa using congrArg List.length (hgg k)
  obtain ⟨r, y, h1, h2, h3, h4⟩ :=
    C81_rectilinear_f32 e he hN fma grids vals hG hgrid M hM hvals x hx hin
  obtain ⟨r', y', h1', h2', h3', h4'⟩ :=
    C81_rectilinear_f64 e' he' hN fma' grids' vals' hG'
      (fun k a ha => ⟨hgrid' k a ha, by
        obtain ⟨b, hb, hab⟩ := List.mem_map.1 (hgg k ▸ List.mem_map_of_mem (f := val) ha)
        rw [← hab]
        exact (hgrid k b hb).2.trans (by norm_num)⟩) M (hM.trans (by norm_num))
      (fun a ha => ⟨hvals' a ha, by
        obtain ⟨b, hb, hab⟩ := List.mem_map.1 (hvv ▸ List.mem_map_of_mem (f := val) ha)
        rw [← hab]
        exact (hvals b hb).2⟩) x' hx'
      (fun k => by rw [hlen k, hgg k, hxx k]; exact hin k)
  have : y' = y := by
    rw [hgf, hvv, hxf] at h3'
    have := (linear_indep e e' he he' fma fma' _ _ hG fun k => val (x k)).symm.trans h3
    rw [h3'] at this
    exact Res.ok.inj this
  subst this
  refine ⟨r, r', h1, h1', h2, h2', close h4 h4' ?_⟩
  have hM0 := bound_nonneg hG (by norm_num) hvals
  have a1 : (0 : ℚ) ≤ N * M := by positivity
  have a2 : (0 : ℚ) ≤ N := by positivity
  have b1 : 26 * (N : ℚ) * (1 / 2 ^ 53) * M ≤ N * M * (1 / 2 ^ 24) := by
    have : 26 * (N : ℚ) * (1 / 2 ^ 53) * M = N * M * (26 / 2 ^ 53) := by ring
    rw [this]
    exact mul_le_mul_of_nonneg_left (by norm_num) a1
  have b2 : 3 * (N : ℚ) * (1 / 2 ^ 1075) ≤ N * (1 / 2 ^ 150) := by
    have : 3 * (N : ℚ) * (1 / 2 ^ 1075) = N * (3 / 2 ^ 1075) := by ring
    rw [this]
    exact mul_le_mul_of_nonneg_left (by norm_num) a2
  linarith

/-- C102, cubic, rectilinear grids: `f32` against `f64`. -/
theorem C102_cubic_precision (e e' : Evaluator) (he : e.Fits N) (he' : e'.Fits N)
    (hN8 : N ≤ 8) (fma fma' : Bool) (grids : Fin N → List F32) (vals : List F32)
    (grids' : Fin N → List F64) (vals' : List F64) (lin : Bool)
    (hgg : ∀ k, (grids' k).map val = (grids k).map val) (hvv : vals'.map val = vals.map val)
    (hG : (Axes.rectilinear fun k => (grids k).map val).Valid 4 (vals.map val))
    (hgrid : ∀ k, ∀ a ∈ grids k, Finite a ∧ |val a| ≤ 2 ^ 126) (hgrid' : ∀ k, ∀ a ∈ grids' k, Finite a)
    (M : ℚ) (hM : M ≤ 2 ^ 40) (hM1 : 1 / 2 ^ 126 ≤ M) (hvals : ∀ v ∈ vals, Finite v ∧ |val v| ≤ M)
    (hvals' : ∀ v ∈ vals', Finite v) (x : Fin N → F32) (x' : Fin N → F64)
    (hxx : ∀ k, val (x' k) = val (x k)) (hx : ∀ k, Finite (x k)) (hx' : ∀ k, Finite (x' k))
    (hin : ∀ k, InRange (grids k).length (fun i => ((grids k).map val).getD i 0) (val (x k)))
    (ρ : ℚ) (hρ : 1 ≤ ρ) (hρ2 : ρ ≤ 2 ^ 9)
    (hmesh : ∀ k, MeshRatio (grids k).length (fun i => ((grids k).map val).getD i 0) ρ) :
    ∃ r r', multicubicRectilinearAt e fma grids vals lin x = .ok r ∧
      multicubicRectilinearAt e' fma' grids' vals' lin x' = .ok r' ∧ Finite r ∧ Finite r' ∧
      |val r - val r'| ≤ 3201 * N * ρ * (1 / 2 ^ 24) * (1 + ρ ^ 2 / (2 * (1 + ρ))) ^ N * M := by
  have hgf : (fun k => (grids' k).map val) = fun k => (grids k).map val := funext hgg
  have hG' : (Axes.rectilinear fun k => (grids' k).map val).Valid 4 (vals'.map val) := by
    rw [hgf, hvv]; exact hG
  have hxf : (fun k => val (x' k)) = fun k => val (x k) := funext hxx
  have hlen : ∀ k, (grids' k).length = (grids k).length := fun k => by
    simpa using congrArg List.length (hgg k)
  obtain ⟨r, y, h1, h2, h3, h4⟩ := C82_rectilinear_f32 e he hN8 fma grids vals lin hG hgrid M hM hM1
    hvals x hx hin ρ hρ hρ2 hmesh
  obtain ⟨r', y', h1', h2', h3', h4'⟩ :=
    C82_rectilinear_f64 e' he' hN8 fma' grids' vals' lin hG'
      (fun k a ha => ⟨hgrid' k a ha, by
        obtain ⟨b, hb, hab⟩ := List.mem_map.1 (hgg k ▸ List.mem_map_of_mem (f := val) ha)
        rw [← hab]
        exact (hgrid k b hb).2.trans (by norm_num)⟩) M (hM.trans (by norm_num))
      (le_trans (by norm_num) hM1)
      (fun a ha => ⟨hvals' a ha, by
        obtain ⟨b, hb, hab⟩ := List.mem_map.1 (hvv ▸ List.mem_map_of_mem (f := val) ha)
        rw [← hab]
        exact (hvals b hb).2⟩) x' hx'
      (fun k => by rw [hlen k, hgg k, hxx k]; exact hin k) ρ hρ (hρ2.trans (by norm_num))
      (fun k => by rw [hlen k, hgg k]; exact hmesh k)
  have : y' = y := by
    rw [hgf, hvv, hxf] at h3'
    have := (cubic_indep e e' he he' fma fma' _ _ lin hG (fun k => val (x k))
      (rect_inRange hin)).symm.trans h3
    rw [h3'] at this
    exact Res.ok.inj this
  subst this
  refine ⟨r, r', h1, h1', h2, h2', close h4 h4' ?_⟩
  have hM0 := bound_nonneg hG (by norm_num) hvals
  have a1 : (0 : ℚ) ≤ N * ρ * (1 + ρ ^ 2 / (2 * (1 + ρ))) ^ N * M := by positivity
  have b1 : 3200 * (N : ℚ) * ρ * (1 / 2 ^ 53) * (1 + ρ ^ 2 / (2 * (1 + ρ))) ^ N * M ≤
      N * ρ * (1 + ρ ^ 2 / (2 * (1 + ρ))) ^ N * M * (1 / 2 ^ 24) := by
    have : 3200 * (N : ℚ) * ρ * (1 / 2 ^ 53) * (1 + ρ ^ 2 / (2 * (1 + ρ))) ^ N * M =
        N * ρ * (1 + ρ ^ 2 / (2 * (1 + ρ))) ^ N * M * (3200 / 2 ^ 53) := by ring
    rw [this]
    exact mul_le_mul_of_nonneg_left (by norm_num) a1
  linarith

end

/-! ### Examples -/

private theorem exMesh64 : ∀ k, MeshRatio (exGrids64c k).length
    (fun i => ((exGrids64c k).map val).getD i 0) 2 :=
  fun k i hi => (show ∀ k, ∀ i < (exGrids64c k).length, i + 2 < (exGrids64c k).length →
    ((exGrids64c k).map val).getD (i + 1) 0 - ((exGrids64c k).map val).getD i 0 ≤
      2 * (((exGrids64c k).map val).getD (i + 2) 0 - ((exGrids64c k).map val).getD (i + 1) 0) ∧
    ((exGrids64c k).map val).getD (i + 2) 0 - ((exGrids64c k).map val).getD (i + 1) 0 ≤
      2 * (((exGrids64c k).map val).getD (i + 1) 0 - ((exGrids64c k).map val).getD i 0) by
    decide +kernel) k i (by omega) hi

/-- The values of `exVals64c` with the axes swapped. -/
def exValsT64 : List F64 := ([2, 1 / 3, 0, 6, 6, 5, 7, 2, -7, 1, 1 / 10, -1, 16, -2, 4, 12,
  10, 8, -9, 5 / 2] : List ℚ).map q64

private theorem exMesh32 : ∀ k, MeshRatio (exGrids32c k).length
    (fun i => ((exGrids32c k).map val).getD i 0) 2 :=
  fun k i hi => (show ∀ k, ∀ i < (exGrids32c k).length, i + 2 < (exGrids32c k).length →
    ((exGrids32c k).map val).getD (i + 1) 0 - ((exGrids32c k).map val).getD i 0 ≤
      2 * (((exGrids32c k).map val).getD (i + 2) 0 - ((exGrids32c k).map val).getD (i + 1) 0) ∧
    ((exGrids32c k).map val).getD (i + 2) 0 - ((exGrids32c k).map val).getD (i + 1) 0 ≤
      2 * (((exGrids32c k).map val).getD (i + 1) 0 - ((exGrids32c k).map val).getD i 0) by
    decide +kernel) k i (by omega) hi

/-- The values of `exVals32c` with the axes swapped. -/
def exValsT32 : List F32 := ([2, 1 / 3, 0, 6, 6, 5, 7, 2, -7, 1, 1 / 10, -1, 16, -2, 4, 12,
  10, 8, -9, 5 / 2] : List ℚ).map q32

/-- Hypotheses of `C102_linear_rectilinear_f64` are satisfied. -/
example : ∃ r r', multilinearRectilinearAt .flat false exGrids64 exVals64 ![q64 (1 / 3), q64 (5 / 3)] =
      .ok r ∧
    multilinearRectilinearAt (.recursive 8) true exGrids64 exVals64 ![q64 (1 / 3), q64 (5 / 3)] = .ok r' ∧
    |val r - val r'| ≤ 1 / 10 ^ 12 := by
  obtain ⟨r, r', h1, h2, -, -, h4⟩ := C102_linear_rectilinear_f64 .flat (.recursive 8)
    (show 0 < 2 by decide) (show 0 < 2 ∧ 2 ≤ 8 by decide) (by norm_num) false true
    exGrids64 exVals64 (valid_of_check (by decide +kernel)) (by decide +kernel) 16 (by norm_num)
    (by decide +kernel) ![q64 (1 / 3), q64 (5 / 3)] (by decide +kernel)
    (by unfold InRange; decide +kernel)
  exact ⟨r, r', h1, h2, h4.trans (by norm_num)⟩

/-- Hypotheses of `C102_linear_regular_f64` are satisfied, with nodes 0.1, 0.2, 0.3 on the first
axis. -/
example : ∃ r r', multilinearRegularAt .flat false ![3, 2] ![q64 (1 / 10), q64 1]
      ![q64 (1 / 10), q64 2] exVals64 ![q64 (2 / 7), q64 (5 / 3)] = .ok r ∧
    multilinearRegularAt .flat true ![3, 2] ![q64 (1 / 10), q64 1]
      ![q64 (1 / 10), q64 2] exVals64 ![q64 (2 / 7), q64 (5 / 3)] = .ok r' ∧
    |val r - val r'| ≤ 1 / 10 ^ 11 := by
  obtain ⟨r, r', h1, h2, -, -, h4⟩ := C102_linear_regular_f64 .flat .flat (show 0 < 2 by decide)
    (show 0 < 2 by decide) false true 4
    (by norm_num) (by norm_num) ![3, 2] ![q64 (1 / 10), q64 1] ![q64 (1 / 10), q64 2] exVals64
    (valid_of_check (by decide +kernel)) (by decide +kernel) (by decide +kernel) (by decide +kernel)
    (by decide +kernel) 16 (by norm_num) (by decide +kernel) ![q64 (2 / 7), q64 (5 / 3)]
    (by decide +kernel) (by unfold InRange; decide +kernel)
  exact ⟨r, r', h1, h2, h4.trans (by norm_num)⟩

/-- Hypotheses of `C102_linear_kinds_f64` are satisfied. -/
example : ∃ r r', multilinearRegularAt .flat false ![3, 2] ![q64 (1 / 2), q64 1]
      ![q64 (1 / 4), q64 2] exVals64 ![q64 (2 / 3), q64 (5 / 3)] = .ok r ∧
    multilinearRectilinearAt .flat false ![[q64 (1 / 2), q64 (3 / 4), q64 1], [q64 1, q64 3]] exVals64
      ![q64 (2 / 3), q64 (5 / 3)] = .ok r' ∧ |val r - val r'| ≤ 1 / 10 ^ 11 := by
  obtain ⟨r, r', h1, h2, -, -, h4⟩ := C102_linear_kinds_f64 .flat .flat (show 0 < 2 by decide)
    (show 0 < 2 by decide) (by norm_num) false false 4
    (by norm_num) (by norm_num) ![3, 2] ![q64 (1 / 2), q64 1] ![q64 (1 / 4), q64 2]
    ![[q64 (1 / 2), q64 (3 / 4), q64 1], [q64 1, q64 3]] exVals64
    (valid_of_check (by decide +kernel)) (by decide +kernel) (by decide +kernel) (by decide +kernel)
    (by decide +kernel) (by decide +kernel)
    (by decide +kernel) 16 (by norm_num) (by decide +kernel) ![q64 (2 / 3), q64 (5 / 3)]
    (by decide +kernel) (by unfold InRange; decide +kernel)
  exact ⟨r, r', h1, h2, h4.trans (by norm_num)⟩

/-- Hypotheses of `C102_linear_axes_f64` are satisfied. -/
example : ∃ r r', multilinearRectilinearAt .flat true exGrids64 exVals64 ![q64 (1 / 3), q64 (5 / 3)] =
      .ok r ∧
    multilinearRectilinearAt .flat true (fun k => exGrids64 (Equiv.swap 0 1 k))
      [q64 2, q64 (-7), q64 10, q64 6, q64 16, q64 (1 / 3)]
      (fun k => ![q64 (1 / 3), q64 (5 / 3)] (Equiv.swap 0 1 k)) = .ok r' ∧
    |val r - val r'| ≤ 1 / 10 ^ 12 := by
  obtain ⟨r, r', h1, h2, -, -, h4⟩ := C102_linear_axes_f64 .flat .flat
    (show 0 < 2 by decide) (show 0 < 2 by decide) (by norm_num) true true
    exGrids64 exVals64 [q64 2, q64 (-7), q64 10, q64 6, q64 16, q64 (1 / 3)]
    (valid_of_check (by decide +kernel)) (by decide +kernel) 16 (by norm_num)
    (by decide +kernel) (Equiv.swap 0 1) (transposed_of_check (by decide +kernel))
    (by decide +kernel) ![q64 (1 / 3), q64 (5 / 3)] (by decide +kernel)
    (by unfold InRange; decide +kernel)
  exact ⟨r, r', h1, h2, h4.trans (by norm_num)⟩

/-- Hypotheses of `C102_cubic_rectilinear_f64` are satisfied. -/
example : ∃ r r', multicubicRectilinearAt .flat false exGrids64c exVals64c true
      ![q64 (1 / 3), q64 (5 / 3)] = .ok r ∧
    multicubicRectilinearAt .flat true exGrids64c exVals64c true
      ![q64 (1 / 3), q64 (5 / 3)] = .ok r' ∧ |val r - val r'| ≤ 1 / 10 ^ 9 := by
  obtain ⟨r, r', h1, h2, -, -, h4⟩ := C102_cubic_rectilinear_f64 .flat .flat (show 0 < 2 by decide)
    (show 0 < 2 by decide) (by norm_num) false true
    exGrids64c exVals64c true (valid_of_check (by decide +kernel)) (by decide +kernel) 16 (by norm_num)
    (by norm_num) (by decide +kernel) ![q64 (1 / 3), q64 (5 / 3)] (by decide +kernel)
    (by unfold InRange; decide +kernel) 2 (by norm_num) (by norm_num) exMesh64
  exact ⟨r, r', h1, h2, h4.trans (by norm_num)⟩

/-- Hypotheses of `C102_cubic_regular_f64` are satisfied. -/
example : ∃ r r', multicubicRegularAt .flat true ![4, 5] ![q64 (1 / 10), q64 1]
      ![q64 (1 / 10), q64 2] exVals64c false ![q64 (2 / 7), q64 (5 / 3)] = .ok r ∧
    multicubicRegularAt .flat false ![4, 5] ![q64 (1 / 10), q64 1]
      ![q64 (1 / 10), q64 2] exVals64c false ![q64 (2 / 7), q64 (5 / 3)] = .ok r' ∧
    |val r - val r'| ≤ 1 / 10 ^ 9 := by
  obtain ⟨r, r', h1, h2, -, -, h4⟩ := C102_cubic_regular_f64 .flat .flat (show 0 < 2 by decide)
    (show 0 < 2 by decide) (by norm_num) true false 5
    (by norm_num) (by norm_num) ![4, 5] ![q64 (1 / 10), q64 1] ![q64 (1 / 10), q64 2] exVals64c false
    (valid_of_check (by decide +kernel)) (by decide +kernel) (by decide +kernel) (by decide +kernel)
    (by decide +kernel) 16 (by norm_num) (by norm_num) (by decide +kernel)
    ![q64 (2 / 7), q64 (5 / 3)] (by decide +kernel) (by unfold InRange; decide +kernel)
  exact ⟨r, r', h1, h2, h4.trans (by norm_num)⟩

/-- Hypotheses of `C102_cubic_kinds_f64` are satisfied. -/
example : ∃ r r', multicubicRegularAt .flat true ![4, 5] ![q64 (1 / 2), q64 1]
      ![q64 (1 / 4), q64 2] exVals64c false ![q64 (2 / 3), q64 (5 / 3)] = .ok r ∧
    multicubicRectilinearAt .flat true ![[q64 (1 / 2), q64 (3 / 4), q64 1, q64 (5 / 4)],
      [q64 1, q64 3, q64 5, q64 7, q64 9]] exVals64c false ![q64 (2 / 3), q64 (5 / 3)] = .ok r' ∧
    |val r - val r'| ≤ 1 / 10 ^ 9 := by
  obtain ⟨r, r', h1, h2, -, -, h4⟩ := C102_cubic_kinds_f64 .flat .flat (show 0 < 2 by decide)
    (show 0 < 2 by decide) (by norm_num) true true 5
    (by norm_num) (by norm_num) ![4, 5] ![q64 (1 / 2), q64 1] ![q64 (1 / 4), q64 2]
    ![[q64 (1 / 2), q64 (3 / 4), q64 1, q64 (5 / 4)], [q64 1, q64 3, q64 5, q64 7, q64 9]] exVals64c false
    (valid_of_check (by decide +kernel)) (by decide +kernel) (by decide +kernel) (by decide +kernel)
    (by decide +kernel) (by decide +kernel)
    (by decide +kernel) 16 (by norm_num) (by norm_num) (by decide +kernel)
    ![q64 (2 / 3), q64 (5 / 3)] (by decide +kernel) (by unfold InRange; decide +kernel)
  exact ⟨r, r', h1, h2, h4.trans (by norm_num)⟩

/-- Hypotheses of `C102_cubic_axes_f64` are satisfied. -/
example : ∃ r r', multicubicRectilinearAt .flat false exGrids64c exVals64c true
      ![q64 (1 / 3), q64 (5 / 3)] = .ok r ∧
    multicubicRectilinearAt .flat false (fun k => exGrids64c (Equiv.swap 0 1 k)) exValsT64 true
      (fun k => ![q64 (1 / 3), q64 (5 / 3)] (Equiv.swap 0 1 k)) = .ok r' ∧ |val r - val r'| ≤ 1 / 10 ^ 9 := by
  obtain ⟨r, r', h1, h2, -, -, h4⟩ := C102_cubic_axes_f64 .flat .flat (show 0 < 2 by decide)
    (show 0 < 2 by decide) (by norm_num) false false
    exGrids64c exVals64c exValsT64 true (valid_of_check (by decide +kernel)) (by decide +kernel) 16
    (by norm_num) (by norm_num) (by decide +kernel) (Equiv.swap 0 1)
    (transposed_of_check (by decide +kernel)) (by decide +kernel)
    ![q64 (1 / 3), q64 (5 / 3)] (by decide +kernel)
    (by unfold InRange; decide +kernel) 2 (by norm_num) (by norm_num) exMesh64
  exact ⟨r, r', h1, h2, h4.trans (by norm_num)⟩

/-- Hypotheses of `C102_linear_rectilinear_f32` are satisfied. -/
example : ∃ r r', multilinearRectilinearAt .flat false exGrids32 exVals32 ![q32 (1 / 3), q32 (5 / 3)] =
      .ok r ∧
    multilinearRectilinearAt (.recursive 8) true exGrids32 exVals32 ![q32 (1 / 3), q32 (5 / 3)] = .ok r' ∧
    |val r - val r'| ≤ 1 / 10 ^ 3 := by
  obtain ⟨r, r', h1, h2, -, -, h4⟩ := C102_linear_rectilinear_f32 .flat (.recursive 8)
    (show 0 < 2 by decide) (show 0 < 2 ∧ 2 ≤ 8 by decide) (by norm_num) false true
    exGrids32 exVals32 (valid_of_check (by decide +kernel)) (by decide +kernel) 16 (by norm_num)
    (by decide +kernel) ![q32 (1 / 3), q32 (5 / 3)] (by decide +kernel)
    (by unfold InRange; decide +kernel)
  exact ⟨r, r', h1, h2, h4.trans (by norm_num)⟩

/-- Hypotheses of `C102_linear_regular_f32` are satisfied, with nodes 0.1, 0.2, 0.3 on the first
axis. -/
example : ∃ r r', multilinearRegularAt .flat false ![3, 2] ![q32 (1 / 10), q32 1]
      ![q32 (1 / 10), q32 2] exVals32 ![q32 (2 / 7), q32 (5 / 3)] = .ok r ∧
    multilinearRegularAt .flat true ![3, 2] ![q32 (1 / 10), q32 1]
      ![q32 (1 / 10), q32 2] exVals32 ![q32 (2 / 7), q32 (5 / 3)] = .ok r' ∧
    |val r - val r'| ≤ 1 / 10 := by
  obtain ⟨r, r', h1, h2, -, -, h4⟩ := C102_linear_regular_f32 .flat .flat (show 0 < 2 by decide)
    (show 0 < 2 by decide) false true 4
    (by norm_num) (by norm_num) ![3, 2] ![q32 (1 / 10), q32 1] ![q32 (1 / 10), q32 2] exVals32
    (valid_of_check (by decide +kernel)) (by decide +kernel) (by decide +kernel) (by decide +kernel)
    (by decide +kernel) 16 (by norm_num) (by decide +kernel) ![q32 (2 / 7), q32 (5 / 3)]
    (by decide +kernel) (by unfold InRange; decide +kernel)
  exact ⟨r, r', h1, h2, h4.trans (by norm_num)⟩

/-- Hypotheses of `C102_linear_kinds_f32` are satisfied. -/
example : ∃ r r', multilinearRegularAt .flat false ![3, 2] ![q32 (1 / 2), q32 1]
      ![q32 (1 / 4), q32 2] exVals32 ![q32 (2 / 3), q32 (5 / 3)] = .ok r ∧
    multilinearRectilinearAt .flat false ![[q32 (1 / 2), q32 (3 / 4), q32 1], [q32 1, q32 3]] exVals32
      ![q32 (2 / 3), q32 (5 / 3)] = .ok r' ∧ |val r - val r'| ≤ 1 / 10 := by
  obtain ⟨r, r', h1, h2, -, -, h4⟩ := C102_linear_kinds_f32 .flat .flat (show 0 < 2 by decide)
    (show 0 < 2 by decide) (by norm_num) false false 4
    (by norm_num) (by norm_num) ![3, 2] ![q32 (1 / 2), q32 1] ![q32 (1 / 4), q32 2]
    ![[q32 (1 / 2), q32 (3 / 4), q32 1], [q32 1, q32 3]] exVals32
    (valid_of_check (by decide +kernel)) (by decide +kernel) (by decide +kernel) (by decide +kernel)
    (by decide +kernel) (by decide +kernel)
    (by decide +kernel) 16 (by norm_num) (by decide +kernel) ![q32 (2 / 3), q32 (5 / 3)]
    (by decide +kernel) (by unfold InRange; decide +kernel)
  exact ⟨r, r', h1, h2, h4.trans (by norm_num)⟩

/-- Hypotheses of `C102_linear_axes_f32` are satisfied. -/
example : ∃ r r', multilinearRectilinearAt .flat true exGrids32 exVals32 ![q32 (1 / 3), q32 (5 / 3)] =
      .ok r ∧
    multilinearRectilinearAt .flat true (fun k => exGrids32 (Equiv.swap 0 1 k))
      [q32 2, q32 (-7), q32 10, q32 6, q32 16, q32 (1 / 3)]
      (fun k => ![q32 (1 / 3), q32 (5 / 3)] (Equiv.swap 0 1 k)) = .ok r' ∧
    |val r - val r'| ≤ 1 / 10 ^ 3 := by
  obtain ⟨r, r', h1, h2, -, -, h4⟩ := C102_linear_axes_f32 .flat .flat
    (show 0 < 2 by decide) (show 0 < 2 by decide) (by norm_num) true true
    exGrids32 exVals32 [q32 2, q32 (-7), q32 10, q32 6, q32 16, q32 (1 / 3)]
    (valid_of_check (by decide +kernel)) (by decide +kernel) 16 (by norm_num)
    (by decide +kernel) (Equiv.swap 0 1) (transposed_of_check (by decide +kernel))
    (by decide +kernel) ![q32 (1 / 3), q32 (5 / 3)] (by decide +kernel)
    (by unfold InRange; decide +kernel)
  exact ⟨r, r', h1, h2, h4.trans (by norm_num)⟩

/-- Hypotheses of `C102_cubic_rectilinear_f32` are satisfied. -/
example : ∃ r r', multicubicRectilinearAt .flat false exGrids32c exVals32c true
      ![q32 (1 / 3), q32 (5 / 3)] = .ok r ∧
    multicubicRectilinearAt .flat true exGrids32c exVals32c true
      ![q32 (1 / 3), q32 (5 / 3)] = .ok r' ∧ |val r - val r'| ≤ 1 := by
  obtain ⟨r, r', h1, h2, -, -, h4⟩ := C102_cubic_rectilinear_f32 .flat .flat (show 0 < 2 by decide)
    (show 0 < 2 by decide) (by norm_num) false true
    exGrids32c exVals32c true (valid_of_check (by decide +kernel)) (by decide +kernel) 16 (by norm_num)
    (by norm_num) (by decide +kernel) ![q32 (1 / 3), q32 (5 / 3)] (by decide +kernel)
    (by unfold InRange; decide +kernel) 2 (by norm_num) (by norm_num) exMesh32
  exact ⟨r, r', h1, h2, h4.trans (by norm_num)⟩

/-- Hypotheses of `C102_cubic_regular_f32` are satisfied. -/
example : ∃ r r', multicubicRegularAt .flat true ![4, 5] ![q32 (1 / 10), q32 1]
      ![q32 (1 / 10), q32 2] exVals32c false ![q32 (2 / 7), q32 (5 / 3)] = .ok r ∧
    multicubicRegularAt .flat false ![4, 5] ![q32 (1 / 10), q32 1]
      ![q32 (1 / 10), q32 2] exVals32c false ![q32 (2 / 7), q32 (5 / 3)] = .ok r' ∧
    |val r - val r'| ≤ 1 := by
  obtain ⟨r, r', h1, h2, -, -, h4⟩ := C102_cubic_regular_f32 .flat .flat (show 0 < 2 by decide)
    (show 0 < 2 by decide) (by norm_num) true false 5
    (by norm_num) (by norm_num) ![4, 5] ![q32 (1 / 10), q32 1] ![q32 (1 / 10), q32 2] exVals32c false
    (valid_of_check (by decide +kernel)) (by decide +kernel) (by decide +kernel) (by decide +kernel)
    (by decide +kernel) 16 (by norm_num) (by norm_num) (by decide +kernel)
    ![q32 (2 / 7), q32 (5 / 3)] (by decide +kernel) (by unfold InRange; decide +kernel)
  exact ⟨r, r', h1, h2, h4.trans (by norm_num)⟩

/-- Hypotheses of `C102_cubic_kinds_f32` are satisfied. -/
example : ∃ r r', multicubicRegularAt .flat true ![4, 5] ![q32 (1 / 2), q32 1]
      ![q32 (1 / 4), q32 2] exVals32c false ![q32 (2 / 3), q32 (5 / 3)] = .ok r ∧
    multicubicRectilinearAt .flat true ![[q32 (1 / 2), q32 (3 / 4), q32 1, q32 (5 / 4)],
      [q32 1, q32 3, q32 5, q32 7, q32 9]] exVals32c false ![q32 (2 / 3), q32 (5 / 3)] = .ok r' ∧
    |val r - val r'| ≤ 1 := by
  obtain ⟨r, r', h1, h2, -, -, h4⟩ := C102_cubic_kinds_f32 .flat .flat (show 0 < 2 by decide)
    (show 0 < 2 by decide) (by norm_num) true true 5
    (by norm_num) (by norm_num) ![4, 5] ![q32 (1 / 2), q32 1] ![q32 (1 / 4), q32 2]
    ![[q32 (1 / 2), q32 (3 / 4), q32 1, q32 (5 / 4)], [q32 1, q32 3, q32 5, q32 7, q32 9]] exVals32c false
    (valid_of_check (by decide +kernel)) (by decide +kernel) (by decide +kernel) (by decide +kernel)
    (by decide +kernel) (by decide +kernel)
    (by decide +kernel) 16 (by norm_num) (by norm_num) (by decide +kernel)
    ![q32 (2 / 3), q32 (5 / 3)] (by decide +kernel) (by unfold InRange; decide +kernel)
  exact ⟨r, r', h1, h2, h4.trans (by norm_num)⟩

/-- Hypotheses of `C102_cubic_axes_f32` are satisfied. -/
example : ∃ r r', multicubicRectilinearAt .flat false exGrids32c exVals32c true
      ![q32 (1 / 3), q32 (5 / 3)] = .ok r ∧
    multicubicRectilinearAt .flat false (fun k => exGrids32c (Equiv.swap 0 1 k)) exValsT32 true
      (fun k => ![q32 (1 / 3), q32 (5 / 3)] (Equiv.swap 0 1 k)) = .ok r' ∧ |val r - val r'| ≤ 1 := by
  obtain ⟨r, r', h1, h2, -, -, h4⟩ := C102_cubic_axes_f32 .flat .flat (show 0 < 2 by decide)
    (show 0 < 2 by decide) (by norm_num) false false
    exGrids32c exVals32c exValsT32 true (valid_of_check (by decide +kernel)) (by decide +kernel) 16
    (by norm_num) (by norm_num) (by decide +kernel) (Equiv.swap 0 1)
    (transposed_of_check (by decide +kernel)) (by decide +kernel)
    ![q32 (1 / 3), q32 (5 / 3)] (by decide +kernel)
    (by unfold InRange; decide +kernel) 2 (by norm_num) (by norm_num) exMesh32
  exact ⟨r, r', h1, h2, h4.trans (by norm_num)⟩

/-- Hypotheses of `C102_linear_precision` are satisfied (the numbers are those of `f32`, written in
`f64`). -/
example : ∃ r r', multilinearRectilinearAt .flat false exGrids32 exVals32 ![q32 (1 / 3), q32 (5 / 3)] =
      .ok r ∧
    multilinearRectilinearAt .flat false (fun k => (exGrids32 k).map fun a => q64 (val a))
      (exVals32.map fun a => q64 (val a)) (fun k => q64 (val (![q32 (1 / 3), q32 (5 / 3)] k))) =
      .ok r' ∧ |val r - val r'| ≤ 1 / 10 ^ 4 := by
  obtain ⟨r, r', h1, h2, -, -, h4⟩ := C102_linear_precision .flat .flat
    (show 0 < 2 by decide) (show 0 < 2 by decide) (by norm_num) false false
    exGrids32 exVals32 (fun k => (exGrids32 k).map fun a => q64 (val a))
    (exVals32.map fun a => q64 (val a)) (by decide +kernel) (by decide +kernel)
    (valid_of_check (by decide +kernel)) (by decide +kernel) (by decide +kernel) 16 (by norm_num)
    (by decide +kernel) (by decide +kernel) ![q32 (1 / 3), q32 (5 / 3)]
    (fun k => q64 (val (![q32 (1 / 3), q32 (5 / 3)] k))) (by decide +kernel) (by decide +kernel)
    (by decide +kernel) (by unfold InRange; decide +kernel)
  exact ⟨r, r', h1, h2, h4.trans (by norm_num)⟩

/-- Hypotheses of `C102_cubic_precision` are satisfied. -/
example : ∃ r r', multicubicRectilinearAt .flat false exGrids32c exVals32c false
      ![q32 (1 / 3), q32 (5 / 3)] = .ok r ∧
    multicubicRectilinearAt .flat false (fun k => (exGrids32c k).map fun a => q64 (val a))
      (exVals32c.map fun a => q64 (val a)) false
      (fun k => q64 (val (![q32 (1 / 3), q32 (5 / 3)] k))) =
      .ok r' ∧ |val r - val r'| ≤ 1 / 2 := by
  obtain ⟨r, r', h1, h2, -, -, h4⟩ := C102_cubic_precision .flat .flat
    (show 0 < 2 by decide) (show 0 < 2 by decide) (by norm_num) false false
    exGrids32c exVals32c (fun k => (exGrids32c k).map fun a => q64 (val a))
    (exVals32c.map fun a => q64 (val a)) false (by decide +kernel) (by decide +kernel)
    (valid_of_check (by decide +kernel)) (by decide +kernel) (by decide +kernel) 16 (by norm_num)
    (by norm_num) (by decide +kernel) (by decide +kernel) ![q32 (1 / 3), q32 (5 / 3)]
    (fun k => q64 (val (![q32 (1 / 3), q32 (5 / 3)] k))) (by decide +kernel) (by decide +kernel)
    (by decide +kernel) (by unfold InRange; decide +kernel) 2 (by norm_num) (by norm_num) exMesh32
  exact ⟨r, r', h1, h2, h4.trans (by norm_num)⟩

end Interpn
