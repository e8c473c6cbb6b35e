import Verif.Props.IeeeVariants

/-! C102 on regular grids: order of the axes and precision. -/

set_option autoImplicit false
set_option exponentiation.threshold 1100

namespace Interpn
open FloatOps Ieee Variants

section
variable {N : Nat}

/-- C102, linear, regular grids, `f64`: listing the axes in another order, with the values
transposed accordingly, changes the result by rounding error only. -/
theorem C102_linear_axes_regular_f64 (e e' : Evaluator) (he : e.Fits N) (he' : e'.Fits N)
    (fma fma' : Bool) (κ : ℚ) (hκ : 0 ≤ κ) (hN : 100 * N * (1 + κ) ≤ 2 ^ 53)
    (dims : Fin N → Nat) (starts steps : Fin N → F64) (vals vals' : List F64)
    (hG : (Axes.regular dims (fun k => val (starts k)) fun k => val (steps k)).Valid 2
      (vals.map val))
    (hfin : ∀ k, Finite (starts k) ∧ Finite (steps k)) (hnormal : ∀ k, 1 / 2 ^ 1022 ≤ val (steps k))
    (hnodes : ∀ k, |val (starts k)| ≤ κ * val (steps k) ∧
      |val (starts k) + val (steps k) * ((dims k - 1 : Nat) : ℚ)| ≤ κ * val (steps k))
    (hlarge : ∀ k, κ * val (steps k) ≤ 2 ^ 1020) (M : ℚ) (hM : M ≤ 2 ^ 1020)
    (hvals : ∀ v ∈ vals, Finite v ∧ |val v| ≤ M) (σ : Equiv.Perm (Fin N))
    (ht : Transposed σ dims vals vals')
    (hvals' : ∀ v ∈ vals', Finite v ∧ |val v| ≤ M) (x : Fin N → F64) (hx : ∀ k, Finite (x k))
    (hin : ∀ k, InRange (dims k) (fun i => val (starts k) + val (steps k) * (i : ℚ)) (val (x k))) :
    ∃ r r', multilinearRegularAt e fma dims starts steps vals x = .ok r ∧
      multilinearRegularAt e' fma' (fun k => dims (σ k)) (fun k => starts (σ k))
        (fun k => steps (σ k)) vals' (fun k => x (σ k)) = .ok r' ∧ Finite r ∧ Finite r' ∧
      |val r - val r'| ≤ 120 * N * (1 + κ) * (1 / 2 ^ 53) * M + 6 * N * (1 / 2 ^ 1075) := by
  have ht' : Transposed σ (Axes.regular dims (fun k => val (starts k)) fun k => val (steps k)).size
      (vals.map val) (vals'.map val) := map_transposed ht
  have hG' := permute_valid hG ht'
  obtain ⟨r, y, h1, h2, h3, h4⟩ := C81_regular_f64 e he fma κ hκ hN dims starts steps vals hG hfin
    hnormal hnodes hlarge M hM hvals x hx hin
  obtain ⟨r', y', h1', h2', h3', h4'⟩ := C81_regular_f64 e' he' fma' κ hκ hN (fun k => dims (σ k))
    (fun k => starts (σ k)) (fun k => steps (σ k)) vals' hG' (fun k => hfin (σ k))
    (fun k => hnormal (σ k)) (fun k => hnodes (σ k)) (fun k => hlarge (σ k)) M hM hvals'
    (fun k => x (σ k)) (fun k => hx (σ k)) (fun k => hin (σ k))
  have : y' = y := by
    have e1 := C26_multilinear e he fma _ _ _ hG σ ht' fun k => val (x k)
    have e2 := linear_indep e e' he he' fma fma' _ _ hG' fun k => val (x (σ k))
    have e3 := (e2.symm.trans e1).trans h3
    exact Res.ok.inj (h3'.symm.trans e3)
  subst this
  exact ⟨r, r', h1, h1', h2, h2', close h4 h4' (by linarith)⟩

/-- C102, cubic, regular grids, `f64`: the axes in another order. -/
theorem C102_cubic_axes_regular_f64 (e e' : Evaluator) (he : e.Fits N) (he' : e'.Fits N) (hN8 : N ≤ 8)
    (fma fma' : Bool) (κ : ℚ) (hκ : 0 ≤ κ) (hN : 4200 * N * (1 + κ) ≤ 2 ^ 53)
    (dims : Fin N → Nat) (starts steps : Fin N → F64) (vals vals' : List F64) (lin : Bool)
    (hG : (Axes.regular dims (fun k => val (starts k)) fun k => val (steps k)).Valid 4
      (vals.map val))
    (hfin : ∀ k, Finite (starts k) ∧ Finite (steps k)) (hnormal : ∀ k, 1 / 2 ^ 1022 ≤ val (steps k))
    (hnodes : ∀ k, |val (starts k)| ≤ κ * val (steps k) ∧
      |val (starts k) + val (steps k) * ((dims k - 1 : Nat) : ℚ)| ≤ κ * val (steps k))
    (hlarge : ∀ k, κ * val (steps k) ≤ 2 ^ 1020) (M : ℚ) (hM : M ≤ 2 ^ 1000) (hM1 : 1 / 2 ^ 1022 ≤ M)
    (hvals : ∀ v ∈ vals, Finite v ∧ |val v| ≤ M) (σ : Equiv.Perm (Fin N))
    (ht : Transposed σ dims vals vals')
    (hvals' : ∀ v ∈ vals', Finite v ∧ |val v| ≤ M) (x : Fin N → F64) (hx : ∀ k, Finite (x k))
    (hin : ∀ k, InRange (dims k) (fun i => val (starts k) + val (steps k) * (i : ℚ)) (val (x k))) :
    ∃ r r', multicubicRegularAt e fma dims starts steps vals lin x = .ok r ∧
      multicubicRegularAt e' fma' (fun k => dims (σ k)) (fun k => starts (σ k))
        (fun k => steps (σ k)) vals' lin (fun k => x (σ k)) = .ok r' ∧ Finite r ∧ Finite r' ∧
      |val r - val r'| ≤ 8400 * N * (1 + κ) * (1 / 2 ^ 53) * (5 / 4) ^ N * M := by
  have ht' : Transposed σ (Axes.regular dims (fun k => val (starts k)) fun k => val (steps k)).size
      (vals.map val) (vals'.map val) := map_transposed ht
  have hG' := permute_valid hG ht'
  obtain ⟨r, y, h1, h2, h3, h4⟩ := C82_regular_f64 e he hN8 fma κ hκ hN dims starts steps vals lin hG
    hfin hnormal hnodes hlarge M hM hM1 hvals x hx hin
  obtain ⟨r', y', h1', h2', h3', h4'⟩ := C82_regular_f64 e' he' hN8 fma' κ hκ hN (fun k => dims (σ k))
    (fun k => starts (σ k)) (fun k => steps (σ k)) vals' lin hG' (fun k => hfin (σ k))
    (fun k => hnormal (σ k)) (fun k => hnodes (σ k)) (fun k => hlarge (σ k)) M hM hM1 hvals'
    (fun k => x (σ k)) (fun k => hx (σ k)) (fun k => hin (σ k))
  have : y' = y := by
    obtain ⟨z, e1, e2⟩ := C26_multicubic e he fma _ _ _ lin hG σ ht' (fun k => val (x k))
      (hG.inRange_fits (by omega) hin _ (by decide))
    have e3 := cubic_indep e e' he he' fma fma' _ _ lin hG' (fun k => val (x (σ k)))
      fun k => hin (σ k)
    have e4 := h3'.symm.trans (e3.symm.trans e2)
    have e5 := h3.symm.trans e1
    rw [Res.ok.inj e4, Res.ok.inj e5]
  subst this
  exact ⟨r, r', h1, h1', h2, h2', close h4 h4' (by linarith)⟩

/-- C102, linear, regular grids, `f32`: listing the axes in another order, with the values
transposed accordingly, changes the result by rounding error only. -/
theorem C102_linear_axes_regular_f32 (e e' : Evaluator) (he : e.Fits N) (he' : e'.Fits N)
    (fma fma' : Bool) (κ : ℚ) (hκ : 0 ≤ κ) (hN : 100 * N * (1 + κ) ≤ 2 ^ 24)
    (dims : Fin N → Nat) (starts steps : Fin N → F32) (vals vals' : List F32)
    (hG : (Axes.regular dims (fun k => val (starts k)) fun k => val (steps k)).Valid 2
      (vals.map val))
    (hfin : ∀ k, Finite (starts k) ∧ Finite (steps k)) (hnormal : ∀ k, 1 / 2 ^ 126 ≤ val (steps k))
    (hnodes : ∀ k, |val (starts k)| ≤ κ * val (steps k) ∧
      |val (starts k) + val (steps k) * ((dims k - 1 : Nat) : ℚ)| ≤ κ * val (steps k))
    (hlarge : ∀ k, κ * val (steps k) ≤ 2 ^ 124) (M : ℚ) (hM : M ≤ 2 ^ 124)
    (hvals : ∀ v ∈ vals, Finite v ∧ |val v| ≤ M) (σ : Equiv.Perm (Fin N))
    (ht : Transposed σ dims vals vals')
    (hvals' : ∀ v ∈ vals', Finite v ∧ |val v| ≤ M) (x : Fin N → F32) (hx : ∀ k, Finite (x k))
    (hin : ∀ k, InRange (dims k) (fun i => val (starts k) + val (steps k) * (i : ℚ)) (val (x k))) :
    ∃ r r', multilinearRegularAt e fma dims starts steps vals x = .ok r ∧
      multilinearRegularAt e' fma' (fun k => dims (σ k)) (fun k => starts (σ k))
        (fun k => steps (σ k)) vals' (fun k => x (σ k)) = .ok r' ∧ Finite r ∧ Finite r' ∧
      |val r - val r'| ≤ 120 * N * (1 + κ) * (1 / 2 ^ 24) * M + 6 * N * (1 / 2 ^ 150) := by
  have ht' : Transposed σ (Axes.regular dims (fun k => val (starts k)) fun k => val (steps k)).size
      (vals.map val) (vals'.map val) := map_transposed ht
  have hG' := permute_valid hG ht'
  obtain ⟨r, y, h1, h2, h3, h4⟩ := C81_regular_f32 e he fma κ hκ hN dims starts steps vals hG hfin
    hnormal hnodes hlarge M hM hvals x hx hin
  obtain ⟨r', y', h1', h2', h3', h4'⟩ := C81_regular_f32 e' he' fma' κ hκ hN (fun k => dims (σ k))
    (fun k => starts (σ k)) (fun k => steps (σ k)) vals' hG' (fun k => hfin (σ k))
    (fun k => hnormal (σ k)) (fun k => hnodes (σ k)) (fun k => hlarge (σ k)) M hM hvals'
    (fun k => x (σ k)) (fun k => hx (σ k)) (fun k => hin (σ k))
  have : y' = y := by
    have e1 := C26_multilinear e he fma _ _ _ hG σ ht' fun k => val (x k)
    have e2 := linear_indep e e' he he' fma fma' _ _ hG' fun k => val (x (σ k))
    have e3 := (e2.symm.trans e1).trans h3
    exact Res.ok.inj (h3'.symm.trans e3)
  subst this
  exact ⟨r, r', h1, h1', h2, h2', close h4 h4' (by linarith)⟩

/-- C102, cubic, regular grids, `f32`: the axes in another order. -/
theorem C102_cubic_axes_regular_f32 (e e' : Evaluator) (he : e.Fits N) (he' : e'.Fits N) (hN8 : N ≤ 8)
    (fma fma' : Bool) (κ : ℚ) (hκ : 0 ≤ κ) (hN : 4200 * N * (1 + κ) ≤ 2 ^ 24)
    (dims : Fin N → Nat) (starts steps : Fin N → F32) (vals vals' : List F32) (lin : Bool)
    (hG : (Axes.regular dims (fun k => val (starts k)) fun k => val (steps k)).Valid 4
      (vals.map val))
    (hfin : ∀ k, Finite (starts k) ∧ Finite (steps k)) (hnormal : ∀ k, 1 / 2 ^ 126 ≤ val (steps k))
    (hnodes : ∀ k, |val (starts k)| ≤ κ * val (steps k) ∧
      |val (starts k) + val (steps k) * ((dims k - 1 : Nat) : ℚ)| ≤ κ * val (steps k))
    (hlarge : ∀ k, κ * val (steps k) ≤ 2 ^ 124) (M : ℚ) (hM : M ≤ 2 ^ 110) (hM1 : 1 / 2 ^ 126 ≤ M)
    (hvals : ∀ v ∈ vals, Finite v ∧ |val v| ≤ M) (σ : Equiv.Perm (Fin N))
    (ht : Transposed σ dims vals vals')
    (hvals' : ∀ v ∈ vals', Finite v ∧ |val v| ≤ M) (x : Fin N → F32) (hx : ∀ k, Finite (x k))
    (hin : ∀ k, InRange (dims k) (fun i => val (starts k) + val (steps k) * (i : ℚ)) (val (x k))) :
    ∃ r r', multicubicRegularAt e fma dims starts steps vals lin x = .ok r ∧
      multicubicRegularAt e' fma' (fun k => dims (σ k)) (fun k => starts (σ k))
        (fun k => steps (σ k)) vals' lin (fun k => x (σ k)) = .ok r' ∧ Finite r ∧ Finite r' ∧
      |val r - val r'| ≤ 8400 * N * (1 + κ) * (1 / 2 ^ 24) * (5 / 4) ^ N * M := by
  have ht' : Transposed σ (Axes.regular dims (fun k => val (starts k)) fun k => val (steps k)).size
      (vals.map val) (vals'.map val) := map_transposed ht
  have hG' := permute_valid hG ht'
  obtain ⟨r, y, h1, h2, h3, h4⟩ := C82_regular_f32 e he hN8 fma κ hκ hN dims starts steps vals lin hG
    hfin hnormal hnodes hlarge M hM hM1 hvals x hx hin
  obtain ⟨r', y', h1', h2', h3', h4'⟩ := C82_regular_f32 e' he' hN8 fma' κ hκ hN (fun k => dims (σ k))
    (fun k => starts (σ k)) (fun k => steps (σ k)) vals' lin hG' (fun k => hfin (σ k))
    (fun k => hnormal (σ k)) (fun k => hnodes (σ k)) (fun k => hlarge (σ k)) M hM hM1 hvals'
    (fun k => x (σ k)) (fun k => hx (σ k)) (fun k => hin (σ k))
  have : y' = y := by
    obtain ⟨z, e1, e2⟩ := C26_multicubic e he fma _ _ _ lin hG σ ht' (fun k => val (x k))
      (hG.inRange_fits (by omega) hin _ (by decide))
    have e3 := cubic_indep e e' he he' fma fma' _ _ lin hG' (fun k => val (x (σ k)))
      fun k => hin (σ k)
    have e4 := h3'.symm.trans (e3.symm.trans e2)
    have e5 := h3.symm.trans e1
    rw [Res.ok.inj e4, Res.ok.inj e5]
  subst this
  exact ⟨r, r', h1, h1', h2, h2', close h4 h4' (by linarith)⟩

/-- C102, linear, regular grids: `f32` against `f64` with the same data. -/
theorem C102_linear_precision_regular (e e' : Evaluator) (he : e.Fits N) (he' : e'.Fits N)
    (fma fma' : Bool) (κ : ℚ) (hκ : 0 ≤ κ) (hN : 100 * N * (1 + κ) ≤ 2 ^ 24)
    (dims : Fin N → Nat) (starts steps : Fin N → F32) (vals : List F32)
    (starts' steps' : Fin N → F64) (vals' : List F64)
    (hss : ∀ k, val (starts' k) = val (starts k)) (hpp : ∀ k, val (steps' k) = val (steps k))
    (hvv : vals'.map val = vals.map val)
    (hG : (Axes.regular dims (fun k => val (starts k)) fun k => val (steps k)).Valid 2
      (vals.map val))
    (hfin : ∀ k, Finite (starts k) ∧ Finite (steps k))
    (hfin' : ∀ k, Finite (starts' k) ∧ Finite (steps' k))
    (hnormal : ∀ k, 1 / 2 ^ 126 ≤ val (steps k))
    (hnodes : ∀ k, |val (starts k)| ≤ κ * val (steps k) ∧
      |val (starts k) + val (steps k) * ((dims k - 1 : Nat) : ℚ)| ≤ κ * val (steps k))
    (hlarge : ∀ k, κ * val (steps k) ≤ 2 ^ 124) (M : ℚ) (hM : M ≤ 2 ^ 124)
    (hvals : ∀ v ∈ vals, Finite v ∧ |val v| ≤ M) (hvals' : ∀ v ∈ vals', Finite v)
    (x : Fin N → F32) (x' : Fin N → F64)
    (hxx : ∀ k, val (x' k) = val (x k)) (hx : ∀ k, Finite (x k)) (hx' : ∀ k, Finite (x' k))
    (hin : ∀ k, InRange (dims k) (fun i => val (starts k) + val (steps k) * (i : ℚ)) (val (x k))) :
    ∃ r r', multilinearRegularAt e fma dims starts steps vals x = .ok r ∧
      multilinearRegularAt e' fma' dims starts' steps' vals' x' = .ok r' ∧ Finite r ∧ Finite r' ∧
      |val r - val r'| ≤ 61 * N * (1 + κ) * (1 / 2 ^ 24) * M + 4 * N * (1 / 2 ^ 150) := by
  have hsf : (fun k => val (starts' k)) = fun k => val (starts k) := funext hss
  have hpf : (fun k => val (steps' k)) = fun k => val (steps k) := funext hpp
  have hxf : (fun k => val (x' k)) = fun k => val (x k) := funext hxx
  have hG' : (Axes.regular dims (fun k => val (starts' k)) fun k => val (steps' k)).Valid 2
      (vals'.map val) := by
    rw [hsf, hpf, hvv]; exact hG
  obtain ⟨r, y, h1, h2, h3, h4⟩ := C81_regular_f32 e he fma κ hκ hN dims starts steps vals hG hfin
    hnormal hnodes hlarge M hM hvals x hx hin
  obtain ⟨r', y', h1', h2', h3', h4'⟩ := C81_regular_f64 e' he' fma' κ hκ (hN.trans (by norm_num))
    dims starts' steps' vals' hG' hfin'
    (fun k => by rw [hpp k]; exact le_trans (by norm_num) (hnormal k))
    (fun k => by rw [hss k, hpp k]; exact hnodes k)
    (fun k => by rw [hpp k]; exact (hlarge k).trans (by norm_num)) M (hM.trans (by norm_num))
    (fun a ha => ⟨hvals' a ha, by
      obtain ⟨b, hb, hab⟩ := List.mem_map.1 (hvv ▸ List.mem_map_of_mem (f := val) ha)
      rw [← hab]
      exact (hvals b hb).2⟩) x' hx'
    (fun k => by rw [hss k, hpp k, hxx k]; exact hin k)
  have : y' = y := by
    rw [hsf, hpf, hvv, hxf] at h3'
    have := (linear_indep e e' he he' fma fma' _ _ hG fun k => val (x k)).symm.trans h3
    rw [h3'] at this
    exact Res.ok.inj this
  subst this
  refine ⟨r, r', h1, h1', h2, h2', close h4 h4' ?_⟩
  have hM0 := bound_nonneg hG (by norm_num) hvals
  have a1 : (0 : ℚ) ≤ N * (1 + κ) * M := by positivity
  have a2 : (0 : ℚ) ≤ N := by positivity
  have b1 : 60 * (N : ℚ) * (1 + κ) * (1 / 2 ^ 53) * M ≤ N * (1 + κ) * M * (1 / 2 ^ 24) := by
    have : 60 * (N : ℚ) * (1 + κ) * (1 / 2 ^ 53) * M = N * (1 + κ) * M * (60 / 2 ^ 53) := by ring
    rw [this]
    exact mul_le_mul_of_nonneg_left (by norm_num) a1
  have b2 : 3 * (N : ℚ) * (1 / 2 ^ 1075) ≤ N * (1 / 2 ^ 150) := by
    have : 3 * (N : ℚ) * (1 / 2 ^ 1075) = N * (3 / 2 ^ 1075) := by ring
    rw [this]
    exact mul_le_mul_of_nonneg_left (by norm_num) a2
  linarith

/-- C102, cubic, regular grids: `f32` against `f64` with the same data. -/
theorem C102_cubic_precision_regular (e e' : Evaluator) (he : e.Fits N) (he' : e'.Fits N) (hN8 : N ≤ 8)
    (fma fma' : Bool) (κ : ℚ) (hκ : 0 ≤ κ) (hN : 4200 * N * (1 + κ) ≤ 2 ^ 24)
    (dims : Fin N → Nat) (starts steps : Fin N → F32) (vals : List F32)
    (starts' steps' : Fin N → F64) (vals' : List F64) (lin : Bool)
    (hss : ∀ k, val (starts' k) = val (starts k)) (hpp : ∀ k, val (steps' k) = val (steps k))
    (hvv : vals'.map val = vals.map val)
    (hG : (Axes.regular dims (fun k => val (starts k)) fun k => val (steps k)).Valid 4
      (vals.map val))
    (hfin : ∀ k, Finite (starts k) ∧ Finite (steps k))
    (hfin' : ∀ k, Finite (starts' k) ∧ Finite (steps' k))
    (hnormal : ∀ k, 1 / 2 ^ 126 ≤ val (steps k))
    (hnodes : ∀ k, |val (starts k)| ≤ κ * val (steps k) ∧
      |val (starts k) + val (steps k) * ((dims k - 1 : Nat) : ℚ)| ≤ κ * val (steps k))
    (hlarge : ∀ k, κ * val (steps k) ≤ 2 ^ 124) (M : ℚ) (hM : M ≤ 2 ^ 110) (hM1 : 1 / 2 ^ 126 ≤ M)
    (hvals : ∀ v ∈ vals, Finite v ∧ |val v| ≤ M) (hvals' : ∀ v ∈ vals', Finite v)
    (x : Fin N → F32) (x' : Fin N → F64)
    (hxx : ∀ k, val (x' k) = val (x k)) (hx : ∀ k, Finite (x k)) (hx' : ∀ k, Finite (x' k))
    (hin : ∀ k, InRange (dims k) (fun i => val (starts k) + val (steps k) * (i : ℚ)) (val (x k))) :
    ∃ r r', multicubicRegularAt e fma dims starts steps vals lin x = .ok r ∧
      multicubicRegularAt e' fma' dims starts' steps' vals' lin x' = .ok r' ∧ Finite r ∧ Finite r' ∧
      |val r - val r'| ≤ 4201 * N * (1 + κ) * (1 / 2 ^ 24) * (5 / 4) ^ N * M := by
  have hsf : (fun k => val (starts' k)) = fun k => val (starts k) := funext hss
  have hpf : (fun k => val (steps' k)) = fun k => val (steps k) := funext hpp
  have hxf : (fun k => val (x' k)) = fun k => val (x k) := funext hxx
  have hG' : (Axes.regular dims (fun k => val (starts' k)) fun k => val (steps' k)).Valid 4
      (vals'.map val) := by
    rw [hsf, hpf, hvv]; exact hG
  obtain ⟨r, y, h1, h2, h3, h4⟩ := C82_regular_f32 e he hN8 fma κ hκ hN dims starts steps vals lin hG hfin
    hnormal hnodes hlarge M hM hM1 hvals x hx hin
  obtain ⟨r', y', h1', h2', h3', h4'⟩ := C82_regular_f64 e' he' hN8 fma' κ hκ (hN.trans (by norm_num))
    dims starts' steps' vals' lin hG' hfin'
    (fun k => by rw [hpp k]; exact le_trans (by norm_num) (hnormal k))
    (fun k => by rw [hss k, hpp k]; exact hnodes k)
    (fun k => by rw [hpp k]; exact (hlarge k).trans (by norm_num)) M (hM.trans (by norm_num)) (le_trans (by norm_num) hM1)
    (fun a ha => ⟨hvals' a ha, by
      obtain ⟨b, hb, hab⟩ := List.mem_map.1 (hvv ▸ List.mem_map_of_mem (f := val) ha)
      rw [← hab]
      exact (hvals b hb).2⟩) x' hx'
    (fun k => by rw [hss k, hpp k, hxx k]; exact hin k)
  have : y' = y := by
    rw [hsf, hpf, hvv, hxf] at h3'
    have := (cubic_indep e e' he he' fma fma' _ _ lin hG (fun k => val (x k)) hin).symm.trans h3
    rw [h3'] at this
    exact Res.ok.inj this
  subst this
  refine ⟨r, r', h1, h1', h2, h2', close h4 h4' ?_⟩
  have hM0 := bound_nonneg hG (by norm_num) hvals
  have a1 : (0 : ℚ) ≤ N * (1 + κ) * (5 / 4) ^ N * M := by positivity
  have b1 : 4200 * (N : ℚ) * (1 + κ) * (1 / 2 ^ 53) * (5 / 4) ^ N * M ≤
      N * (1 + κ) * (5 / 4) ^ N * M * (1 / 2 ^ 24) := by
    have : 4200 * (N : ℚ) * (1 + κ) * (1 / 2 ^ 53) * (5 / 4) ^ N * M =
        N * (1 + κ) * (5 / 4) ^ N * M * (4200 / 2 ^ 53) := by ring
    rw [this]
    exact mul_le_mul_of_nonneg_left (by norm_num) a1
  linarith

end

/-! ### Examples -/

/-- Hypotheses of `C102_linear_axes_regular_f64` are satisfied. -/
example : ∃ r r', multilinearRegularAt .flat false ![3, 2] ![q64 (1 / 10), q64 1]
      ![q64 (1 / 10), q64 2] exVals64 ![q64 (2 / 7), q64 (5 / 3)] = .ok r ∧
    multilinearRegularAt .flat true (fun k => ![3, 2] (Equiv.swap 0 1 k))
      (fun k => ![q64 (1 / 10), q64 1] (Equiv.swap 0 1 k))
      (fun k => ![q64 (1 / 10), q64 2] (Equiv.swap 0 1 k))
      [q64 2, q64 (-7), q64 10, q64 6, q64 16, q64 (1 / 3)]
      (fun k => ![q64 (2 / 7), q64 (5 / 3)] (Equiv.swap 0 1 k)) = .ok r' ∧
    |val r - val r'| ≤ 1 / 10 ^ 11 := by
  obtain ⟨r, r', h1, h2, -, -, h4⟩ := C102_linear_axes_regular_f64 .flat .flat (show 0 < 2 by decide)
    (show 0 < 2 by decide) false true 4
    (by norm_num) (by norm_num) ![3, 2] ![q64 (1 / 10), q64 1] ![q64 (1 / 10), q64 2] exVals64
    [q64 2, q64 (-7), q64 10, q64 6, q64 16, q64 (1 / 3)]
    (valid_of_check (by decide +kernel)) (by decide +kernel) (by decide +kernel) (by decide +kernel)
    (by decide +kernel) 16 (by norm_num) (by decide +kernel) (Equiv.swap 0 1)
    (transposed_of_check (by decide +kernel)) (by decide +kernel) ![q64 (2 / 7), q64 (5 / 3)]
    (by decide +kernel) (by unfold InRange; decide +kernel)
  exact ⟨r, r', h1, h2, h4.trans (by norm_num)⟩

/-- Hypotheses of `C102_cubic_axes_regular_f64` are satisfied. -/
example : ∃ r r', multicubicRegularAt .flat true ![4, 5] ![q64 (1 / 10), q64 1]
      ![q64 (1 / 10), q64 2] exVals64c false ![q64 (2 / 7), q64 (5 / 3)] = .ok r ∧
    multicubicRegularAt .flat false (fun k => ![4, 5] (Equiv.swap 0 1 k))
      (fun k => ![q64 (1 / 10), q64 1] (Equiv.swap 0 1 k))
      (fun k => ![q64 (1 / 10), q64 2] (Equiv.swap 0 1 k)) exValsT64 false
      (fun k => ![q64 (2 / 7), q64 (5 / 3)] (Equiv.swap 0 1 k)) = .ok r' ∧
    |val r - val r'| ≤ 1 / 10 ^ 9 := by
  obtain ⟨r, r', h1, h2, -, -, h4⟩ := C102_cubic_axes_regular_f64 .flat .flat (show 0 < 2 by decide)
    (show 0 < 2 by decide) (by norm_num) true false 5
    (by norm_num) (by norm_num) ![4, 5] ![q64 (1 / 10), q64 1] ![q64 (1 / 10), q64 2] exVals64c
    exValsT64 false
    (valid_of_check (by decide +kernel)) (by decide +kernel) (by decide +kernel) (by decide +kernel)
    (by decide +kernel) 16 (by norm_num) (by norm_num) (by decide +kernel) (Equiv.swap 0 1)
    (transposed_of_check (by decide +kernel)) (by decide +kernel)
    ![q64 (2 / 7), q64 (5 / 3)] (by decide +kernel) (by unfold InRange; decide +kernel)
  exact ⟨r, r', h1, h2, h4.trans (by norm_num)⟩

/-- Hypotheses of `C102_linear_axes_regular_f32` are satisfied. -/
example : ∃ r r', multilinearRegularAt .flat false ![3, 2] ![q32 (1 / 10), q32 1]
      ![q32 (1 / 10), q32 2] exVals32 ![q32 (2 / 7), q32 (5 / 3)] = .ok r ∧
    multilinearRegularAt .flat true (fun k => ![3, 2] (Equiv.swap 0 1 k))
      (fun k => ![q32 (1 / 10), q32 1] (Equiv.swap 0 1 k))
      (fun k => ![q32 (1 / 10), q32 2] (Equiv.swap 0 1 k))
      [q32 2, q32 (-7), q32 10, q32 6, q32 16, q32 (1 / 3)]
      (fun k => ![q32 (2 / 7), q32 (5 / 3)] (Equiv.swap 0 1 k)) = .ok r' ∧
    |val r - val r'| ≤ 1 / 10 := by
  obtain ⟨r, r', h1, h2, -, -, h4⟩ := C102_linear_axes_regular_f32 .flat .flat (show 0 < 2 by decide)
    (show 0 < 2 by decide) false true 4
    (by norm_num) (by norm_num) ![3, 2] ![q32 (1 / 10), q32 1] ![q32 (1 / 10), q32 2] exVals32
    [q32 2, q32 (-7), q32 10, q32 6, q32 16, q32 (1 / 3)]
    (valid_of_check (by decide +kernel)) (by decide +kernel) (by decide +kernel) (by decide +kernel)
    (by decide +kernel) 16 (by norm_num) (by decide +kernel) (Equiv.swap 0 1)
    (transposed_of_check (by decide +kernel)) (by decide +kernel) ![q32 (2 / 7), q32 (5 / 3)]
    (by decide +kernel) (by unfold InRange; decide +kernel)
  exact ⟨r, r', h1, h2, h4.trans (by norm_num)⟩

/-- Hypotheses of `C102_cubic_axes_regular_f32` are satisfied. -/
example : ∃ r r', multicubicRegularAt .flat true ![4, 5] ![q32 (1 / 10), q32 1]
      ![q32 (1 / 10), q32 2] exVals32c false ![q32 (2 / 7), q32 (5 / 3)] = .ok r ∧
    multicubicRegularAt .flat false (fun k => ![4, 5] (Equiv.swap 0 1 k))
      (fun k => ![q32 (1 / 10), q32 1] (Equiv.swap 0 1 k))
      (fun k => ![q32 (1 / 10), q32 2] (Equiv.swap 0 1 k)) exValsT32 false
      (fun k => ![q32 (2 / 7), q32 (5 / 3)] (Equiv.swap 0 1 k)) = .ok r' ∧
    |val r - val r'| ≤ 1 := by
  obtain ⟨r, r', h1, h2, -, -, h4⟩ := C102_cubic_axes_regular_f32 .flat .flat (show 0 < 2 by decide)
    (show 0 < 2 by decide) (by norm_num) true false 5
    (by norm_num) (by norm_num) ![4, 5] ![q32 (1 / 10), q32 1] ![q32 (1 / 10), q32 2] exVals32c
    exValsT32 false
    (valid_of_check (by decide +kernel)) (by decide +kernel) (by decide +kernel) (by decide +kernel)
    (by decide +kernel) 16 (by norm_num) (by norm_num) (by decide +kernel) (Equiv.swap 0 1)
    (transposed_of_check (by decide +kernel)) (by decide +kernel)
    ![q32 (2 / 7), q32 (5 / 3)] (by decide +kernel) (by unfold InRange; decide +kernel)
  exact ⟨r, r', h1, h2, h4.trans (by norm_num)⟩

/-- Hypotheses of `C102_linear_precision_regular` are satisfied. -/
example : ∃ r r', multilinearRegularAt .flat false ![3, 2] ![q32 (1 / 10), q32 1] ![q32 (1 / 10), q32 2] exVals32
      ![q32 (2 / 7), q32 (5 / 3)] = .ok r ∧
    multilinearRegularAt .flat false ![3, 2] (fun k => q64 (val (![q32 (1 / 10), q32 1] k)))
      (fun k => q64 (val (![q32 (1 / 10), q32 2] k))) (exVals32.map fun a => q64 (val a))
      (fun k => q64 (val (![q32 (2 / 7), q32 (5 / 3)] k))) = .ok r' ∧ |val r - val r'| ≤ 1 / 10 := by
  obtain ⟨r, r', h1, h2, -, -, h4⟩ := C102_linear_precision_regular .flat .flat (show 0 < 2 by decide)
    (show 0 < 2 by decide) false false 4 (by norm_num) (by norm_num) ![3, 2]
    ![q32 (1 / 10), q32 1] ![q32 (1 / 10), q32 2] exVals32
    (fun k => q64 (val (![q32 (1 / 10), q32 1] k))) (fun k => q64 (val (![q32 (1 / 10), q32 2] k)))
    (exVals32.map fun a => q64 (val a)) (by decide +kernel) (by decide +kernel) (by decide +kernel)
    (valid_of_check (by decide +kernel)) (by decide +kernel) (by decide +kernel) (by decide +kernel)
    (by decide +kernel) (by decide +kernel) 16 (by norm_num) (by decide +kernel)
    (by decide +kernel) ![q32 (2 / 7), q32 (5 / 3)] (fun k => q64 (val (![q32 (2 / 7), q32 (5 / 3)] k)))
    (by decide +kernel) (by decide +kernel) (by decide +kernel) (by unfold InRange; decide +kernel)
  exact ⟨r, r', h1, h2, h4.trans (by norm_num)⟩

/-- Hypotheses of `C102_cubic_precision_regular` are satisfied. -/
example : ∃ r r', multicubicRegularAt .flat false ![4, 5] ![q32 (1 / 10), q32 1] ![q32 (1 / 10), q32 2] exVals32c false
      ![q32 (2 / 7), q32 (5 / 3)] = .ok r ∧
    multicubicRegularAt .flat false ![4, 5] (fun k => q64 (val (![q32 (1 / 10), q32 1] k)))
      (fun k => q64 (val (![q32 (1 / 10), q32 2] k))) (exVals32c.map fun a => q64 (val a)) false
      (fun k => q64 (val (![q32 (2 / 7), q32 (5 / 3)] k))) = .ok r' ∧ |val r - val r'| ≤ 1 := by
  obtain ⟨r, r', h1, h2, -, -, h4⟩ := C102_cubic_precision_regular .flat .flat (show 0 < 2 by decide)
    (show 0 < 2 by decide) (by norm_num) false false 5 (by norm_num) (by norm_num) ![4, 5]
    ![q32 (1 / 10), q32 1] ![q32 (1 / 10), q32 2] exVals32c
    (fun k => q64 (val (![q32 (1 / 10), q32 1] k))) (fun k => q64 (val (![q32 (1 / 10), q32 2] k)))
    (exVals32c.map fun a => q64 (val a)) false (by decide +kernel) (by decide +kernel) (by decide +kernel)
    (valid_of_check (by decide +kernel)) (by decide +kernel) (by decide +kernel) (by decide +kernel)
    (by decide +kernel) (by decide +kernel) 16 (by norm_num) (by norm_num) (by decide +kernel)
    (by decide +kernel) ![q32 (2 / 7), q32 (5 / 3)] (fun k => q64 (val (![q32 (2 / 7), q32 (5 / 3)] k)))
    (by decide +kernel) (by decide +kernel) (by decide +kernel) (by unfold InRange; decide +kernel)
  exact ⟨r, r', h1, h2, h4.trans (by norm_num)⟩

end Interpn
