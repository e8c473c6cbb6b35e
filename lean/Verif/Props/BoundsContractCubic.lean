import Verif.Props.BoundsContract
import Verif.Props.IeeeCubicOut
import Verif.Lemmas.IeeeExamples

/-! C113 for multicubic interpolation in IEEE 754 arithmetic: what a passed bounds check guarantees
about the results. -/

set_option autoImplicit false
set_option linter.unusedSectionVars false
set_option exponentiation.threshold 1100

namespace Interpn
open FloatOps Ieee

section Exact
attribute [local instance] exactOps
variable {K : Type} [Field K] [LinearOrder K] [IsStrictOrderedRing K] [FloorRing K] {N : Nat}

/-- Multicubic results near the range, in terms of the range of the values. -/
theorem multicubic_near (e : Evaluator) (he : e.Fits N) (fma : Bool) (G : Axes K N)
    (vals : List K) (lin : Bool) (hG : G.Valid 4 vals) (lo hi : K)
    (hv : ∀ v ∈ vals, lo ≤ v ∧ v ≤ hi) (ρ : K) (hρ1 : 1 ≤ ρ)
    (hρ : ∀ k, MeshRatio (G.size k) (G.node k) ρ) (x : Fin N → K) (hx : G.RepresentableCubic x)
    (lam : K) (hlam : 0 ≤ lam) (hin : ∀ k, NearRange (G.size k) (G.node k) lam (x k)) :
    ∃ y, multicubicAt e fma G vals lin x = .ok y ∧
      |y - (lo + hi) / 2| ≤
        (1 + ρ ^ 2 / (2 * (1 + ρ)) + 8 * ρ * (lam * (1 + lam))) ^ N * ((hi - lo) / 2) := by
  have hc : G.Valid 4 (List.replicate vals.length ((lo + hi) / 2)) :=
    ⟨by have := hG.slice; unfold IsSlice at *; simpa using this, by simpa using hG.len, hG.big,
      hG.increasing⟩
  obtain ⟨y, y', h1, h2, h3⟩ := C93_stability e he fma G vals
    (List.replicate vals.length ((lo + hi) / 2)) lin hG hc ((hi - lo) / 2)
    (fun i h h' => by
      have := hv _ (List.getElem_mem h)
      rw [List.getElem_replicate, abs_le]
      constructor <;> linarith) ρ hρ1 hρ x hx lam hlam hin
  rw [C24_multicubic_constant e he fma G _ lin hc ((lo + hi) / 2)
    (fun y hy => List.eq_of_mem_replicate hy) x hx] at h2
  cases h2
  exact ⟨y, h1, h3⟩

end Exact

/-- C113, `f64`, rectilinear grids, multicubic: if the bounds check flags no axis of a batch of
finite observations, every result is finite and leaves the range `lo..hi` of the values by no more
than the tolerance and the overshoot of cubics allow, up to rounding: `lam` bounds the tolerance in
units of the end cells, `M` the values, `ρ` the ratio of the widths of adjacent cells. -/
theorem C113_cubic_rectilinear_f64 {N : Nat} (e : Evaluator) (he : e.Fits N) (hN8 : N ≤ 8) (fma : Bool)
    (grids : Fin N → List F64) (vals : List F64) (lin : Bool)
    (hG : (Axes.rectilinear fun k => (grids k).map val).Valid 4 (vals.map val))
    (hgrid : ∀ k, ∀ a ∈ grids k, Finite a ∧ |val a| ≤ 2 ^ 1021)
    (lo hi M lam : ℚ) (hv : ∀ v ∈ vals, Finite v ∧ lo ≤ val v ∧ val v ≤ hi)
    (hlo : |lo| ≤ M) (hhi : |hi| ≤ M) (hlam : 0 ≤ lam)
    (hM : M ≤ 2 ^ 500) (hM1 : 1 / 2 ^ 1022 ≤ M) (ρ : ℚ) (hρ : 1 ≤ ρ)
    (hN : 3200 * N * (ρ * (1 + lam) ^ 3) ≤ 2 ^ 53)
    (hmesh : ∀ k, MeshRatio (grids k).length (fun i => ((grids k).map val).getD i 0) ρ)
    (obs : Fin N → List F64) (hobs : ∀ k, ∀ x ∈ obs k, Finite x)
    (atol : F64) (hat : Finite atol) (hat0 : 0 ≤ val atol) (hat1 : val atol ≤ 2 ^ 1021)
    (hatol : ∀ k, val atol ≤ lam * (((grids k).map val).getD 1 0 - ((grids k).map val).getD 0 0) ∧
      val atol ≤ lam * (((grids k).map val).getD ((grids k).length - 1) 0 -
        ((grids k).map val).getD ((grids k).length - 2) 0))
    (out : List Bool) (hcheck : checkBoundsRectilinear (List.ofFn grids) (List.ofFn obs) atol out =
      (.ok (), List.replicate N false)) (x : Fin N → F64) (hx : ∀ k, x k ∈ obs k) :
    ∃ r, multicubicRectilinearAt e fma grids vals lin x = .ok r ∧ Finite r ∧
      |val r - (lo + hi) / 2| ≤ (1 + ρ ^ 2 / (2 * (1 + ρ)) + 8 * ρ * (lam * (1 + lam))) ^ N *
        ((hi - lo) / 2 + 3200 * N * (ρ * (1 + lam) ^ 3) * (1 / 2 ^ 53) * M) := by
  have hb : ∀ k, 4 ≤ (grids k).length := fun k => by simpa [Axes.size] using hG.big k
  have hins := inside_of_checkBoundsRectilinear (fun k => (by norm_num : 1 ≤ 4).trans (hb k))
    (fun k a ha => (hgrid k a ha).1) hobs hat hat0 hcheck hx
  have hin : ∀ k, NearRange (grids k).length (fun i => ((grids k).map val).getD i 0) lam
      (val (x k)) := fun k =>
    ⟨by linarith [(hins k).1, (hatol k).1], by linarith [(hins k).2, (hatol k).2]⟩
  have hnode : ∀ k i, i < (grids k).length → |((grids k).map val).getD i 0| ≤ 2 ^ 1021 := by
    intro k i hi
    rw [List.getD_eq_getElem _ _ (by simpa using hi), List.getElem_map]
    exact (hgrid k _ (List.getElem_mem hi)).2
  have hxb : ∀ k, |val (x k)| ≤ 2 ^ 1022 := by
    intro k
    have h1 := abs_le.1 (hnode k 0 (by have := hb k; omega))
    have h2 := abs_le.1 (hnode k ((grids k).length - 1) (by have := hb k; omega))
    have h3 := hins k
    have e2 : (2 : ℚ) ^ 1022 = 2 ^ 1021 + 2 ^ 1021 := by rw [pow_succ]; ring
    rw [abs_le, e2]
    constructor <;> linarith
  have hMv : ∀ v ∈ vals, Finite v ∧ |val v| ≤ M := fun v hvm => by
    obtain ⟨h1, h2, h3⟩ := hv v hvm
    have := abs_le.1 hlo
    have := abs_le.1 hhi
    exact ⟨h1, abs_le.2 ⟨by linarith, by linarith⟩⟩
  obtain ⟨r, y, h1, h2, h3, h4⟩ := C93_rectilinear_f64 e he hN8 fma grids vals lin hG
    (fun k a ha => ⟨(hgrid k a ha).1, (hgrid k a ha).2.trans
      (pow_le_pow_right₀ (by norm_num) (by norm_num))⟩) M hM hM1 hMv x
    (fun k => ⟨hobs k _ (hx k), hxb k⟩) lam hlam hin ρ hρ hN hmesh
  obtain ⟨y', h5, h6⟩ := multicubic_near e he fma (.rectilinear fun k => (grids k).map val)
    (vals.map val) lin hG lo hi (by
      intro v hvm
      obtain ⟨w, hw, rfl⟩ := List.mem_map.1 hvm
      exact (hv w hw).2) ρ hρ (by
      intro k
      show MeshRatio ((grids k).map val).length _ ρ
      rw [List.length_map]
      exact hmesh k) (fun k => val (x k)) trivial lam hlam (by
      intro k
      show NearRange ((grids k).map val).length _ lam _
      rw [List.length_map]
      exact hin k)
  obtain rfl : y = y' := by rw [h3] at h5; injection h5
  refine ⟨r, h1, h2, ?_⟩
  have := abs_add_le (val r - y) (y - (lo + hi) / 2)
  rw [sub_add_sub_cancel] at this
  calc _ ≤ _ := this.trans (add_le_add h4 h6)
    _ = _ := by ring

/-- C113, `f64`, regular grids, multicubic: the same. The tolerance and the error of the computed
end of the axis (`endError`, C85) are together at most `lam` steps; nodes widened by `lam` steps are
of size up to `κ` steps. -/
theorem C113_cubic_regular_f64 {N : Nat} (e : Evaluator) (he : e.Fits N) (hN8 : N ≤ 8) (fma : Bool)
    (κ lam : ℚ)
    (hlam : 0 ≤ lam) (hlam1 : lam ≤ 1) (hlamκ : lam ≤ κ)
    (hN : 4200 * N * ((1 + κ) * (1 + lam) ^ 3) ≤ 2 ^ 53)
    (dims : Fin N → Nat) (starts steps : Fin N → F64) (vals : List F64) (lin : Bool)
    (hG : (Axes.regular dims (fun k => val (starts k)) fun k => val (steps k)).Valid 4
      (vals.map val))
    (hfin : ∀ k, Finite (starts k) ∧ Finite (steps k)) (hnormal : ∀ k, 1 / 2 ^ 1022 ≤ val (steps k))
    (hnodes : ∀ k, |val (starts k)| ≤ (κ - lam) * val (steps k) ∧
      |val (starts k) + val (steps k) * ((dims k - 1 : Nat) : ℚ)| ≤ (κ - lam) * val (steps k))
    (hlarge : ∀ k, κ * val (steps k) ≤ 2 ^ 1020) (lo hi M : ℚ)
    (hv : ∀ v ∈ vals, Finite v ∧ lo ≤ val v ∧ val v ≤ hi) (hlo : |lo| ≤ M) (hhi : |hi| ≤ M)
    (hM : M ≤ 2 ^ 500) (hM1 : 1 / 2 ^ 1022 ≤ M)
    (obs : Fin N → List F64) (hobs : ∀ k, ∀ x ∈ obs k, Finite x)
    (atol : F64) (hat : Finite atol) (hat0 : 0 ≤ val atol)
    (hatol : ∀ k, val atol + endError Format.binary64 (dims k) (val (starts k)) (val (steps k)) ≤
      lam * val (steps k))
    (out : List Bool) (hcheck : checkBoundsRegular (List.ofFn dims) (List.ofFn starts)
      (List.ofFn steps) (List.ofFn obs) atol out = (.ok (), List.replicate N false))
    (x : Fin N → F64) (hx : ∀ k, x k ∈ obs k) :
    ∃ r, multicubicRegularAt e fma dims starts steps vals lin x = .ok r ∧ Finite r ∧
      |val r - (lo + hi) / 2| ≤ (5 / 4 + 8 * (lam * (1 + lam))) ^ N *
        ((hi - lo) / 2 + 4200 * N * ((1 + κ) * (1 + lam) ^ 3) * (1 / 2 ^ 53) * M) := by
  have hb4 : ∀ k, 4 ≤ dims k := fun k => by simpa [Axes.size] using hG.big k
  have hb : ∀ k, 2 ≤ dims k := fun k => le_trans (by norm_num) (hb4 k)
  have hpos : ∀ k, 0 < val (steps k) := fun k => lt_of_lt_of_le (by positivity) (hnormal k)
  have hwide : ∀ k, val (steps k) * ((dims k - 1 : Nat) : ℚ) ≤ 2 * κ * val (steps k) := fun k => by
    have h1 := abs_le.1 (hnodes k).1
    have h2 := abs_le.1 (hnodes k).2
    have := mul_nonneg hlam (hpos k).le
    nlinarith
  have hκ : ∀ _ : Fin N, 100 * (1 + κ) ≤ 2 ^ 53 := fun k => by
    have h1 : (1 : ℚ) ≤ N := by exact_mod_cast (by have := k.2; omega : 1 ≤ N)
    have h2 : (1 : ℚ) ≤ (1 + lam) ^ 3 := one_le_pow₀ (by linarith)
    have h3 : 0 ≤ 1 + κ := by linarith
    have h4 : 1 + κ ≤ (1 + κ) * (1 + lam) ^ 3 := le_mul_of_one_le_right h3 h2
    have h5 : (1 + κ) * (1 + lam) ^ 3 ≤ N * ((1 + κ) * (1 + lam) ^ 3) :=
      le_mul_of_one_le_left (h3.trans h4) h1
    linarith
  have hdims : ∀ k, dims k ≤ 2 ^ Format.binary64.p + 1 := fun k => by
    have h1 : ((dims k - 1 : Nat) : ℚ) ≤ 2 * κ := by
      have := hwide k
      rw [mul_comm] at this
      exact le_of_mul_le_mul_right this (hpos k)
    have h2 : ((dims k - 1 : Nat) : ℚ) ≤ (2 : ℚ) ^ 53 := by have := hκ k; linarith
    have h3 : dims k - 1 ≤ 2 ^ 53 := by exact_mod_cast h2
    show dims k ≤ 2 ^ 53 + 1
    omega
  have hbig : ∀ k, |val (starts k)| + (1 + Format.binary64.unitRoundoff) *
      (val (steps k) * ((dims k - 1 : Nat) : ℚ)) + Format.binary64.underflow ≤
        Format.binary64.omega := fun k => by
    have hΩ := binary64_Ω
    rw [binary64_u, binary64_η]
    have h1 := (hnodes k).1
    have h2 := hwide k
    have h3 := hlarge k
    have h4 := mul_nonneg hlam (hpos k).le
    have h5 : 0 ≤ val (steps k) * ((dims k - 1 : Nat) : ℚ) := mul_nonneg (hpos k).le (by positivity)
    refine le_trans ?_ hΩ
    norm_num at h3 ⊢
    linarith
  have hend : ∀ k, 0 ≤ endError Format.binary64 (dims k) (val (starts k)) (val (steps k)) :=
    fun k => by
      unfold endError
      rw [binary64_u, binary64_η]
      have := hpos k
      positivity
  have hins := inside_of_checkBoundsRegular (fun k => (by norm_num : 1 ≤ 2).trans (hb k)) hdims hfin
    hpos hbig hobs hat hat0 hcheck hx
  have e2 : ∀ k, ((dims k - 1 : Nat) : ℚ) - ((dims k - 2 : Nat) : ℚ) = 1 := fun k => by
    rw [Nat.cast_sub (by have := hb k; omega), Nat.cast_sub (hb k)]
    push_cast
    ring
  have hin : ∀ k, NearRange (dims k) (fun i => val (starts k) + val (steps k) * (i : ℚ)) lam
      (val (x k)) := fun k => by
    have h1 := hins k
    have h2 := hatol k
    have h3 := hend k
    have h4 : lam * (val (starts k) + val (steps k) * ((dims k - 1 : Nat) : ℚ) -
        (val (starts k) + val (steps k) * ((dims k - 2 : Nat) : ℚ))) = lam * val (steps k) := by
      rw [add_sub_add_left_eq_sub, ← mul_sub, e2 k, mul_one]
    constructor
    · push_cast
      linarith
    · show val (x k) ≤ val (starts k) + val (steps k) * ((dims k - 1 : Nat) : ℚ) + lam * _
      rw [h4]
      linarith
  have hMv : ∀ v ∈ vals, Finite v ∧ |val v| ≤ M := fun v hvm => by
    obtain ⟨h1, h2, h3⟩ := hv v hvm
    have := abs_le.1 hlo
    have := abs_le.1 hhi
    exact ⟨h1, abs_le.2 ⟨by linarith, by linarith⟩⟩
  have hxb : ∀ k, |val (x k)| ≤ κ * val (steps k) := fun k => by
    have h1 := hins k
    have h2 := hatol k
    have h3 := hend k
    have h4 := abs_le.1 (hnodes k).1
    have h5 := abs_le.1 (hnodes k).2
    rw [abs_le]
    constructor <;> linarith
  have hnodes' : ∀ k, |val (starts k)| ≤ κ * val (steps k) ∧
      |val (starts k) + val (steps k) * ((dims k - 1 : Nat) : ℚ)| ≤ κ * val (steps k) := fun k => by
    have := mul_nonneg hlam (hpos k).le
    exact ⟨by linarith [(hnodes k).1], by linarith [(hnodes k).2]⟩
  obtain ⟨r, y, h1, h2, h3, h4⟩ := C93_regular_f64 e he hN8 fma κ lam hlam hlamκ hN dims starts
    steps vals lin hG hfin hnormal hnodes' hlarge M hM hM1 hMv x (fun k => ⟨hobs k _ (hx k), hxb k⟩)
    hin
  obtain ⟨y', h5, h6⟩ := multicubic_near e he fma
    (.regular dims (fun k => val (starts k)) fun k => val (steps k))
    (vals.map val) lin hG lo hi (by
      intro v hvm
      obtain ⟨w, hw, rfl⟩ := List.mem_map.1 hvm
      exact (hv w hw).2) 1 le_rfl (meshRatio_regular _ _ _) (fun k => val (x k))
    (hG.nearRange_fits (by norm_num) hlam1 hin _ (by norm_num)) lam hlam hin
  obtain rfl : y = y' := by rw [h3] at h5; injection h5
  refine ⟨r, h1, h2, ?_⟩
  have := abs_add_le (val r - y) (y - (lo + hi) / 2)
  rw [sub_add_sub_cancel] at this
  have e5 : (1 : ℚ) + 1 ^ 2 / (2 * (1 + 1)) + 8 * 1 * (lam * (1 + lam)) =
    5 / 4 + 8 * (lam * (1 + lam)) := by ring
  rw [e5] at h6
  calc _ ≤ _ := this.trans (add_le_add h4 h6)
    _ = _ := by ring

/-- C113, `f32`, rectilinear grids, multicubic: if the bounds check flags no axis of a batch of
finite observations, every result is finite and leaves the range `lo..hi` of the values by no more
than the tolerance and the overshoot of cubics allow, up to rounding: `lam` bounds the tolerance in
units of the end cells, `M` the values, `ρ` the ratio of the widths of adjacent cells. -/
theorem C113_cubic_rectilinear_f32 {N : Nat} (e : Evaluator) (he : e.Fits N) (hN8 : N ≤ 8) (fma : Bool)
    (grids : Fin N → List F32) (vals : List F32) (lin : Bool)
    (hG : (Axes.rectilinear fun k => (grids k).map val).Valid 4 (vals.map val))
    (hgrid : ∀ k, ∀ a ∈ grids k, Finite a ∧ |val a| ≤ 2 ^ 125)
    (lo hi M lam : ℚ) (hv : ∀ v ∈ vals, Finite v ∧ lo ≤ val v ∧ val v ≤ hi)
    (hlo : |lo| ≤ M) (hhi : |hi| ≤ M) (hlam : 0 ≤ lam)
    (hM : M ≤ 2 ^ 40) (hM1 : 1 / 2 ^ 126 ≤ M) (ρ : ℚ) (hρ : 1 ≤ ρ)
    (hlam1 : lam ≤ 1) (hρ2 : ρ ≤ 2 ^ 4)
    (hN : 3200 * N * (ρ * (1 + lam) ^ 3) ≤ 2 ^ 24)
    (hmesh : ∀ k, MeshRatio (grids k).length (fun i => ((grids k).map val).getD i 0) ρ)
    (obs : Fin N → List F32) (hobs : ∀ k, ∀ x ∈ obs k, Finite x)
    (atol : F32) (hat : Finite atol) (hat0 : 0 ≤ val atol) (hat1 : val atol ≤ 2 ^ 125)
    (hatol : ∀ k, val atol ≤ lam * (((grids k).map val).getD 1 0 - ((grids k).map val).getD 0 0) ∧
      val atol ≤ lam * (((grids k).map val).getD ((grids k).length - 1) 0 -
        ((grids k).map val).getD ((grids k).length - 2) 0))
    (out : List Bool) (hcheck : checkBoundsRectilinear (List.ofFn grids) (List.ofFn obs) atol out =
      (.ok (), List.replicate N false)) (x : Fin N → F32) (hx : ∀ k, x k ∈ obs k) :
    ∃ r, multicubicRectilinearAt e fma grids vals lin x = .ok r ∧ Finite r ∧
      |val r - (lo + hi) / 2| ≤ (1 + ρ ^ 2 / (2 * (1 + ρ)) + 8 * ρ * (lam * (1 + lam))) ^ N *
        ((hi - lo) / 2 + 3200 * N * (ρ * (1 + lam) ^ 3) * (1 / 2 ^ 24) * M) := by
  have hb : ∀ k, 4 ≤ (grids k).length := fun k => by simpa [Axes.size] using hG.big k
  have hins := inside_of_checkBoundsRectilinear (fun k => (by norm_num : 1 ≤ 4).trans (hb k))
    (fun k a ha => (hgrid k a ha).1) hobs hat hat0 hcheck hx
  have hin : ∀ k, NearRange (grids k).length (fun i => ((grids k).map val).getD i 0) lam
      (val (x k)) := fun k =>
    ⟨by linarith [(hins k).1, (hatol k).1], by linarith [(hins k).2, (hatol k).2]⟩
  have hnode : ∀ k i, i < (grids k).length → |((grids k).map val).getD i 0| ≤ 2 ^ 125 := by
    intro k i hi
    rw [List.getD_eq_getElem _ _ (by simpa using hi), List.getElem_map]
    exact (hgrid k _ (List.getElem_mem hi)).2
  have hxb : ∀ k, |val (x k)| ≤ 2 ^ 126 := by
    intro k
    have h1 := abs_le.1 (hnode k 0 (by have := hb k; omega))
    have h2 := abs_le.1 (hnode k ((grids k).length - 1) (by have := hb k; omega))
    have h3 := hins k
    have e2 : (2 : ℚ) ^ 126 = 2 ^ 125 + 2 ^ 125 := by rw [pow_succ]; ring
    rw [abs_le, e2]
    constructor <;> linarith
  have hMv : ∀ v ∈ vals, Finite v ∧ |val v| ≤ M := fun v hvm => by
    obtain ⟨h1, h2, h3⟩ := hv v hvm
    have := abs_le.1 hlo
    have := abs_le.1 hhi
    exact ⟨h1, abs_le.2 ⟨by linarith, by linarith⟩⟩
  obtain ⟨r, y, h1, h2, h3, h4⟩ := C93_rectilinear_f32 e he hN8 fma grids vals lin hG
    (fun k a ha => ⟨(hgrid k a ha).1, (hgrid k a ha).2.trans
      (pow_le_pow_right₀ (by norm_num) (by norm_num))⟩) M hM hM1 hMv x
    (fun k => ⟨hobs k _ (hx k), hxb k⟩) lam hlam hlam1 hin ρ hρ hρ2 hN hmesh
  obtain ⟨y', h5, h6⟩ := multicubic_near e he fma (.rectilinear fun k => (grids k).map val)
    (vals.map val) lin hG lo hi (by
      intro v hvm
      obtain ⟨w, hw, rfl⟩ := List.mem_map.1 hvm
      exact (hv w hw).2) ρ hρ (by
      intro k
      show MeshRatio ((grids k).map val).length _ ρ
      rw [List.length_map]
      exact hmesh k) (fun k => val (x k)) trivial lam hlam (by
      intro k
      show NearRange ((grids k).map val).length _ lam _
      rw [List.length_map]
      exact hin k)
  obtain rfl : y = y' := by rw [h3] at h5; injection h5
  refine ⟨r, h1, h2, ?_⟩
  have := abs_add_le (val r - y) (y - (lo + hi) / 2)
  rw [sub_add_sub_cancel] at this
  calc _ ≤ _ := this.trans (add_le_add h4 h6)
    _ = _ := by ring

/-- C113, `f32`, regular grids, multicubic: the same. The tolerance and the error of the computed
end of the axis (`endError`, C85) are together at most `lam` steps; nodes widened by `lam` steps are
of size up to `κ` steps. -/
theorem C113_cubic_regular_f32 {N : Nat} (e : Evaluator) (he : e.Fits N) (hN8 : N ≤ 8) (fma : Bool)
    (κ lam : ℚ)
    (hlam : 0 ≤ lam) (hlam1 : lam ≤ 1) (hlamκ : lam ≤ κ)
    (hN : 4200 * N * ((1 + κ) * (1 + lam) ^ 3) ≤ 2 ^ 24)
    (dims : Fin N → Nat) (starts steps : Fin N → F32) (vals : List F32) (lin : Bool)
    (hG : (Axes.regular dims (fun k => val (starts k)) fun k => val (steps k)).Valid 4
      (vals.map val))
    (hfin : ∀ k, Finite (starts k) ∧ Finite (steps k)) (hnormal : ∀ k, 1 / 2 ^ 126 ≤ val (steps k))
    (hnodes : ∀ k, |val (starts k)| ≤ (κ - lam) * val (steps k) ∧
      |val (starts k) + val (steps k) * ((dims k - 1 : Nat) : ℚ)| ≤ (κ - lam) * val (steps k))
    (hlarge : ∀ k, κ * val (steps k) ≤ 2 ^ 124) (lo hi M : ℚ)
    (hv : ∀ v ∈ vals, Finite v ∧ lo ≤ val v ∧ val v ≤ hi) (hlo : |lo| ≤ M) (hhi : |hi| ≤ M)
    (hM : M ≤ 2 ^ 30) (hM1 : 1 / 2 ^ 126 ≤ M)
    (obs : Fin N → List F32) (hobs : ∀ k, ∀ x ∈ obs k, Finite x)
    (atol : F32) (hat : Finite atol) (hat0 : 0 ≤ val atol)
    (hatol : ∀ k, val atol + endError Format.binary32 (dims k) (val (starts k)) (val (steps k)) ≤
      lam * val (steps k))
    (out : List Bool) (hcheck : checkBoundsRegular (List.ofFn dims) (List.ofFn starts)
      (List.ofFn steps) (List.ofFn obs) atol out = (.ok (), List.replicate N false))
    (x : Fin N → F32) (hx : ∀ k, x k ∈ obs k) :
    ∃ r, multicubicRegularAt e fma dims starts steps vals lin x = .ok r ∧ Finite r ∧
      |val r - (lo + hi) / 2| ≤ (5 / 4 + 8 * (lam * (1 + lam))) ^ N *
        ((hi - lo) / 2 + 4200 * N * ((1 + κ) * (1 + lam) ^ 3) * (1 / 2 ^ 24) * M) := by
  have hb4 : ∀ k, 4 ≤ dims k := fun k => by simpa [Axes.size] using hG.big k
  have hb : ∀ k, 2 ≤ dims k := fun k => le_trans (by norm_num) (hb4 k)
  have hpos : ∀ k, 0 < val (steps k) := fun k => lt_of_lt_of_le (by positivity) (hnormal k)
  have hwide : ∀ k, val (steps k) * ((dims k - 1 : Nat) : ℚ) ≤ 2 * κ * val (steps k) := fun k => by
    have h1 := abs_le.1 (hnodes k).1
    have h2 := abs_le.1 (hnodes k).2
    have := mul_nonneg hlam (hpos k).le
    nlinarith
  have hκ : ∀ _ : Fin N, 100 * (1 + κ) ≤ 2 ^ 24 := fun k => by
    have h1 : (1 : ℚ) ≤ N := by exact_mod_cast (by have := k.2; omega : 1 ≤ N)
    have h2 : (1 : ℚ) ≤ (1 + lam) ^ 3 := one_le_pow₀ (by linarith)
    have h3 : 0 ≤ 1 + κ := by linarith
    have h4 : 1 + κ ≤ (1 + κ) * (1 + lam) ^ 3 := le_mul_of_one_le_right h3 h2
    have h5 : (1 + κ) * (1 + lam) ^ 3 ≤ N * ((1 + κ) * (1 + lam) ^ 3) :=
      le_mul_of_one_le_left (h3.trans h4) h1
    linarith
  have hdims : ∀ k, dims k ≤ 2 ^ Format.binary32.p + 1 := fun k => by
    have h1 : ((dims k - 1 : Nat) : ℚ) ≤ 2 * κ := by
      have := hwide k
      rw [mul_comm] at this
      exact le_of_mul_le_mul_right this (hpos k)
    have h2 : ((dims k - 1 : Nat) : ℚ) ≤ (2 : ℚ) ^ 24 := by have := hκ k; linarith
    have h3 : dims k - 1 ≤ 2 ^ 24 := by exact_mod_cast h2
    show dims k ≤ 2 ^ 24 + 1
    omega
  have hbig : ∀ k, |val (starts k)| + (1 + Format.binary32.unitRoundoff) *
      (val (steps k) * ((dims k - 1 : Nat) : ℚ)) + Format.binary32.underflow ≤
        Format.binary32.omega := fun k => by
    have hΩ := binary32_Ω
    rw [binary32_u, binary32_η]
    have h1 := (hnodes k).1
    have h2 := hwide k
    have h3 := hlarge k
    have h4 := mul_nonneg hlam (hpos k).le
    have h5 : 0 ≤ val (steps k) * ((dims k - 1 : Nat) : ℚ) := mul_nonneg (hpos k).le (by positivity)
    refine le_trans ?_ hΩ
    norm_num at h3 ⊢
    linarith
  have hend : ∀ k, 0 ≤ endError Format.binary32 (dims k) (val (starts k)) (val (steps k)) :=
    fun k => by
      unfold endError
      rw [binary32_u, binary32_η]
      have := hpos k
      positivity
  have hins := inside_of_checkBoundsRegular (fun k => (by norm_num : 1 ≤ 2).trans (hb k)) hdims hfin
    hpos hbig hobs hat hat0 hcheck hx
  have e2 : ∀ k, ((dims k - 1 : Nat) : ℚ) - ((dims k - 2 : Nat) : ℚ) = 1 := fun k => by
    rw [Nat.cast_sub (by have := hb k; omega), Nat.cast_sub (hb k)]
    push_cast
    ring
  have hin : ∀ k, NearRange (dims k) (fun i => val (starts k) + val (steps k) * (i : ℚ)) lam
      (val (x k)) := fun k => by
    have h1 := hins k
    have h2 := hatol k
    have h3 := hend k
    have h4 : lam * (val (starts k) + val (steps k) * ((dims k - 1 : Nat) : ℚ) -
        (val (starts k) + val (steps k) * ((dims k - 2 : Nat) : ℚ))) = lam * val (steps k) := by
      rw [add_sub_add_left_eq_sub, ← mul_sub, e2 k, mul_one]
    constructor
    · push_cast
      linarith
    · show val (x k) ≤ val (starts k) + val (steps k) * ((dims k - 1 : Nat) : ℚ) + lam * _
      rw [h4]
      linarith
  have hMv : ∀ v ∈ vals, Finite v ∧ |val v| ≤ M := fun v hvm => by
    obtain ⟨h1, h2, h3⟩ := hv v hvm
    have := abs_le.1 hlo
    have := abs_le.1 hhi
    exact ⟨h1, abs_le.2 ⟨by linarith, by linarith⟩⟩
  have hxb : ∀ k, |val (x k)| ≤ κ * val (steps k) := fun k => by
    have h1 := hins k
    have h2 := hatol k
    have h3 := hend k
    have h4 := abs_le.1 (hnodes k).1
    have h5 := abs_le.1 (hnodes k).2
    rw [abs_le]
    constructor <;> linarith
  have hnodes' : ∀ k, |val (starts k)| ≤ κ * val (steps k) ∧
      |val (starts k) + val (steps k) * ((dims k - 1 : Nat) : ℚ)| ≤ κ * val (steps k) := fun k => by
    have := mul_nonneg hlam (hpos k).le
    exact ⟨by linarith [(hnodes k).1], by linarith [(hnodes k).2]⟩
  obtain ⟨r, y, h1, h2, h3, h4⟩ := C93_regular_f32 e he hN8 fma κ lam hlam hlamκ hN dims starts
    steps vals lin hG hfin hnormal hnodes' hlarge M hM hM1 hMv x (fun k => ⟨hobs k _ (hx k), hxb k⟩)
    hin
  obtain ⟨y', h5, h6⟩ := multicubic_near e he fma
    (.regular dims (fun k => val (starts k)) fun k => val (steps k))
    (vals.map val) lin hG lo hi (by
      intro v hvm
      obtain ⟨w, hw, rfl⟩ := List.mem_map.1 hvm
      exact (hv w hw).2) 1 le_rfl (meshRatio_regular _ _ _) (fun k => val (x k))
    (hG.nearRange_fits (by norm_num) hlam1 hin _ (by norm_num)) lam hlam hin
  obtain rfl : y = y' := by rw [h3] at h5; injection h5
  refine ⟨r, h1, h2, ?_⟩
  have := abs_add_le (val r - y) (y - (lo + hi) / 2)
  rw [sub_add_sub_cancel] at this
  have e5 : (1 : ℚ) + 1 ^ 2 / (2 * (1 + 1)) + 8 * 1 * (lam * (1 + lam)) =
    5 / 4 + 8 * (lam * (1 + lam)) := by ring
  rw [e5] at h6
  calc _ ≤ _ := this.trans (add_le_add h4 h6)
    _ = _ := by ring

section Examples

/-- Hypotheses of `C113_cubic_rectilinear_f64` are satisfied, with an observation outside the grid. -/
example : ∃ r, multicubicRectilinearAt .flat false exGrids64c exVals64c true
      ![q64 (-1 / 32), q64 2] = .ok r ∧ Finite r := by
  obtain ⟨r, h1, h2, -⟩ := C113_cubic_rectilinear_f64 .flat (show 0 < 2 by decide) (by norm_num)
    false exGrids64c exVals64c true (valid_of_check (by decide +kernel)) (by decide +kernel)
    (-16) 16 16 (1/2) (by decide +kernel) (by norm_num) (by norm_num) (by norm_num) (by norm_num)
    (by norm_num) 2 (by norm_num) (by norm_num)
    (fun k i hi => (show ∀ k, ∀ i < (exGrids64c k).length, i + 2 < (exGrids64c k).length →
      ((exGrids64c k).map val).getD (i + 1) 0 - ((exGrids64c k).map val).getD i 0 ≤
        2 * (((exGrids64c k).map val).getD (i + 2) 0 - ((exGrids64c k).map val).getD (i + 1) 0) ∧
      ((exGrids64c k).map val).getD (i + 2) 0 - ((exGrids64c k).map val).getD (i + 1) 0 ≤
        2 * (((exGrids64c k).map val).getD (i + 1) 0 - ((exGrids64c k).map val).getD i 0) by
      decide +kernel) k i (by omega) hi)
    ![[q64 (-1 / 32)], [q64 2, q64 3]] (by decide +kernel) (q64 (1 / 25)) (by decide +kernel)
    (by decide +kernel) (by decide +kernel) (by decide +kernel) [true, true] (by decide +kernel)
    ![q64 (-1 / 32), q64 2] (by decide +kernel)
  exact ⟨r, h1, h2⟩

/-- Hypotheses of `C113_cubic_regular_f64` are satisfied, with nodes 0.1, …, 0.4 on the first axis and
an observation above them. -/
example : ∃ r, multicubicRegularAt (.recursive 8) true ![4, 5] ![q64 (1 / 10), q64 1]
      ![q64 (1 / 10), q64 2] exVals64c false ![q64 (13 / 32), q64 (3 / 2)] = .ok r ∧ Finite r := by
  obtain ⟨r, h1, h2, -⟩ := C113_cubic_regular_f64 (.recursive 8) (show 0 < 2 ∧ 2 ≤ 8 by decide)
    (by norm_num) true 6 (1/2) (by norm_num) (by norm_num) (by norm_num) (by norm_num) ![4, 5]
    ![q64 (1 / 10), q64 1] ![q64 (1 / 10), q64 2] exVals64c false
    (valid_of_check (by decide +kernel)) (by decide +kernel) (by decide +kernel) (by decide +kernel)
    (by decide +kernel) (-16) 16 16 (by decide +kernel) (by norm_num) (by norm_num) (by norm_num)
    (by norm_num) ![[q64 (13 / 32)], [q64 (3 / 2)]] (by decide +kernel) (q64 (1 / 32))
    (by decide +kernel) (by decide +kernel) (by decide +kernel) [true, false] (by decide +kernel)
    ![q64 (13 / 32), q64 (3 / 2)] (by decide +kernel)
  exact ⟨r, h1, h2⟩

/-- Hypotheses of `C113_cubic_rectilinear_f32` are satisfied, with an observation outside the grid. -/
example : ∃ r, multicubicRectilinearAt .flat false exGrids32c exVals32c true
      ![q32 (-1 / 32), q32 2] = .ok r ∧ Finite r := by
  obtain ⟨r, h1, h2, -⟩ := C113_cubic_rectilinear_f32 .flat (show 0 < 2 by decide) (by norm_num)
    false exGrids32c exVals32c true (valid_of_check (by decide +kernel)) (by decide +kernel)
    (-16) 16 16 (1/2) (by decide +kernel) (by norm_num) (by norm_num) (by norm_num) (by norm_num)
    (by norm_num) 2 (by norm_num) (by norm_num) (by norm_num) (by norm_num)
    (fun k i hi => (show ∀ k, ∀ i < (exGrids32c k).length, i + 2 < (exGrids32c k).length →
      ((exGrids32c k).map val).getD (i + 1) 0 - ((exGrids32c k).map val).getD i 0 ≤
        2 * (((exGrids32c k).map val).getD (i + 2) 0 - ((exGrids32c k).map val).getD (i + 1) 0) ∧
      ((exGrids32c k).map val).getD (i + 2) 0 - ((exGrids32c k).map val).getD (i + 1) 0 ≤
        2 * (((exGrids32c k).map val).getD (i + 1) 0 - ((exGrids32c k).map val).getD i 0) by
      decide +kernel) k i (by omega) hi)
    ![[q32 (-1 / 32)], [q32 2, q32 3]] (by decide +kernel) (q32 (1 / 25)) (by decide +kernel)
    (by decide +kernel) (by decide +kernel) (by decide +kernel) [true, true] (by decide +kernel)
    ![q32 (-1 / 32), q32 2] (by decide +kernel)
  exact ⟨r, h1, h2⟩

/-- Hypotheses of `C113_cubic_regular_f32` are satisfied, with nodes 0.1, …, 0.4 on the first axis and
an observation above them. -/
example : ∃ r, multicubicRegularAt (.recursive 8) true ![4, 5] ![q32 (1 / 10), q32 1]
      ![q32 (1 / 10), q32 2] exVals32c false ![q32 (13 / 32), q32 (3 / 2)] = .ok r ∧ Finite r := by
  obtain ⟨r, h1, h2, -⟩ := C113_cubic_regular_f32 (.recursive 8) (show 0 < 2 ∧ 2 ≤ 8 by decide)
    (by norm_num) true 6 (1/2) (by norm_num) (by norm_num) (by norm_num) (by norm_num) ![4, 5]
    ![q32 (1 / 10), q32 1] ![q32 (1 / 10), q32 2] exVals32c false
    (valid_of_check (by decide +kernel)) (by decide +kernel) (by decide +kernel) (by decide +kernel)
    (by decide +kernel) (-16) 16 16 (by decide +kernel) (by norm_num) (by norm_num) (by norm_num)
    (by norm_num) ![[q32 (13 / 32)], [q32 (3 / 2)]] (by decide +kernel) (q32 (1 / 32))
    (by decide +kernel) (by decide +kernel) (by decide +kernel) [true, false] (by decide +kernel)
    ![q32 (13 / 32), q32 (3 / 2)] (by decide +kernel)
  exact ⟨r, h1, h2⟩

end Examples

end Interpn
