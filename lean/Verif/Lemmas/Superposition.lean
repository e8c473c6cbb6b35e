import Verif.Props.Linearity
import Verif.Props.Accuracy
import Mathlib.Algebra.BigOperators.Fin
import Mathlib.Algebra.Order.BigOperators.Group.Finset

/-! Tables that are a linear combination of several others, up to an error (C126). -/

set_option autoImplicit false
set_option linter.unusedSectionVars false

namespace Interpn

section
variable {K : Type} [Field K] [LinearOrder K] [IsStrictOrderedRing K] [FloorRing K] {N m : Nat}

theorem axisByAxis_combination {n : Fin N → Nat} (op : Fin N → (Nat → K) → K)
    (h : ∀ k, LinearOn (n k) (op k)) (c : Fin m → K) (g : Fin m → (Fin N → Nat) → K) :
    axisByAxis op (fun loc => ∑ t, c t * g t loc) = ∑ t, c t * axisByAxis op (g t) := by
  induction m with
  | zero =>
    have := axisByAxis_lincomb op h (fun _ => 0) (fun _ => 0) 0 0
    simpa using this
  | succ m ih =>
    simp only [Fin.sum_univ_succ]
    have := axisByAxis_lincomb op h (g 0) (fun loc => ∑ t : Fin m, c t.succ * g t.succ loc) (c 0) 1
    simp only [one_mul] at this
    rw [this, ih]

/-- The linear combination of tables, entry by entry. -/
def combineAll (len : Nat) (c : Fin m → K) (tabs : Fin m → List K) : List K :=
  (List.range len).map fun i => ∑ t, c t * (tabs t).getD i 0

theorem combineAll_length (len : Nat) (c : Fin m → K) (tabs : Fin m → List K) :
    (combineAll len c tabs).length = len := by simp [combineAll]

theorem combineAll_samples {dims : Fin N → Nat} (c : Fin m → K) (tabs : Fin m → List K) {len : Nat}
    (hl : len = ∏ k, dims k) :
    Samples dims (combineAll len c tabs) fun loc => ∑ t, c t * valAt 0 dims (tabs t) loc := by
  intro loc h
  have hlt := cIndex_lt _ loc h
  rw [← hl] at hlt
  unfold combineAll
  rw [List.getElem?_map, List.getElem?_range hlt]
  rfl

theorem valid_of_length {G : Axes K N} {b : Nat} {v w : List K} (hv : G.Valid b v)
    (h : w.length = v.length) : G.Valid b w where
  slice := by have := hv.slice; unfold IsSlice at *; rw [h]; exact this
  len := by rw [h, hv.len]
  big := hv.big
  increasing := hv.increasing

variable {c : Fin m → K} {tabs : Fin m → List K} {vals : List K} {D : K}

/-- Every entry of `vals` is the linear combination of the entries of the other tables, up to `D`. -/
def CombinesTo (c : Fin m → K) (tabs : Fin m → List K) (vals : List K) (D : K) : Prop :=
  ∀ i (h : i < vals.length), |vals[i] - ∑ t, c t * (tabs t).getD i 0| ≤ D

theorem CombinesTo.entry (h : CombinesTo c tabs vals D) :
    ∀ i (h : i < vals.length) (h' : i < (combineAll vals.length c tabs).length),
      |vals[i] - (combineAll vals.length c tabs)[i]| ≤ D := by
  intro i hi _
  simpa [combineAll] using h i hi

theorem multilinear_sum (e : Evaluator) (he : e.Fits N) (fma : Bool) (G : Axes K N)
    (hv : G.Valid 2 vals) (hl : ∀ t, (tabs t).length = vals.length) (h : CombinesTo c tabs vals D)
    (x : Fin N → K) (hin : ∀ k, InRange (G.size k) (G.node k) (x k)) {y : K} {ys : Fin m → K}
    (hy : multilinearAt e fma G vals x = .ok y)
    (hys : ∀ t, multilinearAt e fma G (tabs t) x = .ok (ys t)) :
    |y - ∑ t, c t * ys t| ≤ D := by
  have hx := hv.inRange_fits le_rfl hin (-(2 ^ 63)) (by decide)
  obtain ⟨cl, hc⟩ := hv.cells le_rfl x
  have hw : G.Valid 2 (combineAll vals.length c tabs) := valid_of_length hv (combineAll_length _ _ _)
  obtain ⟨y1, y2, h1, h2, h3⟩ := C22_stability e he fma G _ _ hv hw D h.entry x hx hin
  rw [hy] at h1
  obtain rfl : y = y1 := Res.ok.inj h1
  rw [multilinearAt_eq e he fma G _ hw _ (combineAll_samples c tabs hv.len) x hx cl hc,
    axisByAxis_combination _ fun k => linPiece_linear (hc k).1] at h2
  rw [← Res.ok.inj h2] at h3
  have e1 : ∀ t, axisByAxis (fun k f => linPiece (G.node k) f (cl k) (x k)) (valAt 0 G.size (tabs t)) = ys t := by
    intro t
    have hw := valid_of_length hv (hl t)
    exact Res.ok.inj ((multilinearAt_eq e he fma G _ hw _ (samples_valAt 0 _ _ hw.len) x hx cl hc).symm.trans
      (hys t))
  simpa only [e1] using h3

theorem multicubic_sum (e : Evaluator) (he : e.Fits N) (fma lin : Bool) (G : Axes K N)
    (hv : G.Valid 4 vals) (hl : ∀ t, (tabs t).length = vals.length) (h : CombinesTo c tabs vals D)
    (ρ : K) (hρ : ∀ k, MeshRatio (G.size k) (G.node k) ρ)
    (x : Fin N → K) (hin : ∀ k, InRange (G.size k) (G.node k) (x k)) {y : K} {ys : Fin m → K}
    (hy : multicubicAt e fma G vals lin x = .ok y)
    (hys : ∀ t, multicubicAt e fma G (tabs t) lin x = .ok (ys t)) :
    |y - ∑ t, c t * ys t| ≤ (1 + ρ ^ 2 / (2 * (1 + ρ))) ^ N * D := by
  have hx := hv.inRange_fits (by omega) hin (-(2 ^ 63) + 1) (by decide)
  obtain ⟨cl, hc⟩ := hv.cells (by omega) x
  have hw : G.Valid 4 (combineAll vals.length c tabs) := valid_of_length hv (combineAll_length _ _ _)
  obtain ⟨y1, y2, h1, h2, h3⟩ := C63_stability e he fma G _ _ lin hv hw D h.entry ρ hρ x hx hin
  rw [hy] at h1
  obtain rfl : y = y1 := Res.ok.inj h1
  rw [multicubicAt_eq e he fma G _ lin hw _ (combineAll_samples c tabs hv.len) x hx cl hc,
    axisByAxis_combination _ fun k => cubicPiece_linear (hv.big k) lin (hc k).1] at h2
  rw [← Res.ok.inj h2] at h3
  have e1 : ∀ t, axisByAxis (fun k f => cubicPiece (G.size k) (G.node k) f lin (cl k) (x k)) (valAt 0 G.size (tabs t)) = ys t := by
    intro t
    have hw := valid_of_length hv (hl t)
    exact Res.ok.inj ((multicubicAt_eq e he fma G _ lin hw _ (samples_valAt 0 _ _ hw.len) x hx cl hc).symm.trans
      (hys t))
  simpa only [e1] using h3

/-- Errors of the terms and of the sum. -/
theorem sum_close {c r y E : Fin m → K} {R Y A B : K} (hR : |R - Y| ≤ A) (hY : |Y - ∑ t, c t * y t| ≤ B)
    (h : ∀ t, |r t - y t| ≤ E t) : |R - ∑ t, c t * r t| ≤ B + A + ∑ t, |c t| * E t := by
  have e : R - ∑ t, c t * r t = (R - Y) + (Y - ∑ t, c t * y t) - ∑ t, c t * (r t - y t) := by
    simp only [mul_sub, Finset.sum_sub_distrib]; ring
  have h3 : |∑ t, c t * (r t - y t)| ≤ ∑ t, |c t| * E t := by
    refine (Finset.abs_sum_le_sum_abs _ _).trans (Finset.sum_le_sum fun t _ => ?_)
    rw [abs_mul]
    exact mul_le_mul_of_nonneg_left (h t) (abs_nonneg _)
  rw [e]
  have h1 := abs_add_le (R - Y) (Y - ∑ t, c t * y t)
  have h2 := abs_sub ((R - Y) + (Y - ∑ t, c t * y t)) (∑ t, c t * (r t - y t))
  linarith

end

end Interpn
