import Verif.Spec.Quadrature
import Verif.Lemmas.Smooth
import Verif.Lemmas.TensorAlg
import Mathlib.MeasureTheory.Integral.Pi
import Mathlib.MeasureTheory.Integral.IntervalIntegral.FundThmCalculus

/-! Integrals of functions evaluated axis by axis, and of the one-dimensional pieces. -/

set_option autoImplicit false

namespace Interpn

open MeasureTheory Set

section
variable {N : Nat}

/-- Integration over a box of a function that is evaluated axis by axis, by rules linear in the
values: the integral is evaluated axis by axis, by the integrals of the rules. -/
theorem integral_axisByAxis {n : Fin N → Nat} {a b : Fin N → ℝ} {φ : Fin N → (Nat → ℝ) → ℝ → ℝ}
    (hlin : ∀ k x, LinearOn (n k) fun f => φ k f x)
    (hint : ∀ k f, IntegrableOn (φ k f) (Icc (a k) (b k))) (g : (Fin N → Nat) → ℝ)
    {F : (Fin N → ℝ) → ℝ}
    (hF : ∀ x ∈ Icc a b, F x = axisByAxis (fun k f => φ k f (x k)) g) :
    IntegrableOn F (Icc a b) ∧
      ∫ x in Icc a b, F x = axisByAxis (fun k f => ∫ t in Icc (a k) (b k), φ k f t) g := by
  have hlin' : ∀ k, LinearOn (n k) fun f => ∫ t in Icc (a k) (b k), φ k f t := fun k =>
    { congr := fun f f' h => by simp only [(hlin k _).congr f f' h]
      add := fun f f' => by
        simp only [(hlin k _).add f f']
        exact integral_add (hint k f) (hint k f')
      smul := fun c f => by
        simp only [(hlin k _).smul c f]
        exact integral_const_mul c _ }
  have hmu : (volume : Measure (Fin N → ℝ)).restrict (Icc a b) =
      Measure.pi fun k => (volume : Measure ℝ).restrict (Icc (a k) (b k)) := by
    rw [← pi_univ_Icc, volume_pi, Measure.restrict_pi_pi]
  have hterm : ∀ loc : Fin N → Nat, Integrable
      (fun x : Fin N → ℝ => (∏ k, φ k (fun j => if j = loc k then 1 else 0) (x k)) * g loc)
      ((volume : Measure (Fin N → ℝ)).restrict (Icc a b)) := by
    intro loc
    rw [hmu]
    exact (Integrable.fintype_prod fun k => hint k _).mul_const _
  have hEq : EqOn F (fun x => ∑ loc ∈ Fintype.piFinset fun k => Finset.range (n k),
      (∏ k, φ k (fun j => if j = loc k then 1 else 0) (x k)) * g loc) (Icc a b) := by
    intro x hx
    rw [hF x hx, axisByAxis_linear (n := n) _ fun k => hlin k (x k)]
  constructor
  · refine IntegrableOn.congr_fun ?_ hEq.symm measurableSet_Icc
    exact integrable_finsetSum _ fun loc _ => hterm loc
  · rw [setIntegral_congr_fun measurableSet_Icc hEq, integral_finsetSum _ fun loc _ => hterm loc,
      axisByAxis_linear (n := n) _ hlin']
    refine Finset.sum_congr rfl fun loc _ => ?_
    rw [integral_mul_const, hmu, integral_fintype_prod_eq_prod]

end

section
variable {n : Nat} {p : Nat → ℝ}

/-- The integral over an axis is the sum of the integrals over its cells. -/
theorem integral_cells (hn : 2 ≤ n) (hi : Incr n p) {φ : ℝ → ℝ} {I : Nat → ℝ}
    (hc : ∀ i, i + 1 < n → IntervalIntegrable φ volume (p i) (p (i + 1)) ∧
      ∫ t in p i..p (i + 1), φ t = I i) :
    IntegrableOn φ (Icc (p 0) (p (n - 1))) ∧
      ∫ t in Icc (p 0) (p (n - 1)), φ t = ∑ i ∈ Finset.range (n - 1), I i := by
  have hle : p 0 ≤ p (n - 1) := hi.le (by omega) (by omega)
  have hint : ∀ k < n - 1, IntervalIntegrable φ volume (p k) (p (k + 1)) := fun k hk =>
    (hc k (by omega)).1
  constructor
  · rw [integrableOn_Icc_iff_integrableOn_Ioc,
      ← intervalIntegrable_iff_integrableOn_Ioc_of_le hle]
    exact IntervalIntegrable.trans_iterate hint
  · rw [integral_Icc_eq_integral_Ioc, ← intervalIntegral.integral_of_le hle,
      ← intervalIntegral.sum_integral_adjacent_intervals hint]
    exact Finset.sum_congr rfl fun i hi' => (hc i (by have := Finset.mem_range.1 hi'; omega)).2

theorem hermite_integral {a b : ℝ} (h : a < b) (y0 y1 m0 m1 : ℝ) :
    ∫ t in a..b, hermiteCubic a b y0 y1 m0 m1 t =
      (b - a) * ((y0 + y1) / 2) + (b - a) ^ 2 / 12 * (m0 - m1) := by
  have hd : b - a ≠ 0 := (sub_pos.2 h).ne'
  -- an antiderivative, in powers of the relative coordinate
  let u : ℝ → ℝ := fun x => (x - a) / (b - a)
  have hu : ∀ x, HasDerivAt u (1 / (b - a)) x := fun x =>
    ((hasDerivAt_id x).sub_const a).div_const (b - a)
  let A : ℝ → ℝ := fun x => (b - a) *
    (y0 * (u x - u x ^ 3 + u x ^ 4 / 2) + y1 * (u x ^ 3 - u x ^ 4 / 2) +
      (b - a) * m0 * (u x ^ 2 / 2 - 2 * u x ^ 3 / 3 + u x ^ 4 / 4) +
      (b - a) * m1 * (u x ^ 4 / 4 - u x ^ 3 / 3))
  have hA : ∀ x, HasDerivAt A (hermiteCubic a b y0 y1 m0 m1 x) x := by
    intro x
    have h2 := (hu x).pow 2
    have h3 := (hu x).pow 3
    have h4 := (hu x).pow 4
    have := (((((((hu x).sub h3).add (h4.div_const 2)).const_mul y0).add
      ((h3.sub (h4.div_const 2)).const_mul y1)).add
      ((((h2.div_const 2).sub ((h3.const_mul 2).div_const 3)).add (h4.div_const 4)).const_mul
        ((b - a) * m0))).add
      (((h4.div_const 4).sub (h3.div_const 3)).const_mul ((b - a) * m1))).const_mul (b - a)
    refine this.congr_deriv ?_
    unfold hermiteCubic
    simp only [u]
    push_cast
    field_simp
    ring
  have hcont : Continuous (hermiteCubic a b y0 y1 m0 m1) := by
    unfold hermiteCubic
    fun_prop
  rw [intervalIntegral.integral_eq_sub_of_hasDerivAt (fun x _ => hA x)
    (hcont.intervalIntegrable _ _)]
  have hua : u a = 0 := by simp [u]
  have hub : u b = 1 := div_self hd
  simp only [A, hua, hub]
  ring

theorem linPiece_hermite {i : Nat} (h : p i < p (i + 1)) (f : Nat → ℝ) (x : ℝ) :
    linPiece p f i x = hermiteCubic (p i) (p (i + 1)) (f i) (f (i + 1))
      ((f (i + 1) - f i) / (p (i + 1) - p i)) ((f (i + 1) - f i) / (p (i + 1) - p i)) x := by
  have hd : p (i + 1) - p i ≠ 0 := (sub_pos.2 h).ne'
  unfold linPiece hermiteCubic
  field_simp
  ring

theorem linPiece_integral {i : Nat} (h : p i < p (i + 1)) (f : Nat → ℝ) :
    ∫ t in p i..p (i + 1), linPiece p f i t = (p (i + 1) - p i) * ((f i + f (i + 1)) / 2) := by
  simp only [linPiece_hermite h f]
  rw [hermite_integral h]
  ring

/-- A point between two neighbouring nodes belongs to their cell. -/
theorem inCell_of_mem {i : Nat} (hi : i + 1 < n) {x : ℝ} (hx : x ∈ Icc (p i) (p (i + 1))) :
    InCell n p x i := ⟨hi, Or.inr hx.1, Or.inr hx.2⟩

theorem linFn_integral (hn : 2 ≤ n) (hi : Incr n p) (f : Nat → ℝ) :
    IntegrableOn (linFn n p f) (Icc (p 0) (p (n - 1))) ∧
      ∫ t in Icc (p 0) (p (n - 1)), linFn n p f t = trapezoid n p f := by
  refine integral_cells hn hi fun i h => ⟨(continuous_linFn hn hi).intervalIntegrable _ _, ?_⟩
  have hlt : p i < p (i + 1) := hi.lt (by omega) h
  rw [← linPiece_integral hlt f]
  refine intervalIntegral.integral_congr fun x hx => ?_
  rw [uIcc_of_le hlt.le] at hx
  exact linFn_eq hi (inCell_of_mem h hx)

theorem cubicFn_integral (hn : 2 ≤ n) (hi : Incr n p) (lin : Bool) (f : Nat → ℝ) :
    IntegrableOn (cubicFn n p f lin) (Icc (p 0) (p (n - 1))) ∧
      ∫ t in Icc (p 0) (p (n - 1)), cubicFn n p f lin t = correctedTrapezoid n p f := by
  refine integral_cells hn hi fun i h =>
    ⟨(contDiff_cubicFn hn hi lin).continuous.intervalIntegrable _ _, ?_⟩
  have hlt : p i < p (i + 1) := hi.lt (by omega) h
  rw [← hermite_integral hlt (f i) (f (i + 1))]
  refine intervalIntegral.integral_congr fun x hx => ?_
  rw [uIcc_of_le hlt.le] at hx
  have h0 : p 0 ≤ p i := hi.le (by omega) (by omega)
  have h1 : p (i + 1) ≤ p (n - 1) := hi.le (by omega) (by omega)
  rw [cubicFn_eq hi lin (inCell_of_mem h hx), cubicPiece,
    if_neg fun hh => not_lt.2 (h0.trans hx.1) hh.2,
    if_neg fun hh => not_lt.2 (hx.2.trans h1) hh.2]

/-- Up to the middle of a cell its lower node is the nearest. -/
theorem nearest_low (hi : Incr n p) {i : Nat} (h : i + 1 < n) {x : ℝ} (h0 : p i ≤ x)
    (h1 : x ≤ (p i + p (i + 1)) / 2) : IsNearest n p x i := by
  have hlt : p i < p (i + 1) := hi.lt (by omega) h
  have habs : |x - p i| = x - p i := abs_of_nonneg (by linarith)
  refine ⟨by omega, fun j hj => ?_, fun j hj => ?_⟩
  · rw [habs]
    rcases Nat.lt_or_ge i j with hij | hij
    · have := hi.le (i := i + 1) (j := j) hij hj
      exact le_trans (by linarith) (neg_le_abs _)
    · have := hi.le hij (by omega)
      exact le_trans (by linarith) (le_abs_self _)
  · rw [habs]
    have := hi.lt hj (by omega)
    exact lt_of_lt_of_le (by linarith) (le_abs_self _)

/-- Past the middle of a cell its upper node is the nearest. -/
theorem nearest_high (hi : Incr n p) {i : Nat} (h : i + 1 < n) {x : ℝ}
    (h0 : (p i + p (i + 1)) / 2 < x) (h1 : x ≤ p (i + 1)) : IsNearest n p x (i + 1) := by
  have hlt : p i < p (i + 1) := hi.lt (by omega) h
  have habs : |x - p (i + 1)| = p (i + 1) - x := by
    rw [abs_of_nonpos (by linarith)]
    ring
  refine ⟨h, fun j hj => ?_, fun j hj => ?_⟩
  · rw [habs]
    rcases Nat.lt_or_ge i j with hij | hij
    · have := hi.le (i := i + 1) (j := j) hij hj
      exact le_trans (by linarith) (neg_le_abs _)
    · have := hi.le hij (by omega)
      exact le_trans (by linarith) (le_abs_self _)
  · rw [habs]
    have := hi.le (Nat.lt_succ_iff.1 hj) (by omega)
    exact lt_of_lt_of_le (by linarith) (le_abs_self _)

open Classical in
/-- The nearest node. -/
noncomputable def someNearest (n : Nat) (p : Nat → ℝ) (x : ℝ) : Nat :=
  if h : ∃ i, IsNearest n p x i then h.choose else 0

theorem someNearest_isNearest (hn : 2 ≤ n) (hi : Incr n p) (x : ℝ) :
    IsNearest n p x (someNearest n p x) := by
  have h := exists_isNearest hn hi x
  unfold someNearest
  rw [dif_pos h]
  exact h.choose_spec

/-- A function that is constant on the interval without its ends. -/
theorem integral_const_on {a b c : ℝ} (hab : a ≤ b) {φ : ℝ → ℝ} (h : ∀ x ∈ Ioo a b, φ x = c) :
    IntervalIntegrable φ volume a b ∧ ∫ t in a..b, φ t = (b - a) * c := by
  constructor
  · rw [intervalIntegrable_iff_integrableOn_Ioc_of_le hab, integrableOn_Ioc_iff_integrableOn_Ioo]
    exact IntegrableOn.congr_fun (f := fun _ => c) (by simp) (fun x hx => (h x hx).symm)
      measurableSet_Ioo
  · rw [intervalIntegral.integral_of_le hab, integral_Ioc_eq_integral_Ioo,
      setIntegral_congr_fun measurableSet_Ioo h, ← integral_Ioc_eq_integral_Ioo,
      ← intervalIntegral.integral_of_le hab, intervalIntegral.integral_const, smul_eq_mul]

theorem nearest_integral (hn : 2 ≤ n) (hi : Incr n p) (f : Nat → ℝ) :
    IntegrableOn (fun x => f (someNearest n p x)) (Icc (p 0) (p (n - 1))) ∧
      ∫ t in Icc (p 0) (p (n - 1)), f (someNearest n p t) = trapezoid n p f := by
  refine integral_cells hn hi fun i h => ?_
  have hlt : p i < p (i + 1) := hi.lt (by omega) h
  obtain ⟨i1, e1⟩ := integral_const_on (a := p i) (b := (p i + p (i + 1)) / 2) (c := f i)
    (φ := fun x => f (someNearest n p x)) (by linarith) fun x hx => by
      simp only [(someNearest_isNearest hn hi x).unique (nearest_low hi h hx.1.le hx.2.le)]
  obtain ⟨i2, e2⟩ := integral_const_on (a := (p i + p (i + 1)) / 2) (b := p (i + 1))
    (c := f (i + 1)) (φ := fun x => f (someNearest n p x)) (by linarith) fun x hx => by
      simp only [(someNearest_isNearest hn hi x).unique (nearest_high hi h hx.1 hx.2.le)]
  refine ⟨i1.trans i2, ?_⟩
  rw [← intervalIntegral.integral_add_adjacent_intervals i1 i2, e1, e2]
  ring

end

/-- On evenly spaced nodes the corrections inside the axis cancel. -/
theorem correctedTrapezoid_uniform {n : Nat} (hn : 4 ≤ n) {start step : ℝ} (hs : step ≠ 0)
    {p : Nat → ℝ} (hp : ∀ i, p i = start + step * i) (f : Nat → ℝ) :
    correctedTrapezoid n p f = gregory n step f := by
  have hd : ∀ i, p (i + 1) - p i = step := fun i => by
    rw [hp, hp]
    push_cast
    ring
  have hd2 : ∀ i, p (i + 2) - p i = 2 * step := fun i => by
    rw [hp, hp]
    push_cast
    ring
  have hsum : ∀ m, ∑ i ∈ Finset.range m, (f i + f (i + 1)) / 2 =
      ∑ i ∈ Finset.range (m + 1), f i - (f 0 + f m) / 2 := by
    intro m
    induction m with
    | zero => simp
    | succ m ih =>
      rw [Finset.sum_range_succ, ih, Finset.sum_range_succ _ (m + 1)]
      ring
  obtain ⟨m, rfl⟩ : ∃ m, n = m + 4 := ⟨n - 4, by omega⟩
  have h0 : nodeSlope (m + 4) p f 0 = (4 * f 1 - 3 * f 0 - f 2) / (2 * step) := by
    unfold nodeSlope
    simp only [if_true, Nat.sub_self, hd]
    rw [show p (1 + 1) - p 0 = 2 * step from hd2 0]
    field_simp
    ring
  have h1 : nodeSlope (m + 4) p f (m + 3) =
      (3 * f (m + 3) - 4 * f (m + 2) + f (m + 1)) / (2 * step) := by
    unfold nodeSlope
    simp only [show m + 3 ≠ 0 by omega, if_false, if_true, hd,
      show m + 3 - 1 = m + 2 by omega, show m + 2 - 1 = m + 1 by omega]
    rw [show p (m + 2 + 1) - p (m + 1) = 2 * step from hd2 (m + 1)]
    field_simp
    ring
  unfold correctedTrapezoid gregory
  simp only [hd, show m + 4 - 1 = m + 3 by omega, show m + 4 - 2 = m + 2 by omega,
    show m + 4 - 3 = m + 1 by omega]
  rw [Finset.sum_add_distrib, ← Finset.mul_sum, ← Finset.mul_sum, hsum,
    Finset.sum_range_sub' (fun i => nodeSlope (m + 4) p f i), h0, h1]
  field_simp
  ring

end Interpn
