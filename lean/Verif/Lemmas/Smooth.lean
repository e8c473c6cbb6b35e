import Verif.Lemmas.Pieces
import Mathlib.Algebra.Order.Archimedean.Real.Basic
import Mathlib.Topology.LocallyFinite
import Mathlib.Analysis.Calculus.ContDiff.Deriv
import Mathlib.Analysis.Calculus.ContDiff.Operations
import Mathlib.Analysis.Calculus.Deriv.Mul
import Mathlib.Analysis.Calculus.Deriv.Pow
import Mathlib.Analysis.Calculus.Deriv.Add

/-! The 1-D interpolants over the reals as functions on the whole line: continuity of the linear
one, continuous differentiability of the cubic one. -/

set_option autoImplicit false
set_option linter.unusedSectionVars false

namespace Interpn
open Set

/-- Slope of the Hermite cubic. -/
def hermiteSlope {K : Type} [Field K] (a b y0 y1 m0 m1 x : K) : K :=
  let t := (x - a) / (b - a)
  6 * t * (1 - t) * ((y1 - y0) / (b - a)) + (1 - t) * (1 - 3 * t) * m0 + t * (3 * t - 2) * m1

/-- Slope of the cubic interpolant at a point of cell `i`. -/
def cubicSlope {K : Type} [Field K] [LinearOrder K] (n : Nat) (p f : Nat → K) (lin : Bool) (i : Nat)
    (x : K) : K :=
  if lin ∧ x < p 0 then nodeSlope n p f 0
  else if lin ∧ p (n - 1) < x then nodeSlope n p f (n - 1)
  else hermiteSlope (p i) (p (i + 1)) (f i) (f (i + 1)) (nodeSlope n p f i)
    (nodeSlope n p f (i + 1)) x

section
variable {K : Type} [Field K] [LinearOrder K] [IsStrictOrderedRing K] {n : Nat} {p f : Nat → K}

theorem hermiteSlope_left (a b y0 y1 m0 m1 : K) : hermiteSlope a b y0 y1 m0 m1 a = m0 := by
  simp [hermiteSlope]

theorem hermiteSlope_right {a b : K} (h : a < b) (y0 y1 m0 m1 : K) :
    hermiteSlope a b y0 y1 m0 m1 b = m1 := by
  have : b - a ≠ 0 := (sub_pos.2 h).ne'
  simp [hermiteSlope, div_self this]; ring

theorem cubicSlope_unique (hi : Incr n p) (lin : Bool) {x : K} {c d : Nat}
    (hc : InCell n p x c) (hd : InCell n p x d) :
    cubicSlope n p f lin c x = cubicSlope n p f lin d x := by
  unfold cubicSlope
  split
  · rfl
  · split
    · rfl
    · rcases hc.unique hi hd with rfl | ⟨rfl, rfl⟩ | ⟨rfl, rfl⟩
      · rfl
      · rw [hermiteSlope_left, hermiteSlope_right (hi c hc.1)]
      · rw [hermiteSlope_left, hermiteSlope_right (hi d hd.1)]

variable [FloorRing K]

theorem cubicSlope_node (hi : Incr n p) (lin : Bool) {i c : Nat} (h : i < n)
    (hc : InCell n p (p i) c) : cubicSlope n p f lin c (p i) = nodeSlope n p f i := by
  have hn : 2 ≤ n := by have := hc.1; omega
  rw [cubicSlope_unique hi lin hc (node_inCell hi hn h)]
  have h0 : ¬ p i < p 0 := not_lt.2 (hi.le (by omega) h)
  have h1 : ¬ p (n - 1) < p i := not_lt.2 (hi.le (by omega) (by omega))
  unfold cubicSlope
  simp only [h0, h1, and_false, if_false]
  rcases Nat.lt_or_ge i (n - 1) with h1 | h1
  · rw [Nat.min_eq_left (by omega), hermiteSlope_left]
  · obtain ⟨m, rfl⟩ : ∃ m, n = m + 2 := ⟨n - 2, by omega⟩
    obtain rfl : i = m + 1 := by omega
    rw [Nat.min_eq_right (by omega), Nat.add_sub_cancel]
    exact hermiteSlope_right (hi m (by omega)) _ _ _ _

end

theorem hasDerivAt_hermite (a b y0 y1 m0 m1 x : ℝ) (h : a < b) :
    HasDerivAt (hermiteCubic a b y0 y1 m0 m1) (hermiteSlope a b y0 y1 m0 m1 x) x := by
  have hd : b - a ≠ 0 := (sub_pos.2 h).ne'
  have ht : HasDerivAt (fun x : ℝ => (x - a) / (b - a)) (1 / (b - a)) x :=
    ((hasDerivAt_id x).sub_const a).div_const (b - a)
  have ht1 := ht.const_sub 1
  have h1 := (((ht.const_mul 2).const_add 1).mul (ht1.pow 2)).mul_const y0
  have h2 := (((ht.mul (ht1.pow 2)).mul_const (b - a))).mul_const m0
  have h3 := ((ht.pow 2).mul ((ht.const_mul 2).const_sub 3)).mul_const y1
  have h4 := (((ht.pow 2).mul (ht.sub_const 1)).mul_const (b - a)).mul_const m1
  have := ((h1.add h2).add h3).add h4
  refine HasDerivAt.congr_deriv (f := hermiteCubic a b y0 y1 m0 m1) this ?_
  simp only [hermiteSlope, Pi.pow_apply, Nat.reduceSub, pow_one, Nat.cast_ofNat]
  field_simp
  ring

/-- Gluing differentiable pieces along finitely many closed sets. -/
theorem hasDerivAt_glue {ι : Type} [Finite ι] {S : ι → Set ℝ} (hS : ∀ i, IsClosed (S i))
    (hcov : ⋃ i, S i = univ) {φ φ' : ι → ℝ → ℝ} (hφ : ∀ i x, HasDerivAt (φ i) (φ' i x) x)
    {F F' : ℝ → ℝ} (hF : ∀ i, ∀ x ∈ S i, F x = φ i x) (hF' : ∀ i, ∀ x ∈ S i, F' x = φ' i x) (x : ℝ) :
    HasDerivAt F (F' x) x := by
  classical
  cases nonempty_fintype ι
  have h1 : ∀ i, HasDerivWithinAt F (F' x) (S i) x := by
    intro i
    by_cases hx : x ∈ S i
    · rw [hF' i x hx]
      exact ((hφ i x).hasDerivWithinAt).congr (hF i) (hF i x hx)
    · exact HasFDerivWithinAt.of_notMem_closure (by rwa [(hS i).closure_eq])
  have h2 : ∀ s : Finset ι, HasDerivWithinAt F (F' x) (⋃ i ∈ s, S i) x := by
    intro s
    induction s using Finset.induction_on with
    | empty =>
      have : HasDerivWithinAt F (F' x) ∅ x := HasFDerivWithinAt.of_notMem_closure (by simp)
      simpa using this
    | insert i s _ ih =>
      rw [Finset.set_biUnion_insert]
      exact (h1 i).union ih
  have := h2 Finset.univ
  rw [show (⋃ i ∈ (Finset.univ : Finset ι), S i) = univ by simpa using hcov] at this
  exact hasDerivWithinAt_univ.1 this

theorem contDiff_glue {ι : Type} [Finite ι] {S : ι → Set ℝ} (hS : ∀ i, IsClosed (S i))
    (hcov : ⋃ i, S i = univ) {φ φ' : ι → ℝ → ℝ} (hφ : ∀ i x, HasDerivAt (φ i) (φ' i x) x)
    (hφ' : ∀ i, Continuous (φ' i)) {F F' : ℝ → ℝ} (hF : ∀ i, ∀ x ∈ S i, F x = φ i x)
    (hF' : ∀ i, ∀ x ∈ S i, F' x = φ' i x) : ContDiff ℝ 1 F := by
  have h := hasDerivAt_glue hS hcov hφ hF hF'
  have : deriv F = F' := funext fun x => (h x).deriv
  refine contDiff_one_iff_deriv.2 ⟨fun x => (h x).differentiableAt, ?_⟩
  rw [this]
  exact (locallyFinite_of_finite S).continuous hcov hS fun i => (hφ' i).continuousOn.congr (hF' i)

section
variable (n : Nat) (p f : Nat → ℝ)

open Classical in
/-- Some cell containing `x`. -/
noncomputable def someCell (x : ℝ) : Nat := if h : ∃ i, InCell n p x i then h.choose else 0

/-- The linear interpolant on the whole line. -/
noncomputable def linFn (x : ℝ) : ℝ := linPiece p f (someCell n p x) x

/-- The cubic interpolant on the whole line. -/
noncomputable def cubicFn (lin : Bool) (x : ℝ) : ℝ := cubicPiece n p f lin (someCell n p x) x

/-- Its derivative. -/
noncomputable def cubicFn' (lin : Bool) (x : ℝ) : ℝ := cubicSlope n p f lin (someCell n p x) x

variable {n p f}

theorem someCell_inCell (hn : 2 ≤ n) (x : ℝ) : InCell n p x (someCell n p x) := by
  have h := exists_inCell (p := p) hn x
  unfold someCell
  rw [dif_pos h]
  exact h.choose_spec

theorem linFn_eq (hi : Incr n p) {x : ℝ} {c : Nat} (hc : InCell n p x c) :
    linFn n p f x = linPiece p f c x :=
  linPiece_unique hi f (someCell_inCell (by have := hc.1; omega) x) hc

theorem cubicFn_eq (hi : Incr n p) (lin : Bool) {x : ℝ} {c : Nat} (hc : InCell n p x c) :
    cubicFn n p f lin x = cubicPiece n p f lin c x :=
  cubicPiece_unique hi f lin (someCell_inCell (by have := hc.1; omega) x) hc

theorem cubicFn'_eq (hi : Incr n p) (lin : Bool) {x : ℝ} {c : Nat} (hc : InCell n p x c) :
    cubicFn' n p f lin x = cubicSlope n p f lin c x :=
  cubicSlope_unique hi lin (someCell_inCell (by have := hc.1; omega) x) hc

theorem isClosed_inCell (i : Nat) : IsClosed {x | InCell n p x i} := by
  have h1 : IsClosed {x : ℝ | i + 1 < n} := isClosed_const
  have h2 : IsClosed {x : ℝ | i = 0} := isClosed_const
  have h3 : IsClosed {x : ℝ | i + 2 = n} := isClosed_const
  exact h1.inter ((h2.union isClosed_Ici).inter (h3.union isClosed_Iic))

theorem inCell_cover (hn : 2 ≤ n) : ⋃ i : Fin n, {x | InCell n p x i} = univ := by
  refine eq_univ_of_forall fun x => mem_iUnion.2 ?_
  have := someCell_inCell (p := p) hn x
  exact ⟨⟨someCell n p x, by have := this.1; omega⟩, this⟩

theorem continuous_linFn (hn : 2 ≤ n) (hi : Incr n p) : Continuous (linFn n p f) := by
  refine (locallyFinite_of_finite fun i : Fin n => {x | InCell n p x i}).continuous
    (inCell_cover hn) (fun i => isClosed_inCell i) fun i => ?_
  refine ContinuousOn.congr (f := fun x => linPiece p f i x) ?_ fun x hx => linFn_eq hi hx
  refine Continuous.continuousOn ?_
  unfold linPiece
  fun_prop

/-- The pieces of the cubic interpolant: the part of a cell below, inside and above the grid. -/
def cubicSet (n : Nat) (p : Nat → ℝ) (j : Fin n × Fin 3) : Set ℝ :=
  {x | InCell n p x j.1 ∧ (if j.2 = 0 then x ≤ p 0 else if j.2 = 1 then InRange n p x else p (n - 1) ≤ x)}

/-- The smooth function on such a piece. -/
noncomputable def cubicSetFn (n : Nat) (p f : Nat → ℝ) (lin : Bool) (j : Fin n × Fin 3) (x : ℝ) : ℝ :=
  if lin ∧ j.2 = 0 then f 0 + nodeSlope n p f 0 * (x - p 0)
  else if lin ∧ j.2 = 2 then f (n - 1) + nodeSlope n p f (n - 1) * (x - p (n - 1))
  else hermiteCubic (p j.1) (p (j.1 + 1)) (f j.1) (f (j.1 + 1)) (nodeSlope n p f j.1)
    (nodeSlope n p f (j.1 + 1)) x

/-- Its derivative. -/
noncomputable def cubicSetFn' (n : Nat) (p f : Nat → ℝ) (lin : Bool) (j : Fin n × Fin 3) (x : ℝ) : ℝ :=
  if lin ∧ j.2 = 0 then nodeSlope n p f 0
  else if lin ∧ j.2 = 2 then nodeSlope n p f (n - 1)
  else hermiteSlope (p j.1) (p (j.1 + 1)) (f j.1) (f (j.1 + 1)) (nodeSlope n p f j.1)
    (nodeSlope n p f (j.1 + 1)) x

theorem isClosed_cubicSet (j : Fin n × Fin 3) : IsClosed (cubicSet n p j) := by
  obtain ⟨i, s⟩ := j
  have hi := isClosed_inCell (n := n) (p := p) i
  have h0 : IsClosed {x | x ≤ p 0} := isClosed_Iic
  have h1 : IsClosed {x | InRange n p x} :=
    (isClosed_Ici (a := p 0)).inter (isClosed_Iic (a := p (n - 1)))
  have h2 : IsClosed {x | p (n - 1) ≤ x} := isClosed_Ici
  by_cases e0 : s = 0
  · subst e0; exact hi.inter h0
  · by_cases e1 : s = 1
    · subst e1; exact hi.inter h1
    · obtain rfl : s = 2 := by omega
      exact hi.inter h2

theorem cubicSet_cover (hn : 2 ≤ n) : ⋃ j : Fin n × Fin 3, cubicSet n p j = univ := by
  refine eq_univ_of_forall fun x => mem_iUnion.2 ?_
  have h := someCell_inCell (p := p) hn x
  have hlt : someCell n p x < n := by have := h.1; omega
  rcases le_or_gt x (p 0) with h0 | h0
  · exact ⟨(⟨someCell n p x, hlt⟩, 0), h, by simpa using h0⟩
  · rcases le_or_gt (p (n - 1)) x with h1 | h1
    · exact ⟨(⟨someCell n p x, hlt⟩, 2), h, by simpa using h1⟩
    · exact ⟨(⟨someCell n p x, hlt⟩, 1), h, by simpa using ⟨h0.le, h1.le⟩⟩

theorem hasDerivAt_cubicSetFn (hi : Incr n p) (lin : Bool) (j : {j : Fin n × Fin 3 // (j.1 : Nat) + 1 < n})
    (x : ℝ) : HasDerivAt (cubicSetFn n p f lin j) (cubicSetFn' n p f lin j x) x := by
  have hlin : ∀ y m a : ℝ, HasDerivAt (fun x => y + m * (x - a)) m x := by
    intro y m a
    have := (((hasDerivAt_id x).sub_const a).const_mul m).const_add y
    simpa using this
  unfold cubicSetFn cubicSetFn'
  by_cases h0 : lin ∧ j.1.2 = 0
  · simp only [h0, and_self, if_true]; exact hlin _ _ _
  · by_cases h2 : lin ∧ j.1.2 = 2
    · simp only [h2.1, h2.2, and_self, if_true]
      simpa using hlin (f (n - 1)) (nodeSlope n p f (n - 1)) (p (n - 1))
    · simp only [h0, h2, if_false]
      exact hasDerivAt_hermite _ _ _ _ _ _ x (hi _ j.2)

theorem continuous_cubicSetFn' (lin : Bool) (j : Fin n × Fin 3) :
    Continuous (cubicSetFn' n p f lin j) := by
  unfold cubicSetFn'
  by_cases h0 : lin ∧ j.2 = 0
  · simp only [h0, and_self, if_true]; exact continuous_const
  · by_cases h2 : lin ∧ j.2 = 2
    · simp only [h2, and_self, if_true]
      simpa using continuous_const
    · simp only [h0, h2, if_false]
      unfold hermiteSlope
      fun_prop

theorem cubicFn_on (hi : Incr n p) (lin : Bool) (j : Fin n × Fin 3) {x : ℝ}
    (hx : x ∈ cubicSet n p j) : cubicFn n p f lin x = cubicSetFn n p f lin j x ∧
      cubicFn' n p f lin x = cubicSetFn' n p f lin j x := by
  obtain ⟨hc, hx⟩ := hx
  have hn : 2 ≤ n := by have := hc.1; omega
  have h01 : p 0 ≤ p (n - 1) := hi.le (by omega) (by omega)
  have hlt : p 0 < p (n - 1) := hi.lt (by omega) (by omega)
  rw [cubicFn_eq hi lin hc, cubicFn'_eq hi lin hc]
  obtain ⟨i, s⟩ := j
  simp only at hc hx
  cases lin with
  | false => simp [cubicPiece, cubicSlope, cubicSetFn, cubicSetFn']
  | true =>
    by_cases h0 : s = 0
    · subst h0
      simp only [if_true] at hx
      rcases hx.lt_or_eq with h | h
      · simp [cubicPiece, cubicSlope, cubicSetFn, cubicSetFn', h]
      · subst h
        rw [cubicPiece_node hi f true (by omega) hc, cubicSlope_node hi true (by omega) hc]
        simp [cubicSetFn, cubicSetFn']
    · by_cases h1 : s = 1
      · subst h1
        have h' : p 0 ≤ x ∧ x ≤ p (n - 1) := hx
        simp [cubicPiece, cubicSlope, cubicSetFn, cubicSetFn', not_lt.2 h'.1, not_lt.2 h'.2]
      · obtain rfl : s = 2 := by omega
        have hx : p (n - 1) ≤ x := hx
        rcases hx.lt_or_eq with h | h
        · have h0 : ¬ x < p 0 := not_lt.2 (hlt.trans h).le
          simp [cubicPiece, cubicSlope, cubicSetFn, cubicSetFn', h, h0]
        · subst h
          rw [cubicPiece_node hi f true (by omega) hc, cubicSlope_node hi true (by omega) hc]
          simp [cubicSetFn, cubicSetFn']

theorem cubicSet_cover' (hn : 2 ≤ n) :
    ⋃ j : {j : Fin n × Fin 3 // (j.1 : Nat) + 1 < n}, cubicSet n p j = univ := by
  refine eq_univ_of_forall fun x => mem_iUnion.2 ?_
  have h : x ∈ ⋃ j : Fin n × Fin 3, cubicSet n p j := by rw [cubicSet_cover hn]; trivial
  obtain ⟨j, hj⟩ := mem_iUnion.1 h
  exact ⟨⟨j, hj.1.1⟩, hj⟩

theorem hasDerivAt_cubicFn (hn : 2 ≤ n) (hi : Incr n p) (lin : Bool) (x : ℝ) :
    HasDerivAt (cubicFn n p f lin) (cubicFn' n p f lin x) x :=
  hasDerivAt_glue (S := fun j : {j : Fin n × Fin 3 // (j.1 : Nat) + 1 < n} => cubicSet n p j)
    (fun j => isClosed_cubicSet (j : Fin n × Fin 3)) (cubicSet_cover' hn)
    (fun j x => hasDerivAt_cubicSetFn hi lin j x)
    (fun j _ hx => (cubicFn_on hi lin j.1 hx).1) (fun j _ hx => (cubicFn_on hi lin j.1 hx).2) x

theorem contDiff_cubicFn (hn : 2 ≤ n) (hi : Incr n p) (lin : Bool) :
    ContDiff ℝ 1 (cubicFn n p f lin) :=
  contDiff_glue (S := fun j : {j : Fin n × Fin 3 // (j.1 : Nat) + 1 < n} => cubicSet n p j)
    (fun j => isClosed_cubicSet (j : Fin n × Fin 3)) (cubicSet_cover' hn)
    (fun j x => hasDerivAt_cubicSetFn hi lin j x) (fun j => continuous_cubicSetFn' lin j.1)
    (fun j _ hx => (cubicFn_on hi lin j.1 hx).1) (fun j _ hx => (cubicFn_on hi lin j.1 hx).2)

end

end Interpn
