import Verif.Spec.Interpolant
import Verif.Lemmas.Pieces

/-! Lemmas for C123: evaluation axis by axis of functions described along each axis. -/

set_option autoImplicit false
set_option linter.unusedSectionVars false

namespace Interpn

/-- Like `axisByAxis_reproduce`, with a class of functions for every axis. -/
theorem axisByAxis_reproduce' {T K : Type} : ∀ {N : Nat} (C : Fin N → (K → T) → Prop)
    (op : Fin N → (Nat → T) → T) (p : Fin N → Nat → K) (x : Fin N → K) (F : (Fin N → K) → T)
    (_ : ∀ k φ, C k φ → op k (fun i => φ (p k i)) = φ (x k))
    (_ : ∀ k y, C k fun z => F (Function.update y k z)),
    axisByAxis op (fun loc => F fun k => p k (loc k)) = F x
  | 0, C, op, p, x, F, _, _ => congrArg F (funext fun k => k.elim0)
  | N + 1, C, op, p, x, F, hop, hF => by
    rw [axisByAxis]
    have hin : ∀ i, axisByAxis (fun k : Fin N => op k.castSucc)
        (fun loc => F fun k => p k (Fin.snoc (α := fun _ => Nat) loc i k)) =
        F (Fin.snoc (α := fun _ => K) (fun k => x k.castSucc) (p (Fin.last N) i)) := by
      intro i
      have := axisByAxis_reproduce' (fun k : Fin N => C k.castSucc) (fun k : Fin N => op k.castSucc)
        (fun k => p k.castSucc) (fun k => x k.castSucc)
        (fun y => F (Fin.snoc (α := fun _ => K) y (p (Fin.last N) i)))
        (fun k φ hφ => hop k.castSucc φ hφ) (fun k y => by
          have := hF k.castSucc (Fin.snoc (α := fun _ => K) y (p (Fin.last N) i))
          simpa only [Fin.snoc_update] using this)
      rw [← this]
      congr 1
      funext loc
      congr 1
      funext k
      refine Fin.lastCases ?_ (fun j => ?_) k <;> simp
    simp only [hin]
    have hup : ∀ z, Function.update x (Fin.last N) z =
        Fin.snoc (α := fun _ => K) (fun k => x k.castSucc) z := by
      intro z
      funext k
      refine Fin.lastCases ?_ (fun j => ?_) k
      · simp
      · simp
    have h1 := hop (Fin.last N)
      (fun z => F (Fin.snoc (α := fun _ => K) (fun k => x k.castSucc) z)) (by
        have := hF (Fin.last N) x
        simpa only [hup] using this)
    rw [h1]
    congr 1
    exact Fin.snoc_init_self x

section
variable {K : Type} [Field K] [LinearOrder K] [IsStrictOrderedRing K] [FloorRing K]

/-- With linear rules the result is, for each axis `k`, the rule of that axis applied to data that do
not depend on this rule. -/
theorem axisByAxis_axis {N : Nat} {n : Fin N → Nat} (k : Fin N) (op : Fin N → (Nat → K) → K)
    (h : ∀ j, LinearOn (n j) (op j)) (g : (Fin N → Nat) → K) :
    ∃ f : Nat → K, ∀ A, LinearOn (n k) A → axisByAxis (Function.update op k A) g = A f := by
  classical
  let δ : Nat → Nat → K := fun i j => if j = i then 1 else 0
  let W : (Fin N → Nat) → K := fun loc => (∏ j ∈ Finset.univ.erase k, op j (δ (loc j))) * g loc
  let P := Fintype.piFinset fun k => Finset.range (n k)
  refine ⟨fun i => ∑ loc ∈ P with loc k = i, W loc, fun A hA => ?_⟩
  have hl : ∀ j, LinearOn (n j) (Function.update op k A j) := by
    intro j
    by_cases hj : j = k
    · subst hj; rw [Function.update_self]; exact hA
    · rw [Function.update_of_ne hj]; exact h j
  rw [axisByAxis_linear _ hl, hA.eq_sum]
  have hm : ∀ loc ∈ P, loc k ∈ Finset.range (n k) := fun loc hloc => Fintype.mem_piFinset.1 hloc k
  rw [← Finset.sum_fiberwise_of_maps_to hm]
  refine Finset.sum_congr rfl fun i _ => ?_
  rw [Finset.mul_sum]
  refine Finset.sum_congr rfl fun loc hloc => ?_
  have hi : loc k = i := (Finset.mem_filter.1 hloc).2
  rw [← Finset.mul_prod_erase _ _ (Finset.mem_univ k), Function.update_self, hi, mul_assoc]
  congr 2
  refine Finset.prod_congr rfl fun j hj => ?_
  rw [Function.update_of_ne (Finset.ne_of_mem_erase hj)]

variable {n : Nat} {p : Nat → K}

theorem PiecewiseAffine.piece {φ : K → K} (h : PiecewiseAffine n p φ) (hi : Incr n p) {x : K} {c : Nat}
    (hc : InCell n p x c) : linPiece p (fun i => φ (p i)) c x = φ x := by
  obtain ⟨a, b, hab⟩ := h c hc.1
  have h0 : InCell n p (p c) c := ⟨hc.1, .inr le_rfl, .inr (hi c hc.1).le⟩
  have h1 : InCell n p (p (c + 1)) c := ⟨hc.1, .inr (hi c hc.1).le, .inr le_rfl⟩
  have hd : p (c + 1) - p c ≠ 0 := (sub_pos.2 (hi c hc.1)).ne'
  simp only [linPiece, hab _ h0, hab _ h1, hab _ hc]
  field_simp
  ring

theorem piecewiseAffine_piece (hi : Incr n p) (f : Nat → K) {cell : K → Nat}
    (hc : ∀ z, InCell n p z (cell z)) : PiecewiseAffine n p fun z => linPiece p f (cell z) z := by
  intro i h
  refine ⟨f i - p i / (p (i + 1) - p i) * (f (i + 1) - f i),
    (f (i + 1) - f i) / (p (i + 1) - p i), fun z hz => ?_⟩
  dsimp only
  rw [linPiece_unique hi f (hc z) hz]
  unfold linPiece
  ring

/-- Coefficients of the Hermite cubic. -/
theorem hermite_coeffs {a b : K} (h : a < b) (y0 y1 m0 m1 : K) :
    ∃ c0 c1 c2 c3 : K, (∀ z, hermiteCubic a b y0 y1 m0 m1 z = c0 + c1 * z + c2 * z ^ 2 + c3 * z ^ 3) ∧
      c1 + 2 * c2 * a + 3 * c3 * a ^ 2 = m0 ∧ c1 + 2 * c2 * b + 3 * c3 * b ^ 2 = m1 ∧
      (m0 + m1 = 2 * ((y1 - y0) / (b - a)) → c3 = 0) := by
  have hd : b - a ≠ 0 := (sub_pos.2 h).ne'
  let s := (y1 - y0) / (b - a)
  let q2 := (3 * s - 2 * m0 - m1) / (b - a)
  let q3 := (m0 + m1 - 2 * s) / (b - a) ^ 2
  refine ⟨y0 - m0 * a + q2 * a ^ 2 - q3 * a ^ 3, m0 - 2 * q2 * a + 3 * q3 * a ^ 2, q2 - 3 * q3 * a, q3,
    fun z => ?_, by ring, ?_, fun hm => ?_⟩
  · simp only [hermiteCubic, q2, q3, s]; field_simp; ring
  · simp only [q2, q3, s]; field_simp; ring
  · simp only [q3, s]; rw [hm, sub_self, zero_div]

end

end Interpn
