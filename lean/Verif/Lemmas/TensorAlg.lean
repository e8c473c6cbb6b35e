import Verif.Lemmas.Nest
import Mathlib.Algebra.BigOperators.Ring.Finset
import Mathlib.Algebra.BigOperators.Pi
import Mathlib.Data.Fintype.Pi
import Mathlib.Algebra.BigOperators.Fin
import Mathlib.Tactic.Ring
import Mathlib.Data.Fintype.BigOperators
import Mathlib.Algebra.Order.BigOperators.Group.Finset

/-! Algebra of axis-by-axis evaluation. -/

set_option autoImplicit false

namespace Interpn

section
variable {T : Type} {N : Nat}

/-- If every axis rule picks one node, the result is the value at that node. -/
theorem axisByAxis_eval : ∀ {N : Nat} (op : Fin N → (Nat → T) → T) (g : (Fin N → Nat) → T)
    (loc : Fin N → Nat) (_ : ∀ k f, op k f = f (loc k)), axisByAxis op g = g loc
  | 0, _, g, loc, _ => congrArg g (funext fun k => k.elim0)
  | N + 1, op, g, loc, h => by
    rw [axisByAxis, h, axisByAxis_eval _ _ (fun k => loc k.castSucc) (fun k f => h k.castSucc f)]
    congr 1
    exact Fin.snoc_init_self loc

/-- A relation between values that every axis rule preserves is preserved by the evaluation. -/
theorem axisByAxis_rel {T' : Type} (R : T → T' → Prop) : ∀ {N : Nat} (S : Fin N → Nat → Prop)
    (op : Fin N → (Nat → T) → T) (op' : Fin N → (Nat → T') → T') (g : (Fin N → Nat) → T)
    (g' : (Fin N → Nat) → T')
    (_ : ∀ k f f', (∀ i, S k i → R (f i) (f' i)) → R (op k f) (op' k f'))
    (_ : ∀ loc : Fin N → Nat, (∀ k, S k (loc k)) → R (g loc) (g' loc)),
    R (axisByAxis op g) (axisByAxis op' g')
  | 0, S, op, op', g, g', _, hg => hg _ fun k => k.elim0
  | N + 1, S, op, op', g, g', hop, hg => by
    rw [axisByAxis, axisByAxis]
    apply hop
    intro i hi
    apply axisByAxis_rel R (fun k => S k.castSucc)
    · intro k f f' hf
      exact hop k.castSucc f f' hf
    · intro loc hloc
      apply hg
      intro k
      refine Fin.lastCases ?_ (fun j => ?_) k
      · simpa using hi
      · simpa using hloc j

/-- A predicate on values that every axis rule preserves. -/
theorem axisByAxis_mem (P : T → Prop) {N : Nat} (S : Fin N → Nat → Prop)
    (op : Fin N → (Nat → T) → T) (g : (Fin N → Nat) → T)
    (hop : ∀ k f, (∀ i, S k i → P (f i)) → P (op k f))
    (hg : ∀ loc : Fin N → Nat, (∀ k, S k (loc k)) → P (g loc)) : P (axisByAxis op g) :=
  axisByAxis_rel (fun a _ => P a) S op op g g (fun k f _ hf => hop k f hf) hg

/-- Evaluation of a function of the coordinates that belongs, in each coordinate separately, to a
class of functions every axis rule reproduces. -/
theorem axisByAxis_reproduce {K : Type} (C : (K → T) → Prop) : ∀ {N : Nat}
    (op : Fin N → (Nat → T) → T) (p : Fin N → Nat → K) (x : Fin N → K) (F : (Fin N → K) → T)
    (_ : ∀ k φ, C φ → op k (fun i => φ (p k i)) = φ (x k))
    (_ : ∀ k y, C fun z => F (Function.update y k z)),
    axisByAxis op (fun loc => F fun k => p k (loc k)) = F x
  | 0, op, p, x, F, _, _ => congrArg F (funext fun k => k.elim0)
  | N + 1, op, p, x, F, hop, hF => by
    rw [axisByAxis]
    have hin : ∀ i, axisByAxis (fun k : Fin N => op k.castSucc)
        (fun loc => F fun k => p k (Fin.snoc (α := fun _ => Nat) loc i k)) =
        F (Fin.snoc (α := fun _ => K) (fun k => x k.castSucc) (p (Fin.last N) i)) := by
      intro i
      have := axisByAxis_reproduce C (fun k : Fin N => op k.castSucc) (fun k => p k.castSucc)
        (fun k => x k.castSucc)
        (fun y => F (Fin.snoc (α := fun _ => K) y (p (Fin.last N) i)))
        (fun k φ hφ => hop k.castSucc φ hφ) (fun k y => by
          have := hF k.castSucc (Fin.snoc (α := fun _ => K) y (p (Fin.last N) i))
          simpa only [Fin.snoc_update] using this)
      rw [← this]
      congr 1
      funext loc
      congr 1
      funext k
      refine Fin.lastCases ?_ (fun j => ?_) k <;> simp
    simp only [hin]
    have hup : ∀ z, Function.update x (Fin.last N) z =
        Fin.snoc (α := fun _ => K) (fun k => x k.castSucc) z := by
      intro z
      funext k
      refine Fin.lastCases ?_ (fun j => ?_) k
      · simp
      · simp
    have h1 := hop (Fin.last N)
      (fun z => F (Fin.snoc (α := fun _ => K) (fun k => x k.castSucc) z)) (by
        have := hF (Fin.last N) x
        simpa only [hup] using this)
    rw [h1]
    congr 1
    exact Fin.snoc_init_self x

end

section
variable {K : Type} [CommRing K] {ι : Type}

/-- Linear axis rules: the result is the sum over all index combinations of the product of the
weights times the value. -/
theorem axisByAxis_sum : ∀ {N : Nat} (op : Fin N → (Nat → K) → K) (g : (Fin N → Nat) → K)
    (S : Fin N → Finset ι) (idx : Fin N → ι → Nat) (w : Fin N → ι → K)
    (_ : ∀ k f, op k f = ∑ b ∈ S k, w k b * f (idx k b)),
    axisByAxis op g = ∑ b ∈ Fintype.piFinset S, (∏ k, w k (b k)) * g fun k => idx k (b k)
  | 0, op, g, S, idx, w, _ => by
    rw [axisByAxis]
    have : Fintype.piFinset S = Finset.univ := by
      ext b; simp only [Fintype.mem_piFinset, Finset.mem_univ, iff_true]; exact fun k => k.elim0
    rw [this]
    simp only [Finset.univ_unique, Finset.sum_singleton, Finset.univ_eq_empty, Finset.prod_empty,
      one_mul]
    exact congrArg g (funext fun k => k.elim0)
  | N + 1, op, g, S, idx, w, h => by
    rw [axisByAxis, h]
    have hin := fun i => axisByAxis_sum (fun k : Fin N => op k.castSucc)
      (fun loc => g (Fin.snoc (α := fun _ => Nat) loc i)) (fun k => S k.castSucc)
      (fun k => idx k.castSucc) (fun k => w k.castSucc) (fun k f => h k.castSucc f)
    simp only [hin, Finset.mul_sum]
    rw [← Finset.sum_product']
    refine Finset.sum_nbij' (fun q => Fin.snoc (α := fun _ => ι) q.2 q.1)
      (fun b => (b (Fin.last N), fun k => b k.castSucc)) ?_ ?_ ?_ ?_ ?_
    · intro q hq
      rw [Finset.mem_product, Fintype.mem_piFinset] at hq
      rw [Fintype.mem_piFinset]
      intro k
      refine Fin.lastCases ?_ (fun j => ?_) k
      · simpa using hq.1
      · simpa using hq.2 j
    · intro b hb
      rw [Fintype.mem_piFinset] at hb
      rw [Finset.mem_product, Fintype.mem_piFinset]
      exact ⟨hb _, fun k => hb _⟩
    · intro q _
      simp
    · intro b _
      exact Fin.snoc_init_self b
    · intro q _
      rw [Fin.prod_univ_castSucc]
      simp only [Fin.snoc_castSucc, Fin.snoc_last]
      rw [← mul_assoc, mul_comm (w (Fin.last N) q.1)]
      congr 2
      funext k
      refine Fin.lastCases ?_ (fun j => ?_) k <;> simp

/-- `φ` is linear and looks only at the values with index below `n`. -/
structure LinearOn (n : Nat) (φ : (Nat → K) → K) : Prop where
  congr : ∀ f f', (∀ i < n, f i = f' i) → φ f = φ f'
  add : ∀ f f', φ (fun i => f i + f' i) = φ f + φ f'
  smul : ∀ a f, φ (fun i => a * f i) = a * φ f

theorem LinearOn.zero {n : Nat} {φ : (Nat → K) → K} (h : LinearOn n φ) : φ (fun _ => 0) = 0 := by
  have := h.smul 0 (fun _ => 0)
  simpa using this

/-- The weights of a linear rule are its values on unit data. -/
theorem LinearOn.eq_sum {n : Nat} {φ : (Nat → K) → K} (h : LinearOn n φ) (f : Nat → K) :
    φ f = ∑ i ∈ Finset.range n, φ (fun j => if j = i then 1 else 0) * f i := by
  have key : ∀ m, φ (fun j => if j < m then f j else 0) =
      ∑ i ∈ Finset.range m, φ (fun j => if j = i then 1 else 0) * f i := by
    intro m
    induction m with
    | zero => simpa using h.zero
    | succ m ih =>
      rw [Finset.sum_range_succ, ← ih, mul_comm _ (f m), ← h.smul, ← h.add]
      congr 1
      funext j
      rcases lt_trichotomy j m with hj | hj | hj
      · rw [if_pos (by omega), if_pos hj, if_neg (by omega)]; ring
      · rw [if_pos (by omega), if_neg (by omega), if_pos hj, hj]; ring
      · rw [if_neg (by omega), if_neg (by omega), if_neg (by omega)]; ring
  rw [← key n]
  exact h.congr _ _ fun i hi => (if_pos hi).symm

/-- Sum formula for linear axis rules. -/
theorem axisByAxis_linear {N : Nat} {n : Fin N → Nat} (op : Fin N → (Nat → K) → K)
    (h : ∀ k, LinearOn (n k) (op k)) (g : (Fin N → Nat) → K) :
    axisByAxis op g = ∑ loc ∈ Fintype.piFinset fun k => Finset.range (n k),
      (∏ k, op k (fun j => if j = loc k then 1 else 0)) * g loc :=
  axisByAxis_sum op g (fun k => Finset.range (n k)) (fun _ i => i)
    (fun k i => op k (fun j => if j = i then 1 else 0)) fun k f => (h k).eq_sum f

/-- Evaluation is linear in the values. -/
theorem axisByAxis_lincomb {N : Nat} {n : Fin N → Nat} (op : Fin N → (Nat → K) → K)
    (h : ∀ k, LinearOn (n k) (op k)) (g g' : (Fin N → Nat) → K) (a b : K) :
    axisByAxis op (fun loc => a * g loc + b * g' loc) =
      a * axisByAxis op g + b * axisByAxis op g' := by
  rw [axisByAxis_linear op h, axisByAxis_linear op h, axisByAxis_linear op h, Finset.mul_sum,
    Finset.mul_sum, ← Finset.sum_add_distrib]
  apply Finset.sum_congr rfl
  intro loc _
  ring

/-- Separable data: the product of the 1-D results. -/
theorem axisByAxis_separable {N : Nat} {n : Fin N → Nat} (op : Fin N → (Nat → K) → K)
    (h : ∀ k, LinearOn (n k) (op k)) (v : Fin N → Nat → K) :
    axisByAxis op (fun loc => ∏ k, v k (loc k)) = ∏ k, op k (v k) := by
  rw [axisByAxis_linear op h]
  simp only [← Finset.prod_mul_distrib]
  rw [← Finset.prod_univ_sum (fun k => Finset.range (n k))
    (fun k i => op k (fun j => if j = i then 1 else 0) * v k i)]
  exact Finset.prod_congr rfl fun k _ => ((h k).eq_sum (v k)).symm

/-- Permuting the axes. -/
theorem axisByAxis_perm {N : Nat} {n : Fin N → Nat} (op : Fin N → (Nat → K) → K)
    (h : ∀ k, LinearOn (n k) (op k)) (g : (Fin N → Nat) → K) (σ : Equiv.Perm (Fin N)) :
    axisByAxis (fun k => op (σ k)) (fun loc => g fun k => loc (σ.symm k)) = axisByAxis op g := by
  rw [axisByAxis_linear op h, axisByAxis_linear (fun k => op (σ k)) (n := fun k => n (σ k))
    (fun k => h (σ k))]
  refine Finset.sum_nbij' (fun loc k => loc (σ.symm k)) (fun loc k => loc (σ k)) ?_ ?_ ?_ ?_ ?_
  · intro loc hl
    rw [Fintype.mem_piFinset] at *
    intro k
    have := hl (σ.symm k)
    simpa using this
  · intro loc hl
    rw [Fintype.mem_piFinset] at *
    intro k
    exact hl (σ k)
  · intro loc _; funext k; simp
  · intro loc _; funext k; simp
  · intro loc _
    congr 1
    exact Fintype.prod_equiv σ _ _ fun k => by simp

end

end Interpn
