import Verif.Lemmas.Tree
import Verif.Spec.Tensor

/-! Both schedules evaluate axis by axis. -/

set_option autoImplicit false

namespace Interpn

variable {T : Type} {N FP : Nat}

theorem axisByAxis_congr : ∀ {N : Nat} (S : Fin N → Nat → Prop)
    (op op' : Fin N → (Nat → T) → T) (g g' : (Fin N → Nat) → T)
    (_ : ∀ k f f', (∀ i, S k i → f i = f' i) → op k f = op' k f')
    (_ : ∀ loc : Fin N → Nat, (∀ k, S k (loc k)) → g loc = g' loc),
    axisByAxis op g = axisByAxis op' g'
  | 0, S, op, op', g, g', _, hg => hg _ fun k => k.elim0
  | N + 1, S, op, op', g, g', hop, hg => by
    rw [axisByAxis, axisByAxis]
    apply hop
    intro i hi
    apply axisByAxis_congr (fun k => S k.castSucc)
    · intro k f f' h; exact hop _ f f' h
    · intro loc hloc
      apply hg
      intro k
      refine Fin.lastCases ?_ (fun j => ?_) k
      · simpa using hi
      · simpa using hloc j

theorem axisByAxis_congr_op (op op' : Fin N → (Nat → T) → T) (g : (Fin N → Nat) → T)
    (h : ∀ k f, op k f = op' k f) : axisByAxis op g = axisByAxis op' g := by
  have : op = op' := by funext k f; exact h k f
  rw [this]

theorem tree_eq_axisByAxis : ∀ {N : Nat} (G : Nat → (Fin FP → T) → T) (L : (Nat → Nat) → T)
    (op : Fin N → (Nat → T) → T) (g : (Fin N → Nat) → T) (origin : Fin N → Nat) (c : Nat → Nat)
    (_ : ∀ (k : Fin N) f, op k f = G k.val fun p => f (origin k + p.val))
    (_ : ∀ c', (∀ k, k < N → c' k < FP) → (∀ k, N ≤ k → c' k = c k) →
      L c' = g fun k => origin k + c' k),
    tree FP G L N c = axisByAxis op g
  | 0, G, L, op, g, origin, c, _, hL => by
    rw [tree, axisByAxis, hL c (by omega) (fun _ _ => rfl)]
    congr 1; funext k; exact k.elim0
  | N + 1, G, L, op, g, origin, c, hop, hL => by
    rw [tree, axisByAxis, hop]
    simp only [Fin.val_last]
    congr 1; funext p
    apply tree_eq_axisByAxis G L _ _ (fun k => origin k.castSucc)
    · intro k f; rw [hop]; rfl
    · intro c' h1 h2
      have hN : c' N = p.val := by rw [h2 N le_rfl, Function.update_self]
      rw [hL c' ?_ ?_]
      · congr 1; funext k
        refine Fin.lastCases ?_ (fun j => ?_) k
        · simp [hN]
        · simp
      · intro k hk
        by_cases hkN : k = N
        · subst hkN; rw [hN]; exact p.isLt
        · exact h1 k (by omega)
      · intro k hk
        rw [h2 k (by omega), Function.update_of_ne (by omega)]

/-- Value of node `loc` in the flat array (`d` if out of range). -/
def valAt (d : T) (dims : Fin N → Nat) (vals : List T) (loc : Fin N → Nat) : T :=
  vals.getD (cIndex dims loc) d

theorem samples_valAt (d : T) (dims : Fin N → Nat) (vals : List T)
    (hlen : vals.length = ∏ k, dims k) : Samples dims vals (valAt d dims vals) := by
  intro loc hloc
  have := cIndex_lt dims loc hloc
  simp [valAt, List.getD, List.getElem?_eq_getElem (hlen ▸ this)]

theorem Samples.lget {dims : Fin N → Nat} {vals : List T} {g : (Fin N → Nat) → T}
    (h : Samples dims vals g) {loc : Fin N → Nat} (hloc : ∀ k, loc k < dims k) :
    lget vals (cIndex dims loc) = .ok (g loc) := lget_of_some (h loc hloc)

section
variable (zero : T) (dims origin : Fin N → Nat) (vals : List T)
  (node : Nat → (Fin FP → T) → Res T) (op : Fin N → (Fin FP → T) → T) (g : (Fin N → Nat) → T)
  (hlen : vals.length = ∏ k, dims k) (hmax : vals.length ≤ usizeMax)
  (hpos : ∀ k, 0 < dims k)
  (horig : ∀ k, origin k + FP ≤ dims k) (hg : Samples dims vals g)
  (hnode : ∀ (k : Fin N) v, node k v = .ok (op k v))

include hlen hmax hpos horig hg hnode

omit hnode in
theorem leaf_ok (c : Nat → Nat) (hc : ∀ k, c k < FP) :
    (∀ k : Fin N, origin k + c k ≤ usizeMax) ∧
      indexArr (fun k : Fin N => origin k + c k) (strides dims) vals =
        .ok (g fun k => origin k + c k) := by
  have hlt : ∀ k : Fin N, origin k + c k < dims k := fun k => by
    have := horig k; have := hc k; omega
  refine ⟨fun k => ?_, ?_⟩
  · have h1 : dims k ≤ ∏ k, dims k := by
      apply Finset.single_le_prod' (f := dims) (fun i _ => hpos i) (Finset.mem_univ k)
    have := hlt k; omega
  · rw [indexArr_eq dims _ vals hlt hlen hmax, hg.lget hlt]

theorem flatEval_axisByAxis (offset : Nat → Nat → Nat) (hN : 0 < N) (hFP : 1 < FP)
    (hoff : ∀ i k, offset i k = i / FP ^ k % FP) :
    flatEval FP zero offset origin (strides dims) vals node =
      .ok (axisByAxis (fun k f => op k fun p => f (origin k + p.val)) g) := by
  let G : Nat → (Fin FP → T) → T := fun d v => if h : d < N then op ⟨d, h⟩ v else zero
  rw [flatEval_eq zero offset origin (strides dims) vals node G
    (fun c => g fun k => origin k + c k) hN hFP hoff ?_ ?_]
  · congr 1
    apply tree_eq_axisByAxis G _ _ g origin
    · intro k f; simp [G]
    · intro c' _ _; rfl
  · intro j hj v
    have := hnode ⟨j, hj⟩ v
    simpa [G, hj] using this
  · intro c hc
    exact leaf_ok dims origin vals g hlen hmax hpos horig hg c hc

theorem populate_axisByAxis (hFP : 0 < FP) :
    ∃ loc, populate FP zero origin (strides dims) vals node N origin =
      .ok (axisByAxis (fun k f => op k fun p => f (origin k + p.val)) g, loc) := by
  let G : Nat → (Fin FP → T) → T := fun d v => if h : d < N then op ⟨d, h⟩ v else zero
  have := populate_eq zero origin (strides dims) vals node G
    (fun c => g fun k => origin k + c k) ?_ ?_ N le_rfl (fun _ => 0) (fun _ => hFP)
    (fun _ _ => rfl)
  · simp only [add_zero] at this
    rw [this]
    refine ⟨origin, ?_⟩
    congr 2
    apply tree_eq_axisByAxis G _ _ g origin
    · intro k f; simp [G]
    · intro c' _ _; rfl
  · intro j hj v
    have := hnode ⟨j, hj⟩ v
    simpa [G, hj] using this
  · intro c hc
    exact leaf_ok dims origin vals g hlen hmax hpos horig hg c hc

end

end Interpn
