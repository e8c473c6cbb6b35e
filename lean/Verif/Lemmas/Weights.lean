import Verif.Lemmas.Superposition
import Mathlib.Data.Fintype.BigOperators

/-! Results as weighted sums of the stored values (C137). -/

set_option autoImplicit false
set_option linter.unusedSectionVars false

namespace Interpn

section
variable {K : Type} [Field K] [LinearOrder K] [IsStrictOrderedRing K] [FloorRing K] {N : Nat}

/-- The table of length `L` that is 1 at position `i` and 0 elsewhere. -/
def unitTable (L i : Nat) : List K := (List.range L).map fun j => if j = i then 1 else 0

theorem unitTable_length (L i : Nat) : (unitTable L i : List K).length = L := by simp [unitTable]

theorem unitTable_getD {L i j : Nat} (hj : j < L) :
    (unitTable L i : List K).getD j 0 = if j = i then 1 else 0 := by
  simp [unitTable, List.getD, List.getElem?_map, List.getElem?_range hj]

theorem axisByAxis_weights {dims : Fin N → Nat} (op : Fin N → (Nat → K) → K)
    (h : ∀ k, LinearOn (dims k) (op k)) (vals : List K) :
    axisByAxis op (valAt 0 dims vals) = ∑ i ∈ Finset.range (∏ k, dims k),
      axisByAxis op (valAt 0 dims (unitTable (∏ k, dims k) i)) * vals.getD i 0 := by
  rw [← Fin.sum_univ_eq_sum_range (fun i => axisByAxis op (valAt 0 dims
    (unitTable (∏ k, dims k) i)) * vals.getD i 0)]
  have := axisByAxis_combination op h (fun t : Fin (∏ k, dims k) => vals.getD t 0)
    (fun t => valAt 0 dims (unitTable (∏ k, dims k) t))
  simp only [mul_comm _ (vals.getD _ 0)]
  rw [← this]
  refine axisByAxis_congr (fun k i => i < dims k) _ _ _ _ (fun k f f' hf => (h k).congr _ _ hf) ?_
  intro loc hl
  have hlt := cIndex_lt dims loc hl
  rw [Finset.sum_eq_single (⟨cIndex dims loc, hlt⟩ : Fin _)]
  · simp only [valAt]
    rw [unitTable_getD hlt, if_pos rfl, mul_one]
  · intro t _ ht
    simp only [valAt]
    rw [unitTable_getD hlt, if_neg (fun e => ht (Fin.ext e.symm)), mul_zero]
  · intro hn
    exact absurd (Finset.mem_univ _) hn

/-- The weight of a node that the axis rules do not look at is 0. -/
theorem axisByAxis_support {dims : Fin N → Nat} (S : Fin N → Nat → Prop) (op : Fin N → (Nat → K) → K)
    (h : ∀ k, LinearOn (dims k) (op k))
    (hS : ∀ k f f', (∀ i, S k i → f i = f' i) → op k f = op k f') (hlt : ∀ k i, S k i → i < dims k)
    (loc : Fin N → Nat) (hl : ∀ k, loc k < dims k)
    (hw : axisByAxis op (valAt 0 dims (unitTable (∏ k, dims k) (cIndex dims loc))) ≠ 0) (k : Fin N) :
    S k (loc k) := by
  by_contra hk
  apply hw
  have h0 : axisByAxis op (fun _ => (0 : K)) = 0 := by
    have := axisByAxis_lincomb op h (fun _ => 0) (fun _ => 0) 0 0
    simpa using this
  refine Eq.trans ?_ h0
  refine axisByAxis_congr S _ _ _ _ hS ?_
  intro loc' hl'
  have hb := fun k => hlt k _ (hl' k)
  simp only [valAt]
  rw [unitTable_getD (cIndex_lt dims loc' hb), if_neg]
  intro e
  have := cIndex_inj dims loc' loc hb hl e
  exact hk (this ▸ hl' k)

/-- A function on positions that vanishes outside a block of `b` nodes per axis has at most `b ^ N`
nonzero entries. -/
theorem support_card (dims origin : Fin N → Nat) (b : Nat) (w : Nat → K)
    (h : ∀ loc : Fin N → Nat, (∀ k, loc k < dims k) → w (cIndex dims loc) ≠ 0 →
      ∀ k, origin k ≤ loc k ∧ loc k < origin k + b) :
    ((Finset.range (∏ k, dims k)).filter fun i => w i ≠ 0).card ≤ b ^ N := by
  have hsub : ((Finset.range (∏ k, dims k)).filter fun i => w i ≠ 0) ⊆
      (Finset.univ : Finset (Fin N → Fin b)).image
        fun q => cIndex dims fun k => origin k + (q k).val := by
    intro i hi
    rw [Finset.mem_filter, Finset.mem_range] at hi
    obtain ⟨loc, hl, rfl⟩ := cIndex_surj dims i hi.1
    have hb := h loc hl hi.2
    rw [Finset.mem_image]
    refine ⟨fun k => ⟨loc k - origin k, by have := hb k; omega⟩, Finset.mem_univ _, ?_⟩
    congr 1
    funext k
    have := (hb k).1
    simp only
    omega
  refine (Finset.card_le_card hsub).trans (Finset.card_image_le.trans ?_)
  rw [Finset.card_univ, Fintype.card_fun, Fintype.card_fin, Fintype.card_fin]

section
variable {n : Nat} {p f f' : Nat → K}

theorem nodeSlope_local (hn : 4 ≤ n) {i : Nat} (hi : i < n)
    (h : ∀ j < n, i ≤ j + 1 ∨ i + 1 = n ∧ i ≤ j + 2 → j ≤ i + 1 ∨ i = 0 ∧ j ≤ 2 → f j = f' j) :
    nodeSlope n p f i = nodeSlope n p f' i := by
  unfold nodeSlope
  by_cases h0 : i = 0
  · subst h0
    simp only [if_true]
    rw [h 0 (by omega) (by omega) (by omega), h 1 (by omega) (by omega) (by omega),
      h 2 (by omega) (by omega) (by omega)]
  · simp only [if_neg h0]
    by_cases h1 : i + 1 = n
    · simp only [if_pos h1]
      have e1 : i - 1 + 1 = i := by omega
      have e2 : i - 1 - 1 + 1 = i - 1 := by omega
      simp only [e1, e2]
      rw [h i hi (by omega) (by omega), h (i - 1) (by omega) (by omega) (by omega),
        h (i - 1 - 1) (by omega) (by omega) (by omega)]
    · simp only [if_neg h1]
      have e1 : i - 1 + 1 = i := by omega
      simp only [e1]
      rw [h i hi (by omega) (by omega), h (i - 1) (by omega) (by omega) (by omega),
        h (i + 1) (by omega) (by omega) (by omega)]

/-- The cubic in cell `c` looks at the nodes `c - 1` to `c + 2` only. -/
theorem cubicPiece_local (hi : Incr n p) (hn : 4 ≤ n) (lin : Bool) {x : K} {c : Nat}
    (hc : InCell n p x c) (h : ∀ j, j < n ∧ c ≤ j + 1 ∧ j ≤ c + 2 → f j = f' j) :
    cubicPiece n p f lin c x = cubicPiece n p f' lin c x := by
  have hc1 := hc.1
  have s0 : nodeSlope n p f c = nodeSlope n p f' c :=
    nodeSlope_local hn (by omega) fun j hj h1 h2 => h j ⟨hj, by omega, by omega⟩
  have s1 : nodeSlope n p f (c + 1) = nodeSlope n p f' (c + 1) :=
    nodeSlope_local hn hc1 fun j hj h1 h2 => h j ⟨hj, by omega, by omega⟩
  have v0 := h c ⟨by omega, by omega, by omega⟩
  have v1 := h (c + 1) ⟨hc1, by omega, by omega⟩
  unfold cubicPiece
  rw [s0, s1, v0, v1]
  split_ifs with hlo hhi
  · have : c = 0 := by
      rcases hc.2.1 with h0 | h0
      · exact h0
      · by_contra hne
        have := hi.lt (i := 0) (j := c) (by omega) (by omega)
        linarith [hlo.2]
    subst this
    rw [v0, s0]
  · have : c + 2 = n := by
      rcases hc.2.2 with h0 | h0
      · exact h0
      · by_contra hne
        have := hi.lt (i := c + 1) (j := n - 1) (by omega) (by omega)
        linarith [hhi.2]
    have e : n - 1 = c + 1 := by omega
    rw [e, v1, s1]
  · rfl

end

end

end Interpn
