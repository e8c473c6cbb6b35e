import Verif.Lemmas.IeeeMono
import Verif.Lemmas.IeeeExamples

/-! C86: between two neighbouring nodes of the last axis the multilinear result moves in one
direction, in IEEE 754 arithmetic. -/

set_option autoImplicit false

namespace Interpn
open FloatOps Ieee

section
variable {f : Format} {N : Nat}

/-- C86: multilinear interpolation on a rectilinear grid, at three observations that differ only in
the coordinate on the last axis, there lie between the same two neighbouring nodes, and are given in
increasing order: the results are in increasing order or in decreasing order (NaN is not ordered).
Nothing is assumed about the size of grid nodes and values; the values may be infinite or NaN. For
`N = 0` this is the 1-D interpolant. At a node the code uses the cell to the left, except at the
first node. -/
theorem C86_last_axis (e : Evaluator) (he : e.Fits (N + 1)) (fma : Bool)
    (grids : Fin (N + 1) → List (Ieee f)) (vals : List (Ieee f))
    (hG : (Axes.rectilinear fun k => (grids k).map val).Valid 2 (vals.map val))
    (hgrid : ∀ k, ∀ a ∈ grids k, Finite a)
    (x : Fin N → Ieee f) (y : Fin 3 → Ieee f) (hy : ∀ j, Finite (y j))
    (horder : val (y 0) ≤ val (y 1) ∧ val (y 1) ≤ val (y 2))
    (c : Nat) (hc : c + 1 < (grids (Fin.last N)).length)
    (hcell : ∀ j, (c = 0 ∧ val ((grids (Fin.last N))[c]) = val (y j) ∨
      val ((grids (Fin.last N))[c]) < val (y j)) ∧ val (y j) ≤ val ((grids (Fin.last N))[c + 1])) :
    ∃ r : Fin 3 → Ieee f,
      (∀ j, multilinearRectilinearAt e fma grids vals (Fin.snoc (α := fun _ => Ieee f) x (y j)) =
        .ok (r j)) ∧
      ((r 1 <. r 0) = false ∧ (r 2 <. r 1) = false ∨ (r 0 <. r 1) = false ∧ (r 1 <. r 2) = false) := by
  have hlen : ∀ k, 2 ≤ (grids k).length := fun k => by
    have := hG.big k; simpa [Axes.size] using this
  have hnode : ∀ (k : Fin (N + 1)) (i : Nat), i < (grids k).length →
      ((grids k).map val).getD i 0 = val ((grids k).getD i zero) := fun k i hi => by
    rw [List.getD_eq_getElem _ _ (by simpa using hi), List.getElem_map,
      List.getD_eq_getElem _ _ hi]
  have hincr : ∀ k, Incr (grids k).length (fun i => ((grids k).map val).getD i 0) := fun k => by
    have : Incr ((grids k).map val).length (fun i => ((grids k).map val).getD i 0) :=
      fun i hi => hG.increasing k i hi
    rwa [List.length_map] at this
  have hmem : ∀ (k : Fin (N + 1)) (i : Nat) (_ : i < (grids k).length),
      Finite ((grids k).getD i zero) := fun k i hi => by
    rw [List.getD_eq_getElem _ _ hi]; exact hgrid k _ (List.getElem_mem hi)
  have hvlen : vals.length = ∏ k, (grids k).length := by
    have := hG.len; simpa [Axes.size] using this
  have hslice : IsSlice vals := by
    have := hG.slice; rw [isSlice_iff] at this ⊢; simpa using this
  have hacc : RectilinearAccepted 2 grids vals := by
    refine ⟨hslice, hvlen, hlen, fun k => ?_⟩
    have h2 := hlen k
    have h01 := hincr k 0 (by omega)
    simp only [hnode k 0 (by omega), hnode k (0 + 1) (by omega)] at h01
    have := (exactCompare f _ _ (hmem k 0 (by omega)) (hmem k (0 + 1) (by omega))).2 h01
    match hgk : grids k with
    | [] => rw [hgk] at h2; simp at h2
    | [_] => rw [hgk] at h2; simp at h2
    | a :: b :: rest =>
      rw [hgk] at this
      exact ⟨a, b, rest, rfl, this⟩
  -- the cell
  set G := grids (Fin.last N) with hGdef
  have hlt : ∀ (i : Nat) (h : i < G.length) (j : Fin 3),
      (G[i] <. y j) = true ↔ (G.map val).getD i 0 < val (y j) := fun i h j => by
    rw [hnode (Fin.last N) i h, List.getD_eq_getElem _ _ h]
    exact exactCompare f _ _ (hgrid _ _ (List.getElem_mem h)) (hy j)
  have hcellEq : ∀ j, linCell G (y j) = c := fun j => by
    have hiff : ∀ i (_ : i < G.length), (G.map val).getD i 0 < val (y j) ↔ i < cellsBelow G (y j) := by
      intro i h
      rw [← hlt i h j]
      refine cellsBelow_iff (fun i k hik hk hb => ?_) i h
      rw [hlt k hk] at hb
      rw [hlt i (by omega)]
      exact lt_of_le_of_lt ((hincr (Fin.last N)).le hik hk) hb
    have e0 : (G.map val).getD c 0 = val G[c] := by
      rw [hnode (Fin.last N) c (by omega), List.getD_eq_getElem _ _ (show c < G.length by omega)]
    have e1 : (G.map val).getD (c + 1) 0 = val G[c + 1] := by
      rw [hnode (Fin.last N) (c + 1) hc, List.getD_eq_getElem _ _ hc]
    have hup : cellsBelow G (y j) ≤ c + 1 := by
      by_contra hcon
      have := (hiff (c + 1) hc).2 (by omega)
      rw [e1] at this
      exact absurd this (not_lt.2 (hcell j).2)
    have hlow : c = 0 ∨ c < cellsBelow G (y j) := by
      rcases (hcell j).1 with h | h
      · exact .inl h.1
      · exact .inr ((hiff c (by omega)).1 (by rw [e0]; exact h))
    unfold linCell
    omega
  set t : Fin 3 → Ieee f := fun j => cellPos (fun i => G.getD i zero) c (y j) with ht
  set v : Fin 2 → Ieee f := fun p => axisByAxis (fun k : Fin N => linRule fma (grids k.castSucc) (x k))
    (fun loc => valAt zero (fun k => (grids k).length) vals
      (Fin.snoc (α := fun _ => Nat) loc (c + p.val))) with hv
  have hr : ∀ j, multilinearRectilinearAt e fma grids vals (Fin.snoc (α := fun _ => Ieee f) x (y j)) =
      .ok (lerp fma (t j) v) := fun j => by
    rw [multilinearRectilinearAt_eq e he fma grids vals hslice _, hacc.check le_rfl, Res.ok_bind,
      axisByAxis]
    simp only [Fin.snoc_last, Fin.snoc_castSucc]
    unfold linRule
    rw [← hGdef, hcellEq j]
    rfl
  have ec : val (G.getD c zero) = val G[c] := by
    rw [List.getD_eq_getElem _ _ (show c < G.length by omega)]
  have ec1 : val (G.getD (c + 1) zero) = val G[c + 1] := by rw [List.getD_eq_getElem _ _ hc]
  have hlo : ∀ j, val (G.getD c zero) ≤ val (y j) := fun j => by
    rw [ec]; rcases (hcell j).1 with h | h
    · exact h.2.le
    · exact h.le
  have hhi : ∀ j, val (y j) ≤ val (G.getD (c + 1) zero) := fun j => by rw [ec1]; exact (hcell j).2
  have hw : ∀ j, WeightOk (t j) := fun j =>
    weightOk (hmem _ _ (by omega)) (hmem _ _ hc) (hy j) (hlo j) (hhi j)
  have hmono : ∀ i j, val (y i) ≤ val (y j) → t i ≠ nan → t j ≠ nan → val (t i) ≤ val (t j) :=
    fun i j hij => weight_mono (hmem _ _ (by omega)) (hmem _ _ hc) (hy i) (hy j) (hlo i) hij (hhi j)
  refine ⟨fun j => lerp fma (t j) v, hr, ?_⟩
  rcases lerp_mono fma v with h | h
  · exact .inl ⟨h _ _ (hw 0) (hw 1) (hmono 0 1 horder.1), h _ _ (hw 1) (hw 2) (hmono 1 2 horder.2)⟩
  · exact .inr ⟨h _ _ (hw 0) (hw 1) (hmono 0 1 horder.1), h _ _ (hw 1) (hw 2) (hmono 1 2 horder.2)⟩

end

/-- Hypotheses of `C86_last_axis` are satisfied. -/
example : ∃ r : Fin 3 → F64,
    (∀ j, multilinearRectilinearAt .flat false exGrids64 exVals64
      (Fin.snoc (α := fun _ => F64) ![q64 (1 / 3)] (![q64 1, q64 (7 / 5), q64 3] j)) = .ok (r j)) ∧
    ((r 1 <. r 0) = false ∧ (r 2 <. r 1) = false ∨ (r 0 <. r 1) = false ∧ (r 1 <. r 2) = false) :=
  C86_last_axis .flat (show 0 < 2 by decide) false exGrids64 exVals64
    (valid_of_check (by decide +kernel)) (by decide +kernel) ![q64 (1 / 3)]
    ![q64 1, q64 (7 / 5), q64 3] (by decide +kernel) (by decide +kernel) 0 (by decide +kernel)
    (by decide +kernel)

/-- The restriction to one cell in C86 is needed: the values `-2^-53`, `1 + 2^-52`, `1 + 2^-52` at
0, 1, 2 are increasing, but the result at 1 is greater than the result at 3/2. -/
theorem C86_two_cells_counterexample :
    ∃ r s : F64, multilinearRectilinearAt .flat false ![[q64 0, q64 1, q64 2]]
        [q64 (-1 / 2 ^ 53), q64 (1 + 1 / 2 ^ 52), q64 (1 + 1 / 2 ^ 52)] ![q64 1] = .ok r ∧
      multilinearRectilinearAt .flat false ![[q64 0, q64 1, q64 2]]
        [q64 (-1 / 2 ^ 53), q64 (1 + 1 / 2 ^ 52), q64 (1 + 1 / 2 ^ 52)] ![q64 (3 / 2)] = .ok s ∧
      (s <. r) = true :=
  ⟨q64 (1 + 1 / 2 ^ 51), q64 (1 + 1 / 2 ^ 52), by decide +kernel, by decide +kernel,
    by decide +kernel⟩

end Interpn
