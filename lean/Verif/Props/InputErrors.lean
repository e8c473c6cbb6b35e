import Verif.Props.NodeErrors
import Verif.Props.CubicNodeErrors
import Verif.Props.Accuracy
import Verif.Props.IeeeLinearOut
import Verif.Props.Symmetry

/-! C116: errors in all inputs together, nodes, values and observation. Exact arithmetic. -/

set_option autoImplicit false
set_option linter.unusedSectionVars false

namespace Interpn

section
variable {K : Type} [Field K] [LinearOrder K] [IsStrictOrderedRing K] [FloorRing K] {N : Nat}

/-- The grid moved so that the observation `x'` becomes `x`. -/
private theorem shift_eq (x x' : Fin N → K) :
    (fun k => (1 : K) * x' k + (x k - x' k)) = x := by
  funext k; ring

private theorem shift_node (G : Axes K N) (d : Fin N → K) (k : Fin N) (i : Nat)
    (hi : i < G.size k) : (G.rescale (fun _ => 1) d).node k i = G.node k i + d k := by
  rw [Axes.rescale_node _ _ _ _ _ hi, one_mul]

/-- C116, multilinear interpolation: two grids `G` and `G'` of the same shape whose nodes differ by at
most `ε` times the width `w k` of the narrowest cell of `G'`, observations `x` and `x'` that differ by
at most that, and values that differ by at most `D`. If `x` is in the range of `G` the results differ
by at most `((1 + 4 ε)^N - 1) M + D`, where `M` bounds the second values. -/
theorem C116_multilinear (e e' : Evaluator) (he : e.Fits N) (he' : e'.Fits N) (fma fma' : Bool)
    (G G' : Axes K N) (vals vals' : List K) (hG : G.Valid 2 vals) (hG' : G'.Valid 2 vals')
    (hsize : ∀ k, G'.size k = G.size k) (w : Fin N → K) (hw : ∀ k, 0 < w k)
    (hcell : ∀ k i, i + 1 < G'.size k → w k ≤ G'.node k (i + 1) - G'.node k i) (ε : K)
    (hclose : ∀ k i, i < G'.size k → |G'.node k i - G.node k i| ≤ ε * w k) (M : K)
    (hM : ∀ v ∈ vals', |v| ≤ M) (D : K)
    (hv : ∀ i (h : i < vals.length) (h' : i < vals'.length), |vals[i] - vals'[i]| ≤ D)
    (x x' : Fin N → K) (hx : ∀ k, |x' k - x k| ≤ ε * w k)
    (hin : ∀ k, InRange (G.size k) (G.node k) (x k)) (hrep : G'.Representable x') :
    ∃ y y', multilinearAt e fma G vals x = .ok y ∧ multilinearAt e' fma' G' vals' x' = .ok y' ∧
      |y' - y| ≤ ((1 + 4 * ε) ^ N - 1) * M + D := by
  have hG2 : G.Valid 2 vals' :=
    ⟨hG'.slice, by rw [hG'.len]; exact Finset.prod_congr rfl fun k _ => hsize k, hG.big,
      hG.increasing⟩
  obtain ⟨y, y1, h1, h2, h3⟩ := C100_stability e he fma G vals vals' hG hG2 D hv x
    (hG.inRange_fits le_rfl hin _ (by simp)) 0 le_rfl
    (fun k => by
      refine ⟨?_, ?_⟩
      · have := (hin k).1; linarith
      · have := (hin k).2; linarith)
  set d : Fin N → K := fun k => x k - x' k with hd
  set H := G'.rescale (fun _ => 1) d with hH
  have one_pos' : ∀ k : Fin N, (0 : K) < (fun _ => 1) k := fun _ => one_pos
  have hHv : H.Valid 2 vals' := rescale_valid hG' one_pos'
  have hHs : ∀ k, H.size k = G'.size k := fun k => by rw [hH, Axes.rescale_size]
  obtain ⟨y2, y', h4, h5, h6⟩ := C91_nodes_moved e e' he he' fma fma' G H vals' hG2 hHv
    (fun k => by rw [hHs, hsize]) w hw
    (fun k i hi => by
      rw [hHs] at hi
      rw [hH, shift_node _ _ _ _ hi, shift_node _ _ _ _ (by omega)]
      have := hcell k i hi
      linarith) (2 * ε)
    (fun k i hi => by
      rw [hHs] at hi
      rw [hH, shift_node _ _ _ _ hi]
      have a := hclose k i hi
      have b := hx k
      rw [abs_le] at a b ⊢
      constructor <;> simp only [hd] <;> linarith [a.1, a.2, b.1, b.2]) M hM x hin
    (by
      have := (rescale_fits (s := fun _ => 1) (d := d) one_pos' _ x').2 hrep
      rwa [shift_eq] at this)
  have h7 := C25_multilinear e' he' fma' G' vals' hG' (fun _ => 1) d one_pos' x'
  rw [shift_eq, ← hH] at h7
  rw [h7] at h5
  rw [h2] at h4
  cases h4
  refine ⟨y, y', h1, h5, ?_⟩
  rw [show 2 * (2 * ε) = 4 * ε by ring] at h6
  have := abs_sub_le y' y1 y
  rw [abs_sub_comm y1 y] at this
  rw [mul_zero, add_zero, one_pow, one_mul] at h3
  linarith

/-- C116, multicubic interpolation: the same, if adjacent cells of `G` differ in width by a factor of
at most `ρ`. The results differ by at most `((Λ + δ)^N - Λ^N) M + Λ^N D` where
`Λ = 1 + ρ²/(2 (1 + ρ))` and `δ = 2 ε (7 + ρ + 16 ε)`. -/
theorem C116_multicubic (e e' : Evaluator) (he : e.Fits N) (he' : e'.Fits N) (fma fma' : Bool)
    (G G' : Axes K N) (vals vals' : List K) (lin : Bool) (hG : G.Valid 4 vals) (hG' : G'.Valid 4 vals')
    (hsize : ∀ k, G'.size k = G.size k) (w : Fin N → K) (hw : ∀ k, 0 < w k)
    (hcell : ∀ k i, i + 1 < G'.size k → w k ≤ G'.node k (i + 1) - G'.node k i) (ε : K)
    (hclose : ∀ k i, i < G'.size k → |G'.node k i - G.node k i| ≤ ε * w k) (ρ : K) (hρ1 : 1 ≤ ρ)
    (hρ : ∀ k, MeshRatio (G.size k) (G.node k) ρ) (M : K)
    (hM : ∀ v ∈ vals', |v| ≤ M) (D : K)
    (hv : ∀ i (h : i < vals.length) (h' : i < vals'.length), |vals[i] - vals'[i]| ≤ D)
    (x x' : Fin N → K) (hx : ∀ k, |x' k - x k| ≤ ε * w k)
    (hin : ∀ k, InRange (G.size k) (G.node k) (x k)) (hrep : G'.RepresentableCubic x') :
    ∃ y y', multicubicAt e fma G vals lin x = .ok y ∧ multicubicAt e' fma' G' vals' lin x' = .ok y' ∧
      |y' - y| ≤ ((1 + ρ ^ 2 / (2 * (1 + ρ)) + 2 * ε * (7 + ρ + 16 * ε)) ^ N -
        (1 + ρ ^ 2 / (2 * (1 + ρ))) ^ N) * M + (1 + ρ ^ 2 / (2 * (1 + ρ))) ^ N * D := by
  have hG2 : G.Valid 4 vals' :=
    ⟨hG'.slice, by rw [hG'.len]; exact Finset.prod_congr rfl fun k _ => hsize k, hG.big,
      hG.increasing⟩
  obtain ⟨y, y1, h1, h2, h3⟩ := C63_stability e he fma G vals vals' lin hG hG2 D hv ρ hρ x
    (hG.inRange_fits (by decide) hin _ (by simp)) hin
  set d : Fin N → K := fun k => x k - x' k with hd
  set H := G'.rescale (fun _ => 1) d with hH
  have one_pos' : ∀ k : Fin N, (0 : K) < (fun _ => 1) k := fun _ => one_pos
  have hHv : H.Valid 4 vals' := rescale_valid hG' one_pos'
  have hHs : ∀ k, H.size k = G'.size k := fun k => by rw [hH, Axes.rescale_size]
  obtain ⟨y2, y', h4, h5, h6⟩ := C97_nodes_moved e e' he he' fma fma' G H vals' lin hG2 hHv
    (fun k => by rw [hHs, hsize]) w hw
    (fun k i hi => by
      rw [hHs] at hi
      rw [hH, shift_node _ _ _ _ hi, shift_node _ _ _ _ (by omega)]
      have := hcell k i hi
      linarith) (2 * ε)
    (fun k i hi => by
      rw [hHs] at hi
      rw [hH, shift_node _ _ _ _ hi]
      have a := hclose k i hi
      have b := hx k
      rw [abs_le] at a b ⊢
      constructor <;> simp only [hd] <;> linarith [a.1, a.2, b.1, b.2]) ρ hρ1 hρ M hM x hin
    (by
      have := (rescale_fits (s := fun _ => 1) (d := d) one_pos' _ x').2 hrep
      rwa [shift_eq] at this)
  have h7 := C25_multicubic e' he' fma' G' vals' lin hG' (fun _ => 1) d one_pos' x'
  rw [shift_eq, ← hH] at h7
  rw [h7] at h5
  rw [h2] at h4
  cases h4
  refine ⟨y, y', h1, h5, ?_⟩
  rw [show 8 * (2 * ε) = 16 * ε by ring] at h6
  have := abs_sub_le y' y1 y
  rw [abs_sub_comm y1 y] at this
  linarith

/-- C116, nearest neighbor: if the nodes of `G'` differ from those of `G` by at most `τ k` and the
observation `x'` from `x` by at most `σ k`, the result is the value stored, in the second table, at a
node of `G` that is nearest to `x` up to `2 (τ k + σ k)` on every axis. -/
theorem C116_nearest (fma : Bool) (G G' : Axes K N) (vals' : List K) (hG' : G'.Valid 2 vals')
    (hsize : ∀ k, G'.size k = G.size k) (g : (Fin N → Nat) → K) (hg : Samples G.size vals' g)
    (τ σ : Fin N → K) (hclose : ∀ k i, i < G'.size k → |G'.node k i - G.node k i| ≤ τ k)
    (x x' : Fin N → K) (hx : ∀ k, |x' k - x k| ≤ σ k) (hrep : G'.Representable x') :
    ∃ loc : Fin N → Nat, nearestAt fma G' vals' x' = .ok (g loc) ∧
      ∀ k, NearestWithin (G.size k) (G.node k) (x k) (2 * (τ k + σ k)) (loc k) := by
  set d : Fin N → K := fun k => x k - x' k with hd
  set H := G'.rescale (fun _ => 1) d with hH
  have one_pos' : ∀ k : Fin N, (0 : K) < (fun _ => 1) k := fun _ => one_pos
  have hHs : ∀ k, H.size k = G'.size k := fun k => by rw [hH, Axes.rescale_size]
  obtain ⟨loc, h1, h2⟩ := C91_nearest fma G H vals' (rescale_valid hG' one_pos')
    (fun k => by rw [hHs, hsize]) g hg (fun k => τ k + σ k)
    (fun k i hi => by
      rw [hHs] at hi
      rw [hH, shift_node _ _ _ _ hi]
      have a := hclose k i hi
      have b := hx k
      rw [abs_le] at a b ⊢
      constructor <;> simp only [hd] <;> linarith [a.1, a.2, b.1, b.2]) x
    (by
      have := (rescale_fits (s := fun _ => 1) (d := d) one_pos' _ x').2 hrep
      rwa [shift_eq] at this)
  have h7 := C25_nearest fma G' vals' hG' (fun _ => 1) d one_pos' x'
  rw [shift_eq, ← hH] at h7
  exact ⟨loc, h7 ▸ h1, h2⟩

end

/-! ### Concrete cases -/

attribute [local instance] exactOps

/-- Nodes, values and observation slightly wrong, the second observation outside the second grid:
hypotheses of `C116_multilinear`. -/
example : ∃ y y', multilinearAt .flat false exRegular exVals ![2, 2] = .ok y ∧
    multilinearAt (.recursive 8) true (.rectilinear ![[1 / 100, 1, 199 / 100], [1, 3]])
      (exVals.map (· + 1 / 10)) ![201 / 100, 199 / 100] = .ok y' ∧
    |y' - y| ≤ ((1 + 4 * (1 / 50)) ^ 2 - 1) * 27 + 1 / 10 :=
  C116_multilinear .flat (.recursive 8) (show 0 < 2 by decide) (show 0 < 2 ∧ 2 ≤ 8 by decide) false true
    exRegular (.rectilinear ![[1 / 100, 1, 199 / 100], [1, 3]]) exVals (exVals.map (· + 1 / 10))
    (valid_of_check (by decide +kernel)) (valid_of_check (by decide +kernel)) (by decide)
    ![99 / 100, 2] (by decide +kernel) (all_cells_of (by decide +kernel)) (1 / 50)
    (by decide +kernel) 27 (by decide +kernel) (1 / 10)
    (fun i h _ => (show ∀ i, ∀ h : i < exVals.length,
      |exVals[i] - (exVals.map (· + 1 / 10))[i]'(by simpa using h)| ≤ 1 / 10 by decide +kernel) i h)
    ![2, 2] ![201 / 100, 199 / 100] (by decide +kernel) (by decide +kernel) trivial

/-- The two results differ. -/
example : multilinearAt .flat false exRegular exVals ![2, 2] = .ok 18 ∧
    multilinearAt .flat true (.rectilinear ![[1 / 100, 1, 199 / 100], [1, 3]])
      (exVals.map (· + 1 / 10)) ![201 / 100, 199 / 100] ≠ .ok 18 := by
  decide +kernel

/-- Hypotheses of `C116_multicubic`. -/
example : ∃ y y', multicubicAt .flat false exRegular4
      (exSample exRegular4 fun v => v 0 * v 0 + v 0 * v 1) true ![4, 2] = .ok y ∧
    multicubicAt (.recursive 8) true
      (.rectilinear ![[1 / 100, 1, 2, 301 / 100, 399 / 100], [1, 3, 5, 7]])
      ((exSample exRegular4 fun v => v 0 * v 0 + v 0 * v 1).map (· + 1 / 10)) true
      ![401 / 100, 199 / 100] = .ok y' ∧
    |y' - y| ≤ ((1 + 1 ^ 2 / (2 * (1 + 1)) + 2 * (1 / 90) * (7 + 1 + 16 * (1 / 90))) ^ 2 -
      (1 + 1 ^ 2 / (2 * (1 + 1))) ^ 2) * 45 + (1 + 1 ^ 2 / (2 * (1 + 1))) ^ 2 * (1 / 10) :=
  C116_multicubic .flat (.recursive 8) (show 0 < 2 by decide) (show 0 < 2 ∧ 2 ≤ 8 by decide) false true
    exRegular4 (.rectilinear ![[1 / 100, 1, 2, 301 / 100, 399 / 100], [1, 3, 5, 7]]) _ _ true
    (valid_of_check (by decide +kernel)) (valid_of_check (by decide +kernel)) (by decide)
    ![98 / 100, 2] (by decide +kernel) (all_cells_of (by decide +kernel)) (1 / 90)
    (by decide +kernel) 1 le_rfl (fun k => meshRatio_of_check (by revert k; decide +kernel)) 45
    (by decide +kernel) (1 / 10)
    (fun i h _ => by
      simp only [List.getElem_map]
      rw [show ∀ a : ℚ, a - (a + 1 / 10) = -(1 / 10) by intro a; ring]
      norm_num)
    ![4, 2] ![401 / 100, 199 / 100] (by decide +kernel) (by decide +kernel) trivial

/-- Hypotheses of `C116_nearest`: an observation almost halfway between two nodes. -/
example : ∃ loc : Fin 2 → Nat,
    nearestAt false (.rectilinear ![[1 / 100, 1, 199 / 100], [1, 3]]) exVals ![149 / 100, 2] =
      .ok ((fun loc : Fin 2 → Nat => exVals.getD (2 * loc 0 + loc 1) 0) loc) ∧
    ∀ k, NearestWithin (exRegular.size k) (exRegular.node k) (![3 / 2, 2] k)
      (2 * (![1 / 100, 0] k + ![1 / 100, 0] k)) (loc k) :=
  C116_nearest false exRegular (.rectilinear ![[1 / 100, 1, 199 / 100], [1, 3]]) exVals
    (valid_of_check (by decide +kernel)) (by decide) _ (samples_of_check (by decide +kernel))
    ![1 / 100, 0] ![1 / 100, 0] (by decide +kernel) ![3 / 2, 2] ![149 / 100, 2] (by decide +kernel)
    trivial

end Interpn
