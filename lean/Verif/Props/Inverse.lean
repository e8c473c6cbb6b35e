import Verif.Props.OneDimExact

/-! C129: a strictly increasing table is inverted by exchanging grid and values, in exact arithmetic. -/

set_option autoImplicit false
set_option linter.unusedSectionVars false

namespace Interpn
open FloatOps

section
variable {K : Type} [Field K] [LinearOrder K] [IsStrictOrderedRing K] [FloorRing K]
attribute [local instance] exactOps

/-- The affine piece of a cell, inverted. -/
theorem linPiece_inverse {n : Nat} {p f : Nat → K} {c : Nat} {x : K} (hc : InCell n p x c)
    (hp : p c < p (c + 1)) (hf : f c < f (c + 1)) :
    InCell n f (linPiece p f c x) c ∧ linPiece f p c (linPiece p f c x) = x := by
  have hp' := sub_pos.2 hp
  have hf' := sub_pos.2 hf
  refine ⟨⟨hc.1, hc.2.1.imp id fun h => ?_, hc.2.2.imp id fun h => ?_⟩, ?_⟩
  · unfold linPiece
    have : 0 ≤ (x - p c) / (p (c + 1) - p c) := div_nonneg (sub_nonneg.2 h) hp'.le
    nlinarith
  · unfold linPiece
    have : (x - p c) / (p (c + 1) - p c) ≤ 1 := (div_le_one hp').2 (by linarith)
    nlinarith
  · unfold linPiece
    field_simp
    ring

variable {G : Axes K 1} {vals : List K}

/-- The nodes of a one-dimensional grid as an array of values. -/
def Axes.nodeList (G : Axes K 1) : List K := List.ofFn fun i : Fin (G.size 0) => G.node 0 i

theorem Axes.nodeList_getD (G : Axes K 1) {i : Nat} (hi : i < G.size 0) (d : K) :
    G.nodeList.getD i d = G.node 0 i := by
  unfold Axes.nodeList
  rw [List.getD_eq_getElem _ _ (by rw [List.length_ofFn]; exact hi), List.getElem_ofFn]

/-- The exchanged grid and values are valid too. -/
theorem swap_valid (hG : G.Valid 2 vals) (hv : vals.Pairwise (· < ·)) :
    (Axes.rectilinear (fun _ : Fin 1 => vals)).Valid 2 G.nodeList where
  slice := by
    have hl := valid_length hG
    have := hG.slice
    unfold IsSlice at *
    unfold Axes.nodeList
    rw [List.length_ofFn, ← hl]; exact this
  len := by
    unfold Axes.nodeList
    rw [List.length_ofFn, ← valid_length hG]
    exact (Fin.prod_univ_one fun _ : Fin 1 => vals.length).symm
  big := fun _ => by
    show 2 ≤ vals.length
    rw [valid_length hG]; exact hG.big 0
  increasing := by
    intro k i hi
    have hi' : i + 1 < vals.length := hi
    show vals.getD i 0 < vals.getD (i + 1) 0
    rw [List.getD_eq_getElem _ _ (by omega), List.getD_eq_getElem _ _ hi']
    exact List.pairwise_iff_getElem.1 hv i (i + 1) (by omega) hi' (by omega)

theorem swap_piece (hG : G.Valid 2 vals) (hv : vals.Pairwise (· < ·)) {x : K} {c : Nat}
    (hc : InCell (G.size 0) (G.node 0) x c) :
    InCell ((Axes.rectilinear (fun _ : Fin 1 => vals)).size 0)
      ((Axes.rectilinear (fun _ : Fin 1 => vals)).node 0)
      (linPiece (G.node 0) (fun i => vals.getD i 0) c x) c ∧
    linPiece ((Axes.rectilinear (fun _ : Fin 1 => vals)).node 0) (fun i => G.nodeList.getD i 0) c
      (linPiece (G.node 0) (fun i => vals.getD i 0) c x) = x := by
  have hS := swap_valid hG hv
  have hl := valid_length hG
  have hc1 := hc.1
  obtain ⟨h1, h2⟩ := linPiece_inverse (f := fun i => vals.getD i 0) hc (hG.increasing 0 c hc1)
    (hS.increasing 0 c (by show c + 1 < vals.length; omega))
  refine ⟨?_, ?_⟩
  · have : (Axes.rectilinear (fun _ : Fin 1 => vals)).size 0 = G.size 0 := hl
    rw [this]; exact h1
  · have e0 := G.nodeList_getD (i := c) (by omega) 0
    have e1 := G.nodeList_getD (i := c + 1) hc1 0
    generalize linPiece (G.node 0) (fun i => vals.getD i 0) c x = y at h2 ⊢
    rw [← h2]
    unfold linPiece
    dsimp only
    rw [e0, e1]
    rfl

/-- C129: interpolating a strictly increasing table at `x`, and then the table with grid and values
exchanged at the result, gives back `x`, inside and outside the grid. -/
theorem C129_multilinear (e e' : Evaluator) (he : e.Fits 1) (he' : e'.Fits 1) (fma fma' : Bool)
    (hG : G.Valid 2 vals) (hv : vals.Pairwise (· < ·)) (x : K) (hx : G.Representable fun _ => x) :
    ∃ y, multilinearAt e fma G vals (fun _ => x) = .ok y ∧
      multilinearAt (N := 1) e' fma' (.rectilinear fun _ => vals) G.nodeList (fun _ => y) = .ok x := by
  obtain ⟨c, hc⟩ := exists_inCell (p := G.node 0) (hG.big 0) x
  obtain ⟨h1, h2⟩ := swap_piece hG hv hc
  have hS := swap_valid hG hv
  refine ⟨linPiece (G.node 0) (fun i => vals.getD i 0) c x, ?_, ?_⟩
  · rw [multilinearAt_eq e he fma G vals hG _ (getD_samples hG) _ hx (fun _ => c)
      (fun k => by rw [Subsingleton.elim k 0]; exact hc), axisByAxis_one _ fun i => vals.getD i 0]
  · rw [multilinearAt_eq e' he' fma' _ _ hS _ (getD_samples hS) _ trivial (fun _ => c)
      (fun k => by rw [Subsingleton.elim k 0]; exact h1),
      axisByAxis_one _ fun i => G.nodeList.getD i 0, h2]

/-- C129, `Linear1D`. -/
theorem C129_linear_1d (fma fma' : Bool) (hG : G.Valid 2 vals) (hv : vals.Pairwise (· < ·)) (x : K)
    (hx : G.Representable fun _ => x) :
    ∃ y, interp1DAt .linear fma G vals x = .ok y ∧
      interp1DAt .linear fma' (.rectilinear fun _ => vals) G.nodeList y = .ok x := by
  obtain ⟨c, hc⟩ := exists_inCell (p := G.node 0) (hG.big 0) x
  obtain ⟨h1, h2⟩ := swap_piece hG hv hc
  refine ⟨_, interp1DAt_linear fma hG x hx hc, ?_⟩
  rw [interp1DAt_linear fma' (swap_valid hG hv) _ trivial h1, h2]

/-- C129, `LinearHoldLast1D`: the inverse gives back the observation clamped to the grid. -/
theorem C129_hold_last (fma fma' : Bool) (hG : G.Valid 2 vals) (hv : vals.Pairwise (· < ·)) (x : K)
    (hx : G.Representable fun _ => x) :
    ∃ y, interp1DAt .linearHoldLast fma G vals x = .ok y ∧
      interp1DAt .linearHoldLast fma' (.rectilinear fun _ => vals) G.nodeList y =
        .ok (max (G.node 0 0) (min x (G.node 0 (G.size 0 - 1)))) := by
  have hf := clamp_fits hG x hx
  have hS := swap_valid hG hv
  have hl := valid_length hG
  have hb := hG.big 0
  have h01 := (hG.incr 0).lt (show 0 < G.size 0 - 1 by omega) (by omega)
  set x' := clampTo (G.node 0 0) (G.node 0 (G.size 0 - 1)) x with hx'
  have hr : InRange (G.size 0) (G.node 0) x' := by
    rw [hx']; unfold clampTo
    exact ⟨le_max_left _ _, max_le h01.le (min_le_right _ _)⟩
  obtain ⟨c, hc⟩ := exists_inCell (p := G.node 0) hb x'
  obtain ⟨h1, h2⟩ := swap_piece hG hv hc
  have hc1 := hc.1
  have hbet : InRange vals.length (fun i => vals.getD i 0)
      (linPiece (G.node 0) (fun i => vals.getD i 0) c x') := by
    have hmono : ∀ i j, i ≤ j → j < vals.length → vals.getD i 0 ≤ vals.getD j 0 := by
      intro i j hij hj
      rcases Nat.eq_or_lt_of_le hij with rfl | h
      · exact le_rfl
      · rw [List.getD_eq_getElem _ _ (by omega), List.getD_eq_getElem _ _ hj]
        exact (List.pairwise_iff_getElem.1 hv i j (by omega) hj h).le
    exact linPiece_between (hG.incr 0) hc hr
      ⟨hmono 0 c (by omega) (by omega), hmono c (vals.length - 1) (by omega) (by omega)⟩
      ⟨hmono 0 (c + 1) (by omega) (by omega), hmono (c + 1) (vals.length - 1) (by omega) (by omega)⟩
  refine ⟨_, (C41_clamp fma hG x hx).trans (interp1DAt_linear fma hG _ hf hc), ?_⟩
  rw [(C41_cases fma' hS _ trivial).2.2 hbet, interp1DAt_linear fma' hS _ trivial h1, h2]
  rfl

/-- C129, consequence: on a rectilinear grid with a strictly increasing table, every number is the
result at exactly one observation. -/
theorem C129_unique_solution (e : Evaluator) (he : e.Fits 1) (fma : Bool) (grid : List K)
    (hG : (Axes.rectilinear fun _ : Fin 1 => grid).Valid 2 vals) (hv : vals.Pairwise (· < ·)) (y : K) :
    ∃! x, multilinearAt (N := 1) e fma (.rectilinear fun _ => grid) vals (fun _ => x) = .ok y := by
  have hgrid : (Axes.rectilinear fun _ : Fin 1 => grid).nodeList = grid := by
    apply List.ext_getElem
    · unfold Axes.nodeList; rw [List.length_ofFn]; rfl
    · intro i h1 h2
      rw [← List.getD_eq_getElem _ 0 h1, Axes.nodeList_getD _ h2]
      exact List.getD_eq_getElem _ _ h2
  have hlen : vals.length = grid.length := valid_length hG
  have hinc : grid.Pairwise (· < ·) := by
    rw [List.pairwise_iff_getElem]
    intro i j hi hj hij
    have := (hG.incr 0).lt hij (show j < (Axes.rectilinear fun _ : Fin 1 => grid).size 0 from hj)
    change grid.getD i 0 < grid.getD j 0 at this
    rwa [List.getD_eq_getElem _ _ hi, List.getD_eq_getElem _ _ hj] at this
  have hS := swap_valid hG hv
  rw [hgrid] at hS
  have hvals : (Axes.rectilinear fun _ : Fin 1 => vals).nodeList = vals := by
    apply List.ext_getElem
    · unfold Axes.nodeList; rw [List.length_ofFn]; rfl
    · intro i h1 h2
      rw [← List.getD_eq_getElem _ 0 h1, Axes.nodeList_getD _ h2]
      exact List.getD_eq_getElem _ _ h2
  obtain ⟨x, h1, h2⟩ := C129_multilinear e e he he fma fma hS hinc y trivial
  rw [hvals] at h2
  refine ⟨x, h2, fun x' hx' => ?_⟩
  obtain ⟨y', h3, h4⟩ := C129_multilinear e e he he fma fma hG hv x' trivial
  rw [hgrid] at h4
  rw [hx'] at h3
  cases h3
  rw [h1] at h4
  cases h4
  rfl

end

section Examples
attribute [local instance] ratOps

/-- The grid of the examples. -/
theorem exInverse_valid : (Axes.rectilinear fun _ : Fin 1 => ([0, 1, 4] : List ℚ)).Valid 2 [2, 3, 11] :=
  valid_of_check (by decide +kernel)

/-- Inside, above and below the grid. -/
example (e : Evaluator) (he : e.Fits 1) :
    (∃ y, multilinearAt (N := 1) e true (.rectilinear fun _ => ([0, 1, 4] : List ℚ)) [2, 3, 11] (fun _ => 5 / 2) =
      .ok y ∧ multilinearAt (N := 1) .flat false (.rectilinear fun _ => [2, 3, 11])
        (Axes.rectilinear fun _ : Fin 1 => ([0, 1, 4] : List ℚ)).nodeList (fun _ => y) = .ok (5 / 2)) ∧
    (∃ y, interp1DAt .linear true (.rectilinear fun _ => ([0, 1, 4] : List ℚ)) [2, 3, 11] (-7) = .ok y ∧
      interp1DAt .linear false (.rectilinear fun _ => [2, 3, 11])
        (Axes.rectilinear fun _ : Fin 1 => ([0, 1, 4] : List ℚ)).nodeList y = .ok (-7)) ∧
    (∃ y, interp1DAt .linearHoldLast true (.rectilinear fun _ => ([0, 1, 4] : List ℚ)) [2, 3, 11] 9 =
      .ok y ∧ interp1DAt .linearHoldLast false (.rectilinear fun _ => [2, 3, 11])
        (Axes.rectilinear fun _ : Fin 1 => ([0, 1, 4] : List ℚ)).nodeList y = .ok (max 0 (min 9 4))) :=
  ⟨C129_multilinear e .flat he Nat.one_pos true false exInverse_valid (by decide +kernel) _ trivial,
    C129_linear_1d true false exInverse_valid (by decide +kernel) _ trivial,
    C129_hold_last true false exInverse_valid (by decide +kernel) _ trivial⟩

/-- The equation `interpolant = 100` has one solution. -/
example : ∃! x, multilinearAt (N := 1) .flat false (.rectilinear fun _ => ([0, 1, 4] : List ℚ)) [2, 3, 11]
    (fun _ => x) = .ok 100 :=
  C129_unique_solution .flat Nat.one_pos false _ exInverse_valid (by decide +kernel) _

/-- A regular grid. -/
example : ∃ y, multilinearAt (N := 1) .flat true (.regular (fun _ => 3) (fun _ => (-1 : ℚ)) fun _ => 2) [2, 3, 11]
      (fun _ => 10) = .ok y ∧ multilinearAt (N := 1) .flat false (.rectilinear fun _ => [2, 3, 11])
        (Axes.regular (fun _ : Fin 1 => 3) (fun _ => (-1 : ℚ)) fun _ => 2).nodeList (fun _ => y) = .ok 10 :=
  C129_multilinear .flat .flat Nat.one_pos Nat.one_pos true false (valid_of_check (by decide +kernel))
    (by decide +kernel) _ (by intro k; fin_cases k; decide +kernel)

end Examples

end Interpn
