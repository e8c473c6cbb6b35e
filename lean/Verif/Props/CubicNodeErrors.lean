import Verif.Lemmas.CubicMoved
import Verif.Props.NodeErrors
import Verif.Props.Accuracy

/-! C97: small errors in the node coordinates change multicubic results little. Exact arithmetic, both
grid kinds (`Axes`) and both implementations (`Evaluator`). -/

set_option autoImplicit false
set_option linter.unusedSectionVars false

namespace Interpn

section
variable {K : Type} [Field K] [LinearOrder K] [IsStrictOrderedRing K] [FloorRing K] {N : Nat}

/-- C97: two grids `G` and `G'` of the same shape with the same values, bounded by `M`. The nodes of
`G'` differ from those of `G` by at most `ε` times the width `w k` of the narrowest cell of the axis
of `G'`; adjacent cells of `G` differ in width by a factor of at most `ρ`. At an observation in the
range of `G` the results differ by at most `((Λ + δ)^N - Λ^N) M` where `Λ = 1 + ρ²/(2 (1 + ρ))` and
`δ = ε (7 + ρ + 8 ε)`. The grids may be of different kinds and the implementations may differ. -/
theorem C97_nodes_moved (e e' : Evaluator) (he : e.Fits N) (he' : e'.Fits N) (fma fma' : Bool)
    (G G' : Axes K N) (vals : List K) (lin : Bool) (hG : G.Valid 4 vals) (hG' : G'.Valid 4 vals)
    (hsize : ∀ k, G'.size k = G.size k) (w : Fin N → K) (hw : ∀ k, 0 < w k)
    (hcell : ∀ k i, i + 1 < G'.size k → w k ≤ G'.node k (i + 1) - G'.node k i) (ε : K)
    (hclose : ∀ k i, i < G'.size k → |G'.node k i - G.node k i| ≤ ε * w k) (ρ : K) (hρ1 : 1 ≤ ρ)
    (hρ : ∀ k, MeshRatio (G.size k) (G.node k) ρ) (M : K)
    (hM : ∀ v ∈ vals, |v| ≤ M) (x : Fin N → K)
    (hin : ∀ k, InRange (G.size k) (G.node k) (x k)) (hx : G'.RepresentableCubic x) :
    ∃ y y', multicubicAt e fma G vals lin x = .ok y ∧ multicubicAt e' fma' G' vals lin x = .ok y' ∧
      |y' - y| ≤ ((1 + ρ ^ 2 / (2 * (1 + ρ)) + ε * (7 + ρ + 8 * ε)) ^ N -
        (1 + ρ ^ 2 / (2 * (1 + ρ))) ^ N) * M := by
  have : Inhabited K := ⟨0⟩
  obtain ⟨g, hg⟩ := exists_samples hG.len
  have hg' : Samples G'.size vals g := by rwa [show G'.size = G.size from funext hsize]
  obtain ⟨c, hc⟩ := hG.cells (by omega) x
  obtain ⟨d, hd⟩ := hG'.cells (by omega) x
  refine ⟨_, _, multicubicAt_eq e he fma G vals lin hG g hg x (hG.inRange_fits (by omega) hin _
      (by simp)) c hc,
    multicubicAt_eq e' he' fma' G' vals lin hG' g hg' x hx d hd, ?_⟩
  have hgM : ∀ loc : Fin N → Nat, (∀ k, loc k < G.size k) → |g loc| ≤ M := fun loc hl =>
    hM _ (List.mem_of_getElem? (hg loc hl))
  have hM0 : 0 ≤ M := (abs_nonneg _).trans
    (hgM (fun _ => 0) fun k => by have := hG.big k; omega)
  have hq : ∀ k, Incr (G.size k) (G'.node k) := fun k => by
    have := hG'.incr k; rwa [hsize] at this
  have hd' : ∀ k, InCell (G.size k) (G'.node k) (x k) (d k) := fun k => by
    have := hd k; rwa [hsize] at this
  simp only [hsize]
  set L := 1 + ρ ^ 2 / (2 * (1 + ρ)) with hL
  have hnear : ∀ k, NearRange (G.size k) (G.node k) 0 (x k) := fun k =>
    ⟨by linarith [(hin k).1], by linarith [(hin k).2]⟩
  have e0 : L + 8 * ρ * (0 * (1 + 0)) = L := by ring
  have hop : ∀ k B f, (∀ i, i < G.size k → |f i| ≤ B) →
      |cubicPiece (G.size k) (G'.node k) f lin (d k) (x k) -
        cubicPiece (G.size k) (G.node k) f lin (c k) (x k)| ≤
        (L + ε * (7 + ρ + 8 * ε) - L) * B := fun k B f hf => by
    rw [add_sub_cancel_left]
    exact cubicPiece_moved (hG.incr k) (hq k) (hw k)
      (fun i hi => hcell k i (by rw [hsize]; exact hi))
      (fun i hi => hclose k i (by rw [hsize]; exact hi)) hf (hρ k) (hG.big k) lin (hc k) (hin k) (hd' k)
  exact (axisByAxis_perturb (L0 := L) (L := L + ε * (7 + ρ + 8 * ε)) (by positivity) hM0
    (fun k i => i < G.size k) (fun k f => cubicPiece (G.size k) (G.node k) f lin (c k) (x k))
    (fun k f => cubicPiece (G.size k) (G'.node k) f lin (d k) (x k)) g
    (fun k f f' δ hf => by
      have := cubicPiece_lip_near (hG.incr k) (hG.big k) lin (hc k) le_rfl (hnear k) hρ1 (hρ k)
        (f := f) (f' := f') (ε := δ) fun i hi => hf i hi.1
      rwa [← hL, e0] at this)
    (fun k B f hf => by
      have h1 := hop k B f hf
      have h2 := cubicPiece_size_near (hG.incr k) (hG.big k) lin (hc k) le_rfl (hnear k) hρ1 (hρ k)
        (f := f) (ε := B) fun i hi => hf i hi.1
      rw [← hL, e0] at h2
      have h3 := abs_add_le (cubicPiece (G.size k) (G'.node k) f lin (d k) (x k) -
        cubicPiece (G.size k) (G.node k) f lin (c k) (x k))
        (cubicPiece (G.size k) (G.node k) f lin (c k) (x k))
      rw [sub_add_cancel] at h3
      linarith)
    hop hgM).2

end

/-! ### Concrete cases -/

/-- A regular grid with 5×4 nodes against a rectilinear one whose nodes are slightly off; the
observation is outside the second grid. -/
example : ∃ y y', multicubicAt .flat false exRegular4
      (exSample exRegular4 fun v => v 0 * v 0 + v 0 * v 1) true ![4, 2] = .ok y ∧
    multicubicAt (.recursive 8) true
      (.rectilinear ![[1 / 100, 1, 2, 301 / 100, 399 / 100], [1, 3, 5, 7]])
      (exSample exRegular4 fun v => v 0 * v 0 + v 0 * v 1) true ![4, 2] = .ok y' ∧
    |y' - y| ≤ ((1 + 1 ^ 2 / (2 * (1 + 1)) + 1 / 90 * (7 + 1 + 8 * (1 / 90))) ^ 2 -
      (1 + 1 ^ 2 / (2 * (1 + 1))) ^ 2) * 44 :=
  C97_nodes_moved .flat (.recursive 8) (show 0 < 2 by decide) (show 0 < 2 ∧ 2 ≤ 8 by decide) false true
    exRegular4 (.rectilinear ![[1 / 100, 1, 2, 301 / 100, 399 / 100], [1, 3, 5, 7]]) _ true
    (valid_of_check (by decide +kernel)) (valid_of_check (by decide +kernel)) (by decide)
    ![98 / 100, 2] (by decide +kernel) (all_cells_of (by decide +kernel)) (1 / 90)
    (by decide +kernel) 1 le_rfl (fun k => meshRatio_of_check (by revert k; decide +kernel)) 44
    (by decide +kernel) ![4, 2] (by decide +kernel) trivial

attribute [local instance] exactOps in
/-- The two results differ. -/
example : multicubicAt .flat false exRegular4
      (exSample exRegular4 fun v => v 0 * v 0 + v 0 * v 1) true ![4, 2] ≠
    multicubicAt .flat false
      (.rectilinear ![[1 / 100, 1, 2, 301 / 100, 399 / 100], [1, 3, 5, 7]])
      (exSample exRegular4 fun v => v 0 * v 0 + v 0 * v 1) true ![4, 2] := by
  decide +kernel

end Interpn
