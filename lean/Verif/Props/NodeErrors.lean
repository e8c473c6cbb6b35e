import Verif.Lemmas.NodeErrors
import Verif.Lemmas.Outcome
import Verif.Props.MultilinearExact
import Verif.Props.GridKinds
import Verif.Spec.Rounding
import Verif.Lemmas.ExampleGrids

/-! C91: small errors in the node coordinates change multilinear results little. Exact arithmetic,
both grid kinds (`Axes`) and both implementations (`Evaluator`). -/

set_option autoImplicit false
set_option linter.unusedSectionVars false

namespace Interpn

section
variable {K : Type} [Field K] [LinearOrder K] [IsStrictOrderedRing K] [FloorRing K] {N : Nat}

/-- C91: two grids `G` and `G'` of the same shape with the same values, bounded by `M`. The nodes of
`G'` differ from those of `G` by at most `ε` times the width `w k` of the narrowest cell of the axis
of `G'`. At an observation in the range of `G` the results differ by at most `((1 + 2 ε)^N - 1) M`,
about `2 N ε M`. The grids may be of different kinds and the implementations may differ. -/
theorem C91_nodes_moved (e e' : Evaluator) (he : e.Fits N) (he' : e'.Fits N) (fma fma' : Bool)
    (G G' : Axes K N) (vals : List K) (hG : G.Valid 2 vals) (hG' : G'.Valid 2 vals)
    (hsize : ∀ k, G'.size k = G.size k) (w : Fin N → K) (hw : ∀ k, 0 < w k)
    (hcell : ∀ k i, i + 1 < G'.size k → w k ≤ G'.node k (i + 1) - G'.node k i) (ε : K)
    (hclose : ∀ k i, i < G'.size k → |G'.node k i - G.node k i| ≤ ε * w k) (M : K)
    (hM : ∀ v ∈ vals, |v| ≤ M) (x : Fin N → K)
    (hin : ∀ k, InRange (G.size k) (G.node k) (x k)) (hx : G'.Representable x) :
    ∃ y y', multilinearAt e fma G vals x = .ok y ∧ multilinearAt e' fma' G' vals x = .ok y' ∧
      |y' - y| ≤ ((1 + 2 * ε) ^ N - 1) * M := by
  have : Inhabited K := ⟨0⟩
  obtain ⟨g, hg⟩ := exists_samples hG.len
  have hg' : Samples G'.size vals g := by rwa [show G'.size = G.size from funext hsize]
  obtain ⟨c, hc⟩ := hG.cells le_rfl x
  obtain ⟨d, hd⟩ := hG'.cells le_rfl x
  refine ⟨_, _, multilinearAt_eq e he fma G vals hG g hg x (hG.inRange_fits le_rfl hin _
      (by simp)) c hc,
    multilinearAt_eq e' he' fma' G' vals hG' g hg' x hx d hd, ?_⟩
  have hgM : ∀ loc : Fin N → Nat, (∀ k, loc k < G.size k) → |g loc| ≤ M := fun loc hl =>
    hM _ (List.mem_of_getElem? (hg loc hl))
  have hM0 : 0 ≤ M := (abs_nonneg _).trans
    (hgM (fun _ => 0) fun k => by have := hG.big k; omega)
  have hq : ∀ k, Incr (G.size k) (G'.node k) := fun k => by
    have := hG'.incr k; rwa [hsize] at this
  have hop : ∀ k B f, (∀ i, i < G.size k → |f i| ≤ B) →
      |linPiece (G'.node k) f (d k) (x k) - linPiece (G.node k) f (c k) (x k)| ≤
        (1 + 2 * ε - 1) * B := fun k B f hf => by
    have := moved_rule_close (hG.incr k) (hq k) (hw k) (fun i hi => hcell k i (by rw [hsize]; exact hi))
      (fun i hi => hclose k i (by rw [hsize]; exact hi)) hf (hc k) (hin k)
      (by have := hd k; rwa [hsize] at this)
    linarith
  have := (axisByAxis_perturb (L0 := 1) (L := 1 + 2 * ε) zero_le_one hM0
    (fun k i => i < G.size k) (fun k f => linPiece (G.node k) f (c k) (x k))
    (fun k f => linPiece (G'.node k) f (d k) (x k)) g
    (fun k f f' δ hf => by
      have := linPiece_le (hG.incr k) (hc k) (hin k) (f := fun i => f i - f' i) hf
      rw [one_mul]
      refine le_of_eq_of_le ?_ this
      congr 1; unfold linPiece; ring)
    (fun k B f hf => by
      have h1 := hop k B f hf
      have h2 := linPiece_le (hG.incr k) (hc k) (hin k) hf
      have h3 := abs_add_le (linPiece (G'.node k) f (d k) (x k) - linPiece (G.node k) f (c k) (x k))
        (linPiece (G.node k) f (c k) (x k))
      rw [sub_add_cancel] at h3
      linarith)
    hop hgM).2
  rwa [one_pow] at this

/-- C91, nearest neighbor: if the nodes of `G'` differ from those of `G` by at most `τ k`, the result
on `G'` is the value stored at a node of `G` that is nearest to the observation up to `2 τ k` on every
axis. -/
theorem C91_nearest (fma : Bool) (G G' : Axes K N) (vals : List K) (hG' : G'.Valid 2 vals)
    (hsize : ∀ k, G'.size k = G.size k) (g : (Fin N → Nat) → K) (hg : Samples G.size vals g)
    (τ : Fin N → K) (hclose : ∀ k i, i < G'.size k → |G'.node k i - G.node k i| ≤ τ k)
    (x : Fin N → K) (hx : G'.Representable x) :
    ∃ loc : Fin N → Nat, nearestAt fma G' vals x = .ok (g loc) ∧
      ∀ k, NearestWithin (G.size k) (G.node k) (x k) (2 * τ k) (loc k) := by
  obtain ⟨loc, hl, -⟩ := C36_unique G' vals hG' x
  refine ⟨loc, C36_nearest fma G' vals hG' g
    (by rwa [show G'.size = G.size from funext hsize]) x hx loc hl, fun k => ?_⟩
  obtain ⟨h1, h2, -⟩ := hl k
  refine ⟨by rw [← hsize]; exact h1, fun j hj => ?_⟩
  have hj' : j < G'.size k := by rw [hsize]; exact hj
  have a := hclose k _ h1
  have b := hclose k j hj'
  have c := h2 j hj'
  have d := abs_sub_le (x k) (G'.node k (loc k)) (G.node k (loc k))
  have e := abs_sub_le (x k) (G.node k j) (G'.node k j)
  rw [abs_sub_comm (G.node k j)] at e
  linarith

end

/-! ### Concrete cases -/

theorem all_cells_of {N : Nat} {n : Fin N → Nat} {P : Fin N → Nat → Prop}
    (h : ∀ k, ∀ i < n k - 1, P k i) : ∀ k i, i + 1 < n k → P k i := fun k i hi => h k i (by omega)

/-- Nodes 0, 1, 2 and 1, 3 of a regular grid against slightly wrong ones, at an observation outside
the second grid: hypotheses of `C91_nodes_moved` with `ε = 1/50`. The two results differ. -/
example : ∃ y y', multilinearAt .flat false exRegular exVals ![2, 2] = .ok y ∧
    multilinearAt (.recursive 8) true (.rectilinear ![[1 / 100, 1, 199 / 100], [1, 3]]) exVals ![2, 2] =
      .ok y' ∧ |y' - y| ≤ ((1 + 2 * (1 / 50)) ^ 2 - 1) * 26 :=
  C91_nodes_moved .flat (.recursive 8) (show 0 < 2 by decide) (show 0 < 2 ∧ 2 ≤ 8 by decide) false true
    exRegular (.rectilinear ![[1 / 100, 1, 199 / 100], [1, 3]]) exVals (valid_of_check (by decide +kernel))
    (valid_of_check (by decide +kernel)) (by decide) ![99 / 100, 2] (by decide +kernel)
    (all_cells_of (by decide +kernel)) (1 / 50)
    (by decide +kernel) 26 (by decide +kernel) ![2, 2] (by decide +kernel) trivial

attribute [local instance] exactOps in
example : multilinearAt .flat false exRegular exVals ![2, 2] = .ok 18 ∧
    multilinearAt .flat false (.rectilinear ![[1 / 100, 1, 199 / 100], [1, 3]]) exVals ![2, 2] =
      .ok (1789 / 99) := by
  decide +kernel

/-- An observation halfway between two nodes of the first grid; the node chosen on the second grid is
nearest up to 1/50. -/
example : ∃ loc : Fin 2 → Nat,
    nearestAt false (.rectilinear ![[1 / 100, 1, 199 / 100], [1, 3]]) exVals ![3 / 2, 2] =
      .ok ((fun loc : Fin 2 → Nat => exVals.getD (2 * loc 0 + loc 1) 0) loc) ∧
    ∀ k, NearestWithin (exRegular.size k) (exRegular.node k) (![3 / 2, 2] k) (2 * ![1 / 100, 0] k)
      (loc k) :=
  C91_nearest false exRegular (.rectilinear ![[1 / 100, 1, 199 / 100], [1, 3]]) exVals
    (valid_of_check (by decide +kernel)) (by decide) _ (samples_of_check (by decide +kernel))
    ![1 / 100, 0] (by decide +kernel) ![3 / 2, 2] trivial

end Interpn
