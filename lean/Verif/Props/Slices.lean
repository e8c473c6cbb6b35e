import Verif.Props.MultilinearExact
import Verif.Props.MulticubicExact
import Verif.Lemmas.Subgrid

/-! C71: interpolating on a coordinate plane through a node is interpolating the slice of the
table. C72: an axis on which the data do not depend can be left out. Exact arithmetic, both grid
kinds (`Axes`) and both implementations (`Evaluator`). -/

set_option autoImplicit false
set_option linter.unusedSectionVars false

namespace Interpn

section
variable {K : Type} [Field K] [LinearOrder K] [IsStrictOrderedRing K] [FloorRing K] {N : Nat}

theorem slice_fits (G : Axes K (N + 1)) {m : Nat} {vals : List K} (hG : G.Valid m vals)
    (hm : 2 ≤ m) (j : Fin (N + 1)) {i : Nat} (hi : i < G.size j) {x : Fin N → K} (lo : Int)
    (hlo : lo ≤ 0) (hx : (G.dropAxis j).StepsFit lo x) :
    G.StepsFit lo (withEntry j (G.node j i) x) := by
  have := Axes.dropAxis_fits j G lo hx (loc := withEntry j i fun _ => 0)
    (hG.node_fits hm (fun k => ?_) lo hlo)
  · rwa [withEntry_self] at this
  · refine forall_withEntry (P := fun k => withEntry j i (fun _ => 0) k < G.size k) j ?_ ?_ k
    · rw [withEntry_self]; exact hi
    · intro k; rw [withEntry_other]; have := hG.big (j.succAbove k); omega

/-- C71, multilinear: with coordinate `j` at node `i`, the result is that of the grid without
axis `j` on the values with index `i` on that axis. -/
theorem C71_multilinear (e e' : Evaluator) (he : e.Fits (N + 1)) (he' : e'.Fits N)
    (fma fma' : Bool) (G : Axes K (N + 1)) (j : Fin (N + 1)) (i : Nat) (hi : i < G.size j)
    (vals vals' : List K) (hG : G.Valid 2 vals) (hG' : (G.dropAxis j).Valid 2 vals')
    (g : (Fin (N + 1) → Nat) → K) (hg : Samples G.size vals g)
    (hg' : Samples (G.dropAxis j).size vals' fun loc => g (withEntry j i loc))
    (x : Fin N → K) (hx : (G.dropAxis j).Representable x) :
    ∃ y, multilinearAt e fma G vals (withEntry j (G.node j i) x) = .ok y ∧
      multilinearAt e' fma' (G.dropAxis j) vals' x = .ok y := by
  obtain ⟨c', hc'⟩ := hG'.cells le_rfl x
  obtain ⟨d, hd⟩ := exists_inCell (p := G.node j) (hG.big j) (G.node j i)
  have hc : ∀ k, InCell (G.size k) (G.node k) (withEntry j (G.node j i) x k)
      (withEntry j d c' k) := by
    refine forall_withEntry j ?_ fun k => ?_
    · rw [withEntry_self, withEntry_self]; exact hd
    · rw [withEntry_other, withEntry_other]
      have := hc' k
      rwa [Axes.dropAxis_size, Axes.dropAxis_node] at this
  refine ⟨_, multilinearAt_eq e he fma G vals hG g hg _
    (slice_fits G hG le_rfl j hi _ (by decide) hx) _ hc, ?_⟩
  rw [multilinearAt_eq e' he' fma' _ vals' hG' _ hg' x hx c' hc', axisByAxis_pick j i]
  · simp only [withEntry_other, Axes.dropAxis_node]
  · intro f
    rw [withEntry_self, withEntry_self]
    exact linPiece_node (hG.incr j) f hi hd

/-- C71, multicubic. -/
theorem C71_multicubic (e e' : Evaluator) (he : e.Fits (N + 1)) (he' : e'.Fits N)
    (fma fma' : Bool) (G : Axes K (N + 1)) (j : Fin (N + 1)) (i : Nat) (hi : i < G.size j)
    (vals vals' : List K) (lin : Bool) (hG : G.Valid 4 vals) (hG' : (G.dropAxis j).Valid 4 vals')
    (g : (Fin (N + 1) → Nat) → K) (hg : Samples G.size vals g)
    (hg' : Samples (G.dropAxis j).size vals' fun loc => g (withEntry j i loc))
    (x : Fin N → K) (hx : (G.dropAxis j).RepresentableCubic x) :
    ∃ y, multicubicAt e fma G vals lin (withEntry j (G.node j i) x) = .ok y ∧
      multicubicAt e' fma' (G.dropAxis j) vals' lin x = .ok y := by
  obtain ⟨c', hc'⟩ := hG'.cells (by omega) x
  obtain ⟨d, hd⟩ := exists_inCell (n := G.size j) (p := G.node j) (by have := hG.big j; omega) (G.node j i)
  have hc : ∀ k, InCell (G.size k) (G.node k) (withEntry j (G.node j i) x k)
      (withEntry j d c' k) := by
    refine forall_withEntry j ?_ fun k => ?_
    · rw [withEntry_self, withEntry_self]; exact hd
    · rw [withEntry_other, withEntry_other]
      have := hc' k
      rwa [Axes.dropAxis_size, Axes.dropAxis_node] at this
  refine ⟨_, multicubicAt_eq e he fma G vals lin hG g hg _
    (slice_fits G hG (by omega) j hi _ (by decide) hx) _ hc, ?_⟩
  rw [multicubicAt_eq e' he' fma' _ vals' lin hG' _ hg' x hx c' hc', axisByAxis_pick j i]
  · simp only [withEntry_other, Axes.dropAxis_node, Axes.dropAxis_size]
  · intro f
    rw [withEntry_self, withEntry_self]
    exact cubicPiece_node (hG.incr j) f lin hi hd

/-- C71, nearest-neighbor: coordinate `j` need not be at the node, it suffices that node `i` is
the nearest one. -/
theorem C71_nearest (fma fma' : Bool) (G : Axes K (N + 1)) (j : Fin (N + 1)) (z : K) (i : Nat)
    (hi : IsNearest (G.size j) (G.node j) z i)
    (vals vals' : List K) (hG : G.Valid 2 vals) (hG' : (G.dropAxis j).Valid 2 vals')
    (g : (Fin (N + 1) → Nat) → K) (hg : Samples G.size vals g)
    (hg' : Samples (G.dropAxis j).size vals' fun loc => g (withEntry j i loc))
    (x : Fin N → K) (hx : G.Representable (withEntry j z x))
    (hx' : (G.dropAxis j).Representable x) :
    ∃ y, nearestAt fma G vals (withEntry j z x) = .ok y ∧
      nearestAt fma' (G.dropAxis j) vals' x = .ok y := by
  have hn : ∀ k : Fin N, ∃ l, IsNearest ((G.dropAxis j).size k) ((G.dropAxis j).node k) (x k) l :=
    fun k => exists_isNearest (hG'.big k) (hG'.incr k) (x k)
  choose loc hloc using hn
  refine ⟨_, nearestAt_eq fma G vals hG g hg _ hx (withEntry j i loc) ?_,
    nearestAt_eq fma' _ vals' hG' _ hg' x hx' loc hloc⟩
  refine forall_withEntry j ?_ fun k => ?_
  · rw [withEntry_self, withEntry_self]; exact hi
  · rw [withEntry_other, withEntry_other]
    have := hloc k
    rwa [Axes.dropAxis_size, Axes.dropAxis_node] at this

theorem dropAxis_fits_of_fits (G : Axes K (N + 1)) (j : Fin (N + 1)) {lo : Int} {z : K}
    {x : Fin N → K} (hx : G.StepsFit lo (withEntry j z x)) : (G.dropAxis j).StepsFit lo x := by
  cases G with
  | rectilinear => trivial
  | regular dims starts steps =>
    intro k
    have := hx (j.succAbove k)
    rwa [withEntry_other] at this

/-- C72, multilinear: if the values do not depend on the index of axis `j`, the result does not
depend on coordinate `j` (inside or outside the grid) and is that of the grid without the axis. -/
theorem C72_multilinear (e e' : Evaluator) (he : e.Fits (N + 1)) (he' : e'.Fits N)
    (fma fma' : Bool) (G : Axes K (N + 1)) (j : Fin (N + 1))
    (vals vals' : List K) (hG : G.Valid 2 vals) (hG' : (G.dropAxis j).Valid 2 vals')
    (g : (Fin N → Nat) → K) (hg : Samples G.size vals fun loc => g fun k => loc (j.succAbove k))
    (hg' : Samples (G.dropAxis j).size vals' g)
    (z : K) (x : Fin N → K) (hx : G.Representable (withEntry j z x)) :
    ∃ y, multilinearAt e fma G vals (withEntry j z x) = .ok y ∧
      multilinearAt e' fma' (G.dropAxis j) vals' x = .ok y := by
  obtain ⟨c, hc⟩ := hG.cells le_rfl (withEntry j z x)
  have hc' : ∀ k, InCell ((G.dropAxis j).size k) ((G.dropAxis j).node k) (x k)
      (c (j.succAbove k)) := by
    intro k
    have := hc (j.succAbove k)
    rw [withEntry_other] at this
    rwa [Axes.dropAxis_size, Axes.dropAxis_node]
  refine ⟨_, multilinearAt_eq e he fma G vals hG _ hg _ hx c hc, ?_⟩
  rw [multilinearAt_eq e' he' fma' _ vals' hG' _ hg' x (dropAxis_fits_of_fits G j hx) _ hc',
    axisByAxis_const j _ _ g]
  · simp only [withEntry_other, Axes.dropAxis_node]
  · intro y
    simp only [linPiece, sub_self, mul_zero, add_zero]
  · intro i loc
    simp only [withEntry_other]

/-- C72, multicubic. -/
theorem C72_multicubic (e e' : Evaluator) (he : e.Fits (N + 1)) (he' : e'.Fits N)
    (fma fma' : Bool) (G : Axes K (N + 1)) (j : Fin (N + 1))
    (vals vals' : List K) (lin : Bool) (hG : G.Valid 4 vals) (hG' : (G.dropAxis j).Valid 4 vals')
    (g : (Fin N → Nat) → K) (hg : Samples G.size vals fun loc => g fun k => loc (j.succAbove k))
    (hg' : Samples (G.dropAxis j).size vals' g)
    (z : K) (x : Fin N → K) (hx : G.RepresentableCubic (withEntry j z x)) :
    ∃ y, multicubicAt e fma G vals lin (withEntry j z x) = .ok y ∧
      multicubicAt e' fma' (G.dropAxis j) vals' lin x = .ok y := by
  obtain ⟨c, hc⟩ := hG.cells (by omega) (withEntry j z x)
  have hc' : ∀ k, InCell ((G.dropAxis j).size k) ((G.dropAxis j).node k) (x k)
      (c (j.succAbove k)) := by
    intro k
    have := hc (j.succAbove k)
    rw [withEntry_other] at this
    rwa [Axes.dropAxis_size, Axes.dropAxis_node]
  refine ⟨_, multicubicAt_eq e he fma G vals lin hG _ hg _ hx c hc, ?_⟩
  rw [multicubicAt_eq e' he' fma' _ vals' lin hG' _ hg' x (dropAxis_fits_of_fits G j hx) _ hc',
    axisByAxis_const j _ _ g]
  · simp only [withEntry_other, Axes.dropAxis_node, Axes.dropAxis_size]
  · intro y
    exact cubicPiece_affine (hG.incr j) (hG.big j) (hc j).1 lin (φ := fun _ => y)
      ⟨y, 0, fun _ => by ring⟩
  · intro i loc
    simp only [withEntry_other]

/-- C72, nearest-neighbor. -/
theorem C72_nearest (fma fma' : Bool) (G : Axes K (N + 1)) (j : Fin (N + 1))
    (vals vals' : List K) (hG : G.Valid 2 vals) (hG' : (G.dropAxis j).Valid 2 vals')
    (g : (Fin N → Nat) → K) (hg : Samples G.size vals fun loc => g fun k => loc (j.succAbove k))
    (hg' : Samples (G.dropAxis j).size vals' g)
    (z : K) (x : Fin N → K) (hx : G.Representable (withEntry j z x)) :
    ∃ y, nearestAt fma G vals (withEntry j z x) = .ok y ∧
      nearestAt fma' (G.dropAxis j) vals' x = .ok y := by
  obtain ⟨i, hi⟩ := exists_isNearest (hG.big j) (hG.incr j) z
  exact C71_nearest fma fma' G j z i hi vals vals' hG hG' _ hg
    (by simpa only [withEntry_other] using hg') x hx (dropAxis_fits_of_fits G j hx)

end

section Examples

/-- C71: the slice of a 3×2 table at index 2 of axis 0, an extrapolated point. -/
example :
    exRegular.Valid 2 exVals ∧ (exRegular.dropAxis 0).Valid 2 [10, 26] ∧
      Samples exRegular.size exVals (valAt 0 exRegular.size exVals) ∧
      Samples (exRegular.dropAxis 0).size [10, 26]
        (fun loc => valAt 0 exRegular.size exVals (withEntry 0 2 loc)) ∧
      exRegular.node 0 2 = 2 ∧ (exRegular.dropAxis 0).Representable ![5] ∧
      multilinearAt .flat false exRegular exVals (withEntry 0 2 ![5]) = .ok 42 ∧
      multilinearAt (.recursive 8) true (exRegular.dropAxis 0) [10, 26] ![5] = .ok 42 := by
  refine ⟨valid_of_check ?_, valid_of_check ?_, samples_of_check ?_, samples_of_check ?_, ?_⟩ <;>
    decide +kernel

/-- C71: the slice of a 5×4 rectilinear table at index 2 of axis 1; nearest-neighbor with
coordinate 1 only close to that node. -/
example :
    let vals := exSample exRectilinear4 fun x => x 0 ^ 2 * x 1 + x 1 ^ 2
    let vals' : List ℚ := [16, 20, 80, 116, 212]
    exRectilinear4.Valid 4 vals ∧ (exRectilinear4.dropAxis 1).Valid 4 vals' ∧
      Samples exRectilinear4.size vals (valAt 0 exRectilinear4.size vals) ∧
      Samples (exRectilinear4.dropAxis 1).size vals'
        (fun loc => valAt 0 exRectilinear4.size vals (withEntry 1 2 loc)) ∧
      IsNearest (exRectilinear4.size 1) (exRectilinear4.node 1) 5 2 ∧
      multicubicAt .flat false exRectilinear4 vals true (withEntry 1 4 ![8]) =
        multicubicAt .flat false (exRectilinear4.dropAxis 1) vals' true ![8] ∧
      nearestAt false exRectilinear4 vals (withEntry 1 5 ![3]) = .ok 80 ∧
      nearestAt false (exRectilinear4.dropAxis 1) vals' ![3] = .ok 80 := by
  refine ⟨valid_of_check ?_, valid_of_check ?_, samples_of_check ?_, samples_of_check ?_, ?_⟩ <;>
    decide +kernel

/-- C72: a table constant along axis 0, at points outside the grid on both axes. -/
example :
    let vals := exSample exRegular4 fun x => x 1 ^ 3
    let vals' : List ℚ := [1, 27, 125, 343]
    exRegular4.Valid 4 vals ∧ (exRegular4.dropAxis 0).Valid 4 vals' ∧
      Samples exRegular4.size vals
        (fun loc => valAt 0 (exRegular4.dropAxis 0).size vals'
          fun k => loc ((0 : Fin 2).succAbove k)) ∧
      Samples (exRegular4.dropAxis 0).size vals' (valAt 0 (exRegular4.dropAxis 0).size vals') ∧
      exRegular4.RepresentableCubic (withEntry 0 9 ![4]) ∧
      multicubicAt .flat false exRegular4 vals false (withEntry 0 9 ![4]) = .ok 64 ∧
      multicubicAt (.recursive 8) true (exRegular4.dropAxis 0) vals' false ![4] = .ok 64 ∧
      multilinearAt .flat false exRegular4 vals (withEntry 0 (-9) ![9]) = .ok 561 ∧
      multilinearAt .flat false (exRegular4.dropAxis 0) vals' ![9] = .ok 561 := by
  refine ⟨valid_of_check ?_, valid_of_check ?_, samples_of_check ?_, samples_of_check ?_, ?_⟩ <;>
    decide +kernel

end Examples

end Interpn
