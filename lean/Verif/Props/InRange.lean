import Verif.Props.MultilinearExact
import Verif.Props.MulticubicExact

/-! C76: observations inside the grid range are evaluated without error. Exact arithmetic, both
grid kinds (`Axes`) and both implementations (`Evaluator`). -/

set_option autoImplicit false
set_option linter.unusedSectionVars false

namespace Interpn

section
variable {K : Type} [Field K] [LinearOrder K] [IsStrictOrderedRing K] [FloorRing K] {N : Nat}

/-- C76, multilinear: a table that the constructor documents as valid gives a value at every
observation inside the grid range. -/
theorem C76_multilinear (e : Evaluator) (he : e.Fits N) (fma : Bool) (G : Axes K N)
    (vals : List K) (hG : G.Valid 2 vals) (x : Fin N → K)
    (hin : ∀ k, InRange (G.size k) (G.node k) (x k)) :
    ∃ y, multilinearAt e fma G vals x = .ok y := by
  obtain ⟨c, hc⟩ := hG.cells le_rfl x
  exact ⟨_, multilinearAt_eq e he fma G vals hG _ (samples_valAt 0 _ _ hG.len) x
    (hG.inRange_fits le_rfl hin _ (by decide)) c hc⟩

/-- C76, multicubic. -/
theorem C76_multicubic (e : Evaluator) (he : e.Fits N) (fma : Bool) (G : Axes K N)
    (vals : List K) (lin : Bool) (hG : G.Valid 4 vals) (x : Fin N → K)
    (hin : ∀ k, InRange (G.size k) (G.node k) (x k)) :
    ∃ y, multicubicAt e fma G vals lin x = .ok y := by
  obtain ⟨c, hc⟩ := hG.cells (by omega) x
  exact ⟨_, multicubicAt_eq e he fma G vals lin hG _ (samples_valAt 0 _ _ hG.len) x
    (hG.inRange_fits (by omega) hin _ (by decide)) c hc⟩

/-- C76, nearest-neighbor: the value is one of the table. -/
theorem C76_nearest (fma : Bool) (G : Axes K N)
    (vals : List K) (hG : G.Valid 2 vals) (x : Fin N → K)
    (hin : ∀ k, InRange (G.size k) (G.node k) (x k)) :
    ∃ y ∈ vals, nearestAt fma G vals x = .ok y := by
  have hn : ∀ k : Fin N, ∃ l, IsNearest (G.size k) (G.node k) (x k) l :=
    fun k => exists_isNearest (hG.big k) (hG.incr k) (x k)
  choose loc hloc using hn
  have hs := samples_valAt 0 _ _ hG.len
  exact ⟨_, List.mem_of_getElem? (hs loc fun k => (hloc k).1),
    nearestAt_eq fma G vals hG _ hs x (hG.inRange_fits le_rfl hin _ (by decide)) loc hloc⟩

end

section Examples

/-- A point on the upper corner of the range of a regular grid and an interior one. -/
example :
    let vals := exSample exRegular4 fun x => x 0 ^ 3 * x 1 + x 1 ^ 2
    exRegular4.Valid 4 vals ∧
      (∀ k, InRange (exRegular4.size k) (exRegular4.node k) (![4, 7] k)) ∧
      (∀ k, InRange (exRegular4.size k) (exRegular4.node k) (![3/2, 2] k)) ∧
      multilinearAt .flat false exRegular4 vals ![4, 7] = .ok 497 ∧
      multicubicAt .flat false exRegular4 vals true ![4, 7] = .ok 497 ∧
      nearestAt false exRegular4 vals ![3/2, 2] = .ok 2 := by
  refine ⟨valid_of_check ?_, ?_⟩ <;> decide +kernel

end Examples

end Interpn
