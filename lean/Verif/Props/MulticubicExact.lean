import Verif.Props.MultilinearExact

/-! C30–C32: values reproduced by multicubic interpolation in exact arithmetic. Every theorem
covers both grid kinds (`Axes`) and both implementations (`Evaluator`). -/

set_option autoImplicit false
set_option linter.unusedSectionVars false

namespace Interpn

section
variable {K : Type} [Field K] [LinearOrder K] [IsStrictOrderedRing K] [FloorRing K] {N : Nat}

/-- C30: at a grid node the stored value is returned. -/
theorem C30_node (e : Evaluator) (he : e.Fits N) (fma : Bool) (G : Axes K N)
    (vals : List K) (lin : Bool) (hG : G.Valid 4 vals) (g : (Fin N → Nat) → K)
    (hg : Samples G.size vals g) (loc : Fin N → Nat) (hl : ∀ k, loc k < G.size k) :
    multicubicAt e fma G vals lin (fun k => G.node k (loc k)) = .ok (g loc) := by
  obtain ⟨c, hc⟩ := hG.cells (by omega) fun k => G.node k (loc k)
  rw [multicubicAt_eq e he fma G vals lin hG g hg _ (hG.node_fits (by omega) hl _ (by decide)) c hc]
  congr 1
  exact axisByAxis_eval _ _ loc fun k f => cubicPiece_node (hG.incr k) f lin (hl k) (hc k)

/-- A function that is a polynomial of degree at most two in each coordinate separately. -/
def SeparatelyQuadratic (F : (Fin N → K) → K) : Prop :=
  ∀ k y, ∃ a b d, ∀ z, F (Function.update y k z) = a + b * z + d * z ^ 2

/-- C31: separately quadratic functions are reproduced at every representable point, provided
the point is inside the grid if extrapolation is linearized. -/
theorem C31_reproduces (e : Evaluator) (he : e.Fits N) (fma : Bool) (G : Axes K N)
    (vals : List K) (lin : Bool) (hG : G.Valid 4 vals) (F : (Fin N → K) → K)
    (hF : SeparatelyQuadratic F) (hg : Samples G.size vals fun loc => F fun k => G.node k (loc k))
    (x : Fin N → K) (hx : G.RepresentableCubic x)
    (hin : lin = true → ∀ k, InRange (G.size k) (G.node k) (x k)) :
    multicubicAt e fma G vals lin x = .ok (F x) := by
  obtain ⟨c, hc⟩ := hG.cells (by omega) x
  rw [multicubicAt_eq e he fma G vals lin hG _ hg x hx c hc]
  congr 1
  exact axisByAxis_reproduce (fun φ => ∃ a b d, ∀ z, φ z = a + b * z + d * z ^ 2) _ G.node x F
    (fun k φ hφ => cubicPiece_quadratic (hG.incr k) (hG.big k) (hc k).1 lin (fun h => hin h k) hφ) hF

/-- C32: separately affine functions are reproduced at every representable point, with either
extrapolation setting. -/
theorem C32_reproduces (e : Evaluator) (he : e.Fits N) (fma : Bool) (G : Axes K N)
    (vals : List K) (lin : Bool) (hG : G.Valid 4 vals) (F : (Fin N → K) → K)
    (hF : SeparatelyAffine F) (hg : Samples G.size vals fun loc => F fun k => G.node k (loc k))
    (x : Fin N → K) (hx : G.RepresentableCubic x) :
    multicubicAt e fma G vals lin x = .ok (F x) := by
  obtain ⟨c, hc⟩ := hG.cells (by omega) x
  rw [multicubicAt_eq e he fma G vals lin hG _ hg x hx c hc]
  congr 1
  exact axisByAxis_reproduce (fun φ => ∃ a b, ∀ z, φ z = a + b * z) _ G.node x F
    (fun k φ hφ => cubicPiece_affine (hG.incr k) (hG.big k) (hc k).1 lin hφ) hF

end

section Examples

/-- The hypotheses hold for a function quadratic in each coordinate on a 5×4 rectilinear grid,
and the model computes its values inside and outside. -/
example :
    let F : (Fin 2 → ℚ) → ℚ := fun x => x 0 ^ 2 + 2 * x 1 + 3 * x 0 * x 1 ^ 2
    let vals := exSample exRectilinear4 F
    exRectilinear4.Valid 4 vals ∧
      Samples exRectilinear4.size vals (fun loc => F fun k => exRectilinear4.node k (loc k)) ∧
      SeparatelyQuadratic F ∧
      (∀ k, InRange (exRectilinear4.size k) (exRectilinear4.node k) (![2, 5] k)) ∧
      exRectilinear4.RepresentableCubic ![2, 5] ∧
      multicubicAt .flat false exRectilinear4 vals true ![2, 5] = .ok (F ![2, 5]) ∧
      multicubicAt (.recursive 2) true exRectilinear4 vals false ![-2, 9] = .ok (F ![-2, 9]) ∧
      multicubicAt (.recursive 2) true exRectilinear4 vals true ![-2, 9] ≠ .ok (F ![-2, 9]) := by
  intro F vals
  refine ⟨valid_of_check ?_, samples_of_check ?_, ?_, ?_⟩
  · decide +kernel
  · decide +kernel
  · intro k y
    fin_cases k
    · exact ⟨2 * y 1, 3 * y 1 ^ 2, 1, fun z => by simp [F, Function.update]; ring⟩
    · exact ⟨y 0 ^ 2, 2, 3 * y 0, fun z => by simp [F, Function.update]⟩
  · decide +kernel

/-- A regular case with affine data, extrapolated with both settings. -/
example :
    let F : (Fin 2 → ℚ) → ℚ := fun x => x 0 + 2 * x 1 + 3 * x 0 * x 1
    let vals := exSample exRegular4 F
    exRegular4.Valid 4 vals ∧
      Samples exRegular4.size vals (fun loc => F fun k => exRegular4.node k (loc k)) ∧
      exRegular4.RepresentableCubic ![-7, 20] ∧
      multicubicAt .flat false exRegular4 vals true ![-7, 20] = .ok (F ![-7, 20]) ∧
      multicubicAt .flat false exRegular4 vals false ![-7, 20] = .ok (F ![-7, 20]) := by
  intro F vals
  refine ⟨valid_of_check ?_, samples_of_check ?_, ?_⟩ <;> decide +kernel

end Examples

end Interpn
