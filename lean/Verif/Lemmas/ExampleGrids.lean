import Verif.Spec.Grid
import Verif.Lemmas.RatOps
import Mathlib.Tactic.FinCases
import Mathlib.Data.Fintype.Pi

/-! Decidable forms of the hypotheses, used only for the concrete cases beside the theorems. -/

set_option autoImplicit false
set_option linter.unusedSectionVars false

namespace Interpn

section
variable {K : Type} [Field K] [LinearOrder K] [FloorRing K] {N : Nat}

theorem valid_of_check {G : Axes K N} {m : Nat} {vals : List K}
    (h : vals.length < 2 ^ 63 ∧ vals.length = ∏ k, G.size k ∧ (∀ k, m ≤ G.size k) ∧
      ∀ k, ∀ i < G.size k - 1, G.node k i < G.node k (i + 1)) : G.Valid m vals :=
  ⟨h.1, h.2.1, h.2.2.1, fun k i hi => h.2.2.2 k i (by omega)⟩

theorem samples_of_check {dims : Fin N → Nat} {vals : List K} {g : (Fin N → Nat) → K}
    (h : ∀ loc : (k : Fin N) → Fin (dims k),
      vals[cIndex dims fun k => (loc k).val]? = some (g fun k => (loc k).val)) :
    Samples dims vals g := fun loc hl => h fun k => ⟨loc k, hl k⟩

end

instance {N : Nat} (lo : Int) (G : Axes ℚ N) (x : Fin N → ℚ) : Decidable (G.StepsFit lo x) := by
  cases G <;> (unfold Axes.StepsFit; infer_instance)

instance {N : Nat} (G : Axes ℚ N) (x : Fin N → ℚ) : Decidable (G.Representable x) := by
  unfold Axes.Representable; infer_instance

instance {N : Nat} (G : Axes ℚ N) (x : Fin N → ℚ) : Decidable (G.RepresentableCubic x) := by
  unfold Axes.RepresentableCubic; infer_instance

instance (n : Nat) (p : Nat → ℚ) (x : ℚ) (i : Nat) : Decidable (InCell n p x i) := by
  unfold InCell; infer_instance

instance (n : Nat) (p : Nat → ℚ) (x : ℚ) : Decidable (InRange n p x) := by
  unfold InRange; infer_instance

instance (n : Nat) (p : Nat → ℚ) (x : ℚ) (i : Nat) : Decidable (IsNearest n p x i) := by
  unfold IsNearest; infer_instance

/-- A 3×2 regular grid. -/
def exRegular : Axes ℚ 2 := .regular ![3, 2] ![0, 1] ![1, 2]

/-- A 3×2 rectilinear grid. -/
def exRectilinear : Axes ℚ 2 := .rectilinear ![[0, 1, 4], [1, 3]]

/-- `x + 2 y + 3 x y` on `exRegular`. -/
def exVals : List ℚ := [2, 6, 6, 16, 10, 26]

/-- A 5×4 regular grid. -/
def exRegular4 : Axes ℚ 2 := .regular ![5, 4] ![0, 1] ![1, 2]

/-- A 5×4 rectilinear grid. -/
def exRectilinear4 : Axes ℚ 2 := .rectilinear ![[0, 1, 4, 5, 7], [1, 3, 4, 8]]

/-- Values of `F` on the nodes of a 2-dimensional grid, in C order. -/
def exSample (G : Axes ℚ 2) (F : (Fin 2 → ℚ) → ℚ) : List ℚ :=
  (List.range (G.size 0)).flatMap fun i => (List.range (G.size 1)).map fun j =>
    F ![G.node 0 i, G.node 1 j]

end Interpn
