import Verif.Lemmas.IeeeNeg
import Verif.Lemmas.IeeeExamples

/-! C89: negated data give negated results in IEEE 754 arithmetic, and the sign of zeros in the data
does not matter. -/

set_option autoImplicit false
set_option exponentiation.threshold 1100

namespace Interpn
open FloatOps Ieee

section
variable {f : Format} {N : Nat} {vals : List (Ieee f)}

theorem forall₂_neg (vals : List (Ieee f)) : List.Forall₂ Opposite vals (vals.map (-. ·)) := by
  induction vals with
  | nil => exact .nil
  | cons a l ih => exact .cons (opposite_neg a) ih

/-- C89, multilinear interpolation on rectilinear grids: with all values negated a call ends in the same way (success,
error, panic), and a result is negated, up to the sign of a zero result. Replacing zeros in the data
by zeros of the other sign changes at most the sign of a zero result. Nothing is assumed about the
size of the data; infinities, NaN, overflow and underflow are included. -/
theorem C89_multilinear_rectilinear (e : Evaluator) (he : e.Fits N) (fma : Bool)
    (grids : Fin N → List (Ieee f))
    (hs : IsSlice vals) (x : Fin N → Ieee f) :
    SameOutcome Opposite (multilinearRectilinearAt e fma grids vals x)
      (multilinearRectilinearAt e fma grids (vals.map (-. ·)) x) ∧
    ∀ vals', List.Forall₂ SameValue vals vals' →
      SameOutcome SameValue (multilinearRectilinearAt e fma grids vals x)
        (multilinearRectilinearAt e fma grids vals' x) :=
  ⟨dataRel_opposite.multilinearRectilinearAt e he fma grids (forall₂_neg vals) hs x,
    fun _ h => dataRel_sameValue.multilinearRectilinearAt e he fma grids h hs x⟩

/-- C89, multilinear interpolation on regular grids. -/
theorem C89_multilinear_regular (e : Evaluator) (he : e.Fits N) (fma : Bool)
    (dims : Fin N → Nat) (starts steps : Fin N → Ieee f)
    (hs : IsSlice vals) (x : Fin N → Ieee f) :
    SameOutcome Opposite (multilinearRegularAt e fma dims starts steps vals x)
      (multilinearRegularAt e fma dims starts steps (vals.map (-. ·)) x) ∧
    ∀ vals', List.Forall₂ SameValue vals vals' →
      SameOutcome SameValue (multilinearRegularAt e fma dims starts steps vals x)
        (multilinearRegularAt e fma dims starts steps vals' x) :=
  ⟨dataRel_opposite.multilinearRegularAt e he fma dims starts steps (forall₂_neg vals) hs x,
    fun _ h => dataRel_sameValue.multilinearRegularAt e he fma dims starts steps h hs x⟩

/-- C89, multicubic interpolation on rectilinear grids. -/
theorem C89_multicubic_rectilinear (e : Evaluator) (he : e.Fits N) (fma : Bool)
    (grids : Fin N → List (Ieee f)) (lin : Bool)
    (hs : IsSlice vals) (x : Fin N → Ieee f) :
    SameOutcome Opposite (multicubicRectilinearAt e fma grids vals lin x)
      (multicubicRectilinearAt e fma grids (vals.map (-. ·)) lin x) ∧
    ∀ vals', List.Forall₂ SameValue vals vals' →
      SameOutcome SameValue (multicubicRectilinearAt e fma grids vals lin x)
        (multicubicRectilinearAt e fma grids vals' lin x) :=
  ⟨dataRel_opposite.multicubicRectilinearAt e he fma grids lin (forall₂_neg vals) hs x,
    fun _ h => dataRel_sameValue.multicubicRectilinearAt e he fma grids lin h hs x⟩

/-- C89, multicubic interpolation on regular grids. -/
theorem C89_multicubic_regular (e : Evaluator) (he : e.Fits N) (fma : Bool)
    (dims : Fin N → Nat) (starts steps : Fin N → Ieee f) (lin : Bool)
    (hs : IsSlice vals) (x : Fin N → Ieee f) :
    SameOutcome Opposite (multicubicRegularAt e fma dims starts steps vals lin x)
      (multicubicRegularAt e fma dims starts steps (vals.map (-. ·)) lin x) ∧
    ∀ vals', List.Forall₂ SameValue vals vals' →
      SameOutcome SameValue (multicubicRegularAt e fma dims starts steps vals lin x)
        (multicubicRegularAt e fma dims starts steps vals' lin x) :=
  ⟨dataRel_opposite.multicubicRegularAt e he fma (totalOfUsize f) dims starts steps lin (forall₂_neg vals) hs x,
    fun _ h => dataRel_sameValue.multicubicRegularAt e he fma (totalOfUsize f) dims starts steps lin h hs x⟩

/-- C89, nearest-neighbour interpolation on rectilinear grids. -/
theorem C89_nearest_rectilinear (grids : Fin N → List (Ieee f))
    (hs : IsSlice vals) (x : Fin N → Ieee f) :
    SameOutcome Opposite (nearestRectilinearAt grids vals x)
      (nearestRectilinearAt grids (vals.map (-. ·)) x) ∧
    ∀ vals', List.Forall₂ SameValue vals vals' →
      SameOutcome SameValue (nearestRectilinearAt grids vals x)
        (nearestRectilinearAt grids vals' x) :=
  ⟨DataRel.nearestRectilinearAt grids (forall₂_neg vals) hs x,
    fun _ h => DataRel.nearestRectilinearAt grids h hs x⟩

/-- C89, nearest-neighbour interpolation on regular grids. -/
theorem C89_nearest_regular (fma : Bool) (dims : Fin N → Nat)
    (starts steps : Fin N → Ieee f)
    (hs : IsSlice vals) (x : Fin N → Ieee f) :
    SameOutcome Opposite (nearestRegularAt fma dims starts steps vals x)
      (nearestRegularAt fma dims starts steps (vals.map (-. ·)) x) ∧
    ∀ vals', List.Forall₂ SameValue vals vals' →
      SameOutcome SameValue (nearestRegularAt fma dims starts steps vals x)
        (nearestRegularAt fma dims starts steps vals' x) :=
  ⟨DataRel.nearestRegularAt fma dims starts steps (forall₂_neg vals) hs x,
    fun _ h => DataRel.nearestRegularAt fma dims starts steps h hs x⟩

/-- C89, the five 1-D interpolators on rectilinear grids. -/
theorem C89_rectilinear_1d (fma : Bool) (kind : Kind1D) (grid : List (Ieee f))
    (hs : IsSlice vals) (loc : Ieee f) :
    SameOutcome Opposite (rectilinear1DAt (kind.evalOne fma) grid vals loc)
      (rectilinear1DAt (kind.evalOne fma) grid (vals.map (-. ·)) loc) ∧
    ∀ vals', List.Forall₂ SameValue vals vals' →
      SameOutcome SameValue (rectilinear1DAt (kind.evalOne fma) grid vals loc)
        (rectilinear1DAt (kind.evalOne fma) grid vals' loc) :=
  ⟨dataRel_opposite.rectilinear1DAt fma kind grid loc (forall₂_neg vals) hs,
    fun _ h => dataRel_sameValue.rectilinear1DAt fma kind grid loc h hs⟩

/-- C89, the five 1-D interpolators on regular grids. -/
theorem C89_regular_1d (fma : Bool) (kind : Kind1D) (start step : Ieee f)
    (hs : IsSlice vals) (loc : Ieee f) :
    SameOutcome Opposite (regular1DAt (kind.evalOne fma) start step vals loc)
      (regular1DAt (kind.evalOne fma) start step (vals.map (-. ·)) loc) ∧
    ∀ vals', List.Forall₂ SameValue vals vals' →
      SameOutcome SameValue (regular1DAt (kind.evalOne fma) start step vals loc)
        (regular1DAt (kind.evalOne fma) start step vals' loc) :=
  ⟨dataRel_opposite.regular1DAt fma kind start step loc (forall₂_neg vals) hs,
    fun _ h => dataRel_sameValue.regular1DAt fma kind start step loc h hs⟩

end

/-- A case of `C89_multicubic_rectilinear`, with a result other than zero. -/
example : SameOutcome Opposite
      (multicubicRectilinearAt (.recursive 8) true ![[q64 0, q64 1, q64 3, q64 4]]
        [q64 (1 / 3), q64 7, q64 (-2), q64 5] true ![q64 (1 / 10)])
      (multicubicRectilinearAt (.recursive 8) true ![[q64 0, q64 1, q64 3, q64 4]]
        [-. q64 (1 / 3), -. q64 7, -. q64 (-2), -. q64 5] true ![q64 (1 / 10)]) ∧
    (match multicubicRectilinearAt (.recursive 8) true ![[q64 0, q64 1, q64 3, q64 4]]
        [q64 (1 / 3), q64 7, q64 (-2), q64 5] true ![q64 (1 / 10)] with
      | .ok r => decide (val r ≠ 0)
      | _ => false) = true :=
  ⟨(C89_multicubic_rectilinear (.recursive 8) (show 0 < 1 ∧ 1 ≤ 8 by decide) true _ true
    ((isSlice_iff _).2 (by decide)) _).1, by decide +kernel⟩

/-- The data of the second part of C89 may differ. -/
example : List.Forall₂ SameValue [q64 0, -. q64 0, .inf true, .nan, q64 3]
    [-. q64 0, q64 0, .inf true, .nan, q64 3] ∧ q64 0 ≠ -. q64 0 := by
  decide +kernel

/-- The sign of a zero result is not determined: the values 1, -1 and the values -1, 1 both give +0
half way. -/
example : multilinearRectilinearAt .flat false ![[q64 0, q64 1]] [q64 1, q64 (-1)] ![q64 (1 / 2)]
      = .ok (q64 0) ∧
    multilinearRectilinearAt .flat false ![[q64 0, q64 1]] [q64 (-1), q64 1] ![q64 (1 / 2)]
      = .ok (q64 0) := by
  decide +kernel

end Interpn
