import Verif.Lemmas.EntryPoints
import Verif.Spec.EntryPoints
import Verif.Lemmas.ExampleGrids

/-! C10, C11, C12: an `interpn` entry point called with accepted grid data evaluates every
observation by itself, exactly as constructing the interpolator and calling `interp_one` would.
Combines batching (C09, C10) and dispatch (C11, C12). -/

set_option autoImplicit false

namespace Interpn
open FloatOps

section
variable {T : Type} [FloatOps T] {N : Nat}

/-- `multilinear::regular::interpn`, 1 to 8 axes. -/
theorem C10_C11_multilinear_regular_entry (fma : Bool) (h1 : 1 ≤ N) (h8 : N ≤ 8)
    (dims : Fin N → Nat) (starts steps : Fin N → T) (vals : List T)
    (hG : RegularAccepted 2 dims steps vals) :
    BatchSpec (multilinearRegularAt (linearImpl N) fma dims starts steps vals)
      (fun x out => multilinearRegularInterpn fma (List.ofFn dims) (List.ofFn starts)
        (List.ofFn steps) vals (List.ofFn x) out) := by
  have hc := hG.check (by omega) "All grids must have at least two entries"
  by_cases h6 : N ≤ 6
  · obtain ⟨s, hnew⟩ : ∃ s, MultilinearRegular.new dims starts steps vals = .ok s := by
      rw [MultilinearRegular.new_form]; rw [hc]; exact ⟨_, rfl⟩
    have e1 : multilinearRegularAt (linearImpl N) fma dims starts steps vals =
      s.interpOne fma := by
      funext x
      unfold multilinearRegularAt linearImpl
      rw [if_pos h6]; simp only [hnew, Res.ok_bind]
    simp only [C11_multilinear_regular_flat fma h1 h6, hnew, constructThen, e1]
    exact C09_C10_multilinear_regular fma _
  · have hnew := MultilinearRegularRecursive.new_ofFn (M := N) h1 le_rfl dims starts steps vals
    rw [hc, Res.ok_bind] at hnew
    obtain ⟨s, hnew⟩ : ∃ s, _ = Res.ok s := ⟨_, hnew⟩
    have hb := (C09_C10_multilinear_regular_recursive fma hnew)
    rw [List.length_ofFn] at hb
    simp only [C11_multilinear_regular_recursive fma (show N = 7 ∨ N = 8 by omega), hnew,
      constructThen]
    have e1 : multilinearRegularAt (linearImpl N) fma dims starts steps vals = fun x =>
        s.interpOne fma (List.ofFn x) := by
      funext x
      unfold multilinearRegularAt linearImpl
      rw [if_neg h6]; simp only [hnew, Res.ok_bind]
    rw [e1]
    exact hb.toBatchSpec

/-- `multilinear::rectilinear::interpn`, 1 to 8 axes. -/
theorem C10_C11_multilinear_rectilinear_entry (fma : Bool) (h1 : 1 ≤ N) (h8 : N ≤ 8)
    (grids : Fin N → List T) (vals : List T) (hG : RectilinearAccepted 2 grids vals) :
    BatchSpec (multilinearRectilinearAt (linearImpl N) fma grids vals)
      (fun x out => multilinearRectilinearInterpn fma (List.ofFn grids) vals
        (List.ofFn x) out) := by
  have hc := hG.check (by omega) "All grids must have at least 2 entries"
  by_cases h6 : N ≤ 6
  · obtain ⟨s, hnew⟩ : ∃ s, MultilinearRectilinear.new grids vals = .ok s := by
      rw [MultilinearRectilinear.new_form]; rw [hc]; exact ⟨_, rfl⟩
    have e1 : multilinearRectilinearAt (linearImpl N) fma grids vals =
      s.interpOne fma := by
      funext x
      unfold multilinearRectilinearAt linearImpl
      rw [if_pos h6]; simp only [hnew, Res.ok_bind]
    simp only [C11_multilinear_rectilinear_flat fma h1 h6, hnew, constructThen, e1]
    exact C09_C10_multilinear_rectilinear fma _
  · have hnew := MultilinearRectilinearRecursive.new_eq (M := N) (grids := List.ofFn grids)
      (vals := vals) (by rw [List.length_ofFn]; omega) (by rw [List.length_ofFn])
    rw [hc, Res.ok_bind] at hnew
    obtain ⟨s, hnew⟩ : ∃ s, _ = Res.ok s := ⟨_, hnew⟩
    have hb := (C09_C10_multilinear_rectilinear_recursive fma hnew)
    rw [List.length_ofFn] at hb
    simp only [C11_multilinear_rectilinear_recursive fma (show N = 7 ∨ N = 8 by omega), hnew,
      constructThen]
    have e1 : multilinearRectilinearAt (linearImpl N) fma grids vals = fun x =>
        s.interpOne fma (List.ofFn x) := by
      funext x
      unfold multilinearRectilinearAt linearImpl
      rw [if_neg h6]; simp only [hnew, Res.ok_bind]
    rw [e1]
    exact hb.toBatchSpec

/-- `nearest::regular::interpn`, 1 to 6 axes. -/
theorem C10_C11_nearest_regular_entry (fma : Bool) (h1 : 1 ≤ N) (h6 : N ≤ 6)
    (dims : Fin N → Nat) (starts steps : Fin N → T) (vals : List T)
    (hG : RegularAccepted 2 dims steps vals) :
    BatchSpec (nearestRegularAt fma dims starts steps vals)
      (fun x out => nearestRegularInterpn fma (List.ofFn dims) (List.ofFn starts)
        (List.ofFn steps) vals (List.ofFn x) out) := by
  have hc := hG.check (by omega) "All grids must have at least two entries"
  obtain ⟨s, hnew⟩ : ∃ s, NearestRegular.new dims starts steps vals = .ok s := by
    rw [NearestRegular.new_form]; rw [hc]; exact ⟨_, rfl⟩
  have e1 : nearestRegularAt fma dims starts steps vals =
      s.interpOne fma := by
    funext x
    unfold nearestRegularAt
    rw [hnew, Res.ok_bind]
  simp only [C11_nearest_regular fma h1 h6, hnew, constructThen, e1]
  exact C09_C10_nearest_regular fma _

/-- `nearest::rectilinear::interpn`, 1 to 6 axes. -/
theorem C10_C11_nearest_rectilinear_entry (h1 : 1 ≤ N) (h6 : N ≤ 6)
    (grids : Fin N → List T) (vals : List T) (hG : RectilinearAccepted 2 grids vals) :
    BatchSpec (nearestRectilinearAt grids vals)
      (fun x out => nearestRectilinearInterpn (List.ofFn grids) vals (List.ofFn x) out) := by
  have hc := hG.check (by omega) "All grids must have at least 2 entries"
  obtain ⟨s, hnew⟩ : ∃ s, NearestRectilinear.new grids vals = .ok s := by
    rw [NearestRectilinear.new_form]; rw [hc]; exact ⟨_, rfl⟩
  have e1 : nearestRectilinearAt grids vals =
      s.interpOne := by
    funext x
    unfold nearestRectilinearAt
    rw [hnew, Res.ok_bind]
  simp only [C11_nearest_rectilinear h1 h6, hnew, constructThen, e1]
  exact C09_C10_nearest_rectilinear _

/-- `multicubic::regular::interpn`, 1 to 8 axes. -/
theorem C10_C12_multicubic_regular_entry (fma : Bool) (h1 : 1 ≤ N) (h8 : N ≤ 8)
    (dims : Fin N → Nat) (starts steps : Fin N → T) (vals : List T) (lin : Bool)
    (hG : RegularAccepted 4 dims steps vals) :
    BatchSpec (multicubicRegularAt (cubicImpl N) fma dims starts steps vals lin)
      (fun x out => multicubicRegularInterpn fma (List.ofFn dims) (List.ofFn starts)
        (List.ofFn steps) vals lin (List.ofFn x) out) := by
  have hc := hG.check (by omega) "All grids must have at least four entries"
  by_cases h4 : N ≤ 4
  · obtain ⟨s, hnew⟩ : ∃ s, MulticubicRegular.new dims starts steps vals lin = .ok s := by
      rw [MulticubicRegular.new_form]; rw [hc]; exact ⟨_, rfl⟩
    have e1 : multicubicRegularAt (cubicImpl N) fma dims starts steps vals lin =
      s.interpOne fma := by
      funext x
      unfold multicubicRegularAt cubicImpl
      rw [if_pos h4]; simp only [hnew, Res.ok_bind]
    simp only [C12_multicubic_regular_flat fma h1 h4, hnew, constructThen, e1]
    exact C09_C10_multicubic_regular fma _
  · have hnew := MulticubicRegularRecursive.new_ofFn (M := N) h1 le_rfl dims starts steps vals lin
    rw [hc, Res.ok_bind] at hnew
    obtain ⟨s, hnew⟩ : ∃ s, _ = Res.ok s := ⟨_, hnew⟩
    have hb := (C09_C10_multicubic_regular_recursive fma hnew)
    rw [List.length_ofFn] at hb
    simp only [C12_multicubic_regular_recursive fma (List.ofFn dims) (k := N) _ _ _ _ _ _
      List.length_ofFn (by omega) h8, hnew, constructThen]
    have e1 : multicubicRegularAt (cubicImpl N) fma dims starts steps vals lin = fun x =>
        s.interpOne fma (List.ofFn x) := by
      funext x
      unfold multicubicRegularAt cubicImpl
      rw [if_neg h4]; simp only [hnew, Res.ok_bind]
    rw [e1]
    exact hb.toBatchSpec

/-- `multicubic::rectilinear::interpn`, 1 to 8 axes. -/
theorem C10_C12_multicubic_rectilinear_entry (fma : Bool) (h1 : 1 ≤ N) (h8 : N ≤ 8)
    (grids : Fin N → List T) (vals : List T) (lin : Bool)
    (hG : RectilinearAccepted 4 grids vals) :
    BatchSpec (multicubicRectilinearAt (cubicImpl N) fma grids vals lin)
      (fun x out => multicubicRectilinearInterpn fma (List.ofFn grids) vals lin
        (List.ofFn x) out) := by
  have hc := hG.check (by omega) "All grids must have at least 4 entries"
  by_cases h4 : N ≤ 4
  · obtain ⟨s, hnew⟩ : ∃ s, MulticubicRectilinear.new grids vals lin = .ok s := by
      rw [MulticubicRectilinear.new_form]; rw [hc]; exact ⟨_, rfl⟩
    have e1 : multicubicRectilinearAt (cubicImpl N) fma grids vals lin =
      s.interpOne fma := by
      funext x
      unfold multicubicRectilinearAt cubicImpl
      rw [if_pos h4]; simp only [hnew, Res.ok_bind]
    simp only [C12_multicubic_rectilinear_flat fma h1 h4, hnew, constructThen, e1]
    exact C09_C10_multicubic_rectilinear fma _
  · have hnew := MulticubicRectilinearRecursive.new_eq (M := N) (grids := List.ofFn grids)
      (vals := vals) (lin := lin) (by rw [List.length_ofFn]; omega) (by rw [List.length_ofFn])
    rw [hc, Res.ok_bind] at hnew
    obtain ⟨s, hnew⟩ : ∃ s, _ = Res.ok s := ⟨_, hnew⟩
    have hb := (C09_C10_multicubic_rectilinear_recursive fma hnew)
    rw [List.length_ofFn] at hb
    simp only [C12_multicubic_rectilinear_recursive fma (List.ofFn grids) (k := N) _ _ _ _
      List.length_ofFn (by omega) h8, hnew, constructThen]
    have e1 : multicubicRectilinearAt (cubicImpl N) fma grids vals lin = fun x =>
        s.interpOne fma (List.ofFn x) := by
      funext x
      unfold multicubicRectilinearAt cubicImpl
      rw [if_neg h4]; simp only [hnew, Res.ok_bind]
    rw [e1]
    exact hb.toBatchSpec

end

/-! #### Concrete cases -/

section
attribute [local instance] ratOps

example : RegularAccepted (T := ℚ) 2 ![2, 3] ![1, 2] [1, 2, 3, 4, 5, 6] :=
  ⟨by unfold IsSlice; decide, by decide, by decide, by decide +kernel⟩

example : multilinearRegularInterpn (T := ℚ) true [2, 3] [0, 1] [1, 2] [1, 2, 3, 4, 5, 6]
    [[0, 1/2], [1, 2]] [0, 0] = (.ok (), [1, 3]) := by decide +kernel

example : RectilinearAccepted (T := ℚ) 4 ![[0, 1, 3, 4], [0, 1, 2, 3]] (List.replicate 16 1) :=
  ⟨by unfold IsSlice; decide, by decide, by decide,
    fun k => by fin_cases k <;> exact ⟨0, 1, _, rfl, by decide +kernel⟩⟩

end

end Interpn
