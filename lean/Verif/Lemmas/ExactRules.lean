import Verif.Lemmas.EvalCubic
import Verif.Model.Exact
import Mathlib.Tactic.Ring

/-! In exact arithmetic the `fma` feature makes no difference. -/

set_option autoImplicit false

namespace Interpn
open FloatOps

section
variable {K : Type} [Field K] [LinearOrder K] [FloorRing K]

attribute [local instance] exactOps

@[simp] theorem exact_zero : (zero : K) = 0 := rfl
@[simp] theorem exact_one : (one : K) = 1 := rfl
@[simp] theorem exact_add (a b : K) : a +. b = a + b := rfl
@[simp] theorem exact_sub (a b : K) : a -. b = a - b := rfl
@[simp] theorem exact_mul (a b : K) : a *. b = a * b := rfl
@[simp] theorem exact_div (a b : K) : a /. b = a / b := rfl
@[simp] theorem exact_neg (a : K) : -. a = - a := rfl
@[simp] theorem exact_mulAdd (a b c : K) : mulAdd a b c = a * b + c := rfl
@[simp] theorem exact_lt (a b : K) : (a <. b) = decide (a < b) := rfl
@[simp] theorem exact_le (a b : K) : (a <=. b) = decide (a ≤ b) := rfl
@[simp] theorem exact_floor (a : K) : FloatOps.floor a = (⌊a⌋ : K) := rfl
@[simp] theorem exact_fmin (a b : K) : fmin a b = min a b := rfl
@[simp] theorem exact_fmax (a b : K) : fmax a b = max a b := rfl
@[simp] theorem exact_ofUsize (n : Nat) : (ofUsize n : Option K) = some (n : K) := rfl

theorem totalOfUsize_exact : TotalOfUsize K := fun n _ => ⟨(n : K), rfl⟩

theorem lerp_exact (fma : Bool) (t : K) (v : Fin 2 → K) :
    lerp fma t v = v 0 + t * (v 1 - v 0) := by
  unfold lerp
  cases fma <;> simp [add_comm]

theorem hermite_exact (fma : Bool) (t y0 dy k0 k1 : K) :
    hermite fma t y0 dy k0 k1 =
      y0 + t * (k0 + t * ((3 * dy - 2 * k0 - k1) + t * (k0 + k1 - 2 * dy))) := by
  unfold hermite
  cases fma <;>
    simp only [exact_add, exact_sub, exact_mul, exact_neg, exact_mulAdd,
      Bool.false_eq_true, if_true, if_false] <;> ring

theorem centeredDiff_exact (fma : Bool) (y0 y1 y2 h01 h12 : K) :
    centeredDiff fma y0 y1 y2 h01 h12 =
      h01 / (h01 + h12) * ((y2 - y1) / h12) + h12 / (h12 + h01) * ((y1 - y0) / h01) := by
  unfold centeredDiff
  cases fma <;> simp

theorem naturalK1_exact (fma : Bool) (two dy k0 : K) :
    naturalK1 fma two dy k0 = two * dy - k0 := by
  unfold naturalK1
  cases fma <;> simp; ring

theorem linExtrap_exact (fma : Bool) (y1 k1 t : K) :
    linExtrap fma y1 k1 t = y1 + k1 * (t - 1) := by
  unfold linExtrap
  cases fma <;> simp; ring

theorem cubicInnerRegular_fma (f1 f2 : Bool) (v : Fin 4 → K) (t : K) (sat : Saturation)
    (lin : Bool) : cubicInnerRegular f1 f2 v t sat lin = cubicInnerRegular false false v t sat lin := by
  unfold cubicInnerRegular
  cases sat <;> simp only [hermite_exact, naturalK1_exact, linExtrap_exact]

theorem cubicInnerRectilinear_fma (f1 f2 f3 : Bool) (v g : Fin 4 → K) (x : K) (sat : Saturation)
    (lin : Bool) : cubicInnerRectilinear f1 f2 f3 v g x sat lin =
      cubicInnerRectilinear false false false v g x sat lin := by
  unfold cubicInnerRectilinear
  cases sat <;> simp only [hermite_exact, naturalK1_exact, linExtrap_exact, centeredDiff_exact]

theorem linRegAxis_fma (fma : Bool) (dim : Nat) (start step x : K) :
    linRegAxis fma dim start step x = linRegAxis false dim start step x := by
  unfold linRegAxis
  cases rawCell start step x with
  | none => rfl
  | some z => cases fma <;> simp [add_comm]

theorem linRule_fma (fma : Bool) (grid : List K) (x : K) (f : Nat → K) :
    linRule fma grid x f = linRule false grid x f := by
  unfold linRule; rw [lerp_exact, lerp_exact]

theorem cubRegRule_fma (f1 f2 lin : Bool) (a : Nat × Saturation × K) (f : Nat → K) :
    cubRegRule f1 f2 lin a f = cubRegRule false false lin a f := by
  unfold cubRegRule; rw [cubicInnerRegular_fma]

theorem cubRectRule_fma (f1 f2 f3 lin : Bool) (grid : List K) (x : K) (f : Nat → K) :
    cubRectRule f1 f2 f3 lin grid x f = cubRectRule false false false lin grid x f := by
  unfold cubRectRule; rw [cubicInnerRectilinear_fma]

end

end Interpn
