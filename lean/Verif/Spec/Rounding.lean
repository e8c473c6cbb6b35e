import Verif.Model.Core
import Verif.Spec.Tensor
import Mathlib.Algebra.Order.Field.Basic
import Mathlib.Algebra.Order.AbsoluteValue.Basic
import Mathlib.Algebra.Order.Floor.Defs

/-! The standard model of rounding, for the accuracy properties C53, C57 and C66. -/

set_option autoImplicit false

namespace Interpn
open FloatOps

/-- Rounded arithmetic. `val` is the number a float stands for, `fin` says that a float is finite,
`u` is the unit roundoff, `η` the largest error due to underflow and `Ω` the largest finite number.
As long as the exact result of an operation does not exceed `Ω`, the computed result is finite and
its error is at most `u` times the exact result, plus `η` for multiplications and divisions.

IEEE `f64` satisfies this with `u = 2^-53`, `η = 2^-1075` and `Ω` the largest finite `f64` (sums and
differences have no underflow error), `f32` with `u = 2^-24`, `η = 2^-150`. -/
structure Rounds {T K : Type} [FloatOps T] [Field K] [LinearOrder K] (val : T → K)
    (fin : T → Prop) (u η Ω : K) : Prop where
  u_nonneg : 0 ≤ u
  η_nonneg : 0 ≤ η
  add : ∀ a b, fin a → fin b → |val a + val b| ≤ Ω →
    fin (a +. b) ∧ |val (a +. b) - (val a + val b)| ≤ u * |val a + val b|
  sub : ∀ a b, fin a → fin b → |val a - val b| ≤ Ω →
    fin (a -. b) ∧ |val (a -. b) - (val a - val b)| ≤ u * |val a - val b|
  mul : ∀ a b, fin a → fin b → |val a * val b| ≤ Ω →
    fin (a *. b) ∧ |val (a *. b) - val a * val b| ≤ u * |val a * val b| + η
  div : ∀ a b, fin a → fin b → val b ≠ 0 → |val a / val b| ≤ Ω →
    fin (a /. b) ∧ |val (a /. b) - val a / val b| ≤ u * |val a / val b| + η
  mulAdd : ∀ a b c, fin a → fin b → fin c → |val a * val b + val c| ≤ Ω →
    fin (mulAdd a b c) ∧
      |val (mulAdd a b c) - (val a * val b + val c)| ≤ u * |val a * val b + val c| + η

/-- Comparisons of finite floats are exact. -/
def ExactCompare {T K : Type} [FloatOps T] [LinearOrder K] (val : T → K) (fin : T → Prop) : Prop :=
  ∀ a b, fin a → fin b → ((a <. b) = true ↔ val a < val b)

/-- The same for `≤`. (C77) -/
def ExactCompareLe {T K : Type} [FloatOps T] [LinearOrder K] (val : T → K) (fin : T → Prop) : Prop :=
  ∀ a b, fin a → fin b → ((a <=. b) = true ↔ val a ≤ val b)

/-- Whole numbers are handled exactly: zero, `floor` followed by the cast to `isize`, and the cast
of the indices below `n`. True of `f64` for `n ≤ 2^53 + 1`, of `f32` for `n ≤ 2^24 + 1`. -/
structure ExactWhole {T K : Type} [FloatOps T] [Field K] [LinearOrder K] [FloorRing K]
    (val : T → K) (fin : T → Prop) (n : Nat) : Prop where
  zero : fin zero ∧ val zero = 0
  toIsize : ∀ a, fin a → isizeMin ≤ ⌊val a⌋ → ⌊val a⌋ ≤ isizeMax →
    toIsize (floor a) = some ⌊val a⌋
  ofUsize : ∀ i < n, ∃ f, ofUsize i = some f ∧ fin f ∧ val f = (i : K)

/-- Operations on finite floats are exact whenever the exact result is a finite float. Every
correctly rounded arithmetic satisfies this, for every rounding mode. (C67, C68) -/
structure ExactIfFloat {T K : Type} [FloatOps T] [Field K] (val : T → K) (fin : T → Prop) :
    Prop where
  zero : fin zero ∧ val zero = 0
  one : fin one ∧ val one = 1
  neg : ∀ a, fin a → fin (-. a) ∧ val (-. a) = -val a
  add : ∀ a b c, fin a → fin b → fin c → val a + val b = val c →
    fin (a +. b) ∧ val (a +. b) = val c
  sub : ∀ a b c, fin a → fin b → fin c → val a - val b = val c →
    fin (a -. b) ∧ val (a -. b) = val c
  mul : ∀ a b c, fin a → fin b → fin c → val a * val b = val c →
    fin (a *. b) ∧ val (a *. b) = val c
  div : ∀ a b c, fin a → fin b → fin c → val b ≠ 0 → val a / val b = val c →
    fin (a /. b) ∧ val (a /. b) = val c
  mulAdd : ∀ a b c d, fin a → fin b → fin c → fin d → val a * val b + val c = val d →
    fin (mulAdd a b c) ∧ val (mulAdd a b c) = val d

/-- Rounding does not cross floats: an exact result between two finite floats is rounded to a finite
float between them. Every correctly rounded arithmetic satisfies this, for every rounding mode.
(C84) -/
structure StaysBetween {T K : Type} [FloatOps T] [Field K] [LinearOrder K] (val : T → K)
    (fin : T → Prop) : Prop where
  add : ∀ a b c d, fin a → fin b → fin c → fin d → val c ≤ val a + val b → val a + val b ≤ val d →
    fin (a +. b) ∧ val c ≤ val (a +. b) ∧ val (a +. b) ≤ val d
  sub : ∀ a b c d, fin a → fin b → fin c → fin d → val c ≤ val a - val b → val a - val b ≤ val d →
    fin (a -. b) ∧ val c ≤ val (a -. b) ∧ val (a -. b) ≤ val d
  mul : ∀ a b c d, fin a → fin b → fin c → fin d → val c ≤ val a * val b → val a * val b ≤ val d →
    fin (a *. b) ∧ val c ≤ val (a *. b) ∧ val (a *. b) ≤ val d
  div : ∀ a b c d, fin a → fin b → fin c → fin d → val b ≠ 0 → val c ≤ val a / val b →
    val a / val b ≤ val d → fin (a /. b) ∧ val c ≤ val (a /. b) ∧ val (a /. b) ≤ val d
  mulAdd : ∀ a b e c d, fin a → fin b → fin e → fin c → fin d → val c ≤ val a * val b + val e →
    val a * val b + val e ≤ val d →
    fin (mulAdd a b e) ∧ val c ≤ val (mulAdd a b e) ∧ val (mulAdd a b e) ≤ val d

/-- The constant one and negation are exact. (C69) -/
structure ExactSign {T K : Type} [FloatOps T] [Field K] (val : T → K) (fin : T → Prop) : Prop where
  one : fin one ∧ val one = 1
  neg : ∀ a, fin a → fin (-. a) ∧ val (-. a) = -val a

section
variable {K : Type} [Field K]

/-- The exact blend of the `2^N` corners of cell `c` of the data `g` with weights `w`. -/
def blend {N : Nat} (w : Fin N → K) (c : Fin N → Nat) (g : (Fin N → Nat) → K) : K :=
  axisByAxis (fun k f => (1 - w k) * f (c k) + w k * f (c k + 1)) g

/-- Relative error of one rounded linear blend, about `5 u`. -/
def blendCost (u : K) : K := u + 2 * u * (1 + u) * (2 + u)

/-- Bound on the numbers that occur when blending `2^N` numbers of size up to `M` with weights
`w` such that `|1 - w| + |w| ≤ L`. -/
def blendSize (u η L M : K) (N : Nat) : K :=
  (L * (1 + blendCost u)) ^ N * M + N * (L * (1 + blendCost u)) ^ N * ((1 + u) * η)

/-- Bound on the rounding error of the same blend: `L^N ((1 + c)^N - 1) M`, about `5 N u L^N M`, plus
the effect of underflow. -/
def blendError (u η L M : K) (N : Nat) : K :=
  ((L * (1 + blendCost u)) ^ N - L ^ N) * M + N * (L * (1 + blendCost u)) ^ N * ((1 + u) * η)

/-- Relative error of a weight `(x - a) / (b - a)` computed from floats, about `3 u`. -/
def weightCost (u : K) : K := (3 * u + u ^ 2) / (1 - u)

/-- `x` is in the range of the nodes `p 0 < … < p (n - 1)`, or outside by at most `lam` times the
width of the end cell. -/
def NearRange [LinearOrder K] (n : Nat) (p : Nat → K) (lam x : K) : Prop :=
  p 0 - lam * (p 1 - p 0) ≤ x ∧ x ≤ p (n - 1) + lam * (p (n - 1) - p (n - 2))

/-! Regular grids (C66): `A` bounds the coordinates of the nodes of an axis. -/

/-- Error of the position `(x - start) / step` computed from floats, if its size is at most `Q`. -/
def positionError (u η Q : K) : K := (2 * u + u ^ 2) * Q + η

/-- Error of a computed node coordinate `start + step * i`. -/
def nodeError (u η A : K) : K := (3 * u + 2 * u ^ 2) * A + (1 + u) * η

/-- Error of the weight `(x - node) / step` computed from floats, if its size is at most `R`. -/
def regularWeightError (u η A step R : K) : K :=
  (2 * u + u ^ 2) * R + (1 + u) ^ 2 * (nodeError u η A / step) + η

/-- How far the rounded treatment of a regular axis with `dim` nodes deviates from the exact one,
relative to the size of the data, at observations outside by at most `lam` steps: the effect of the
error of the weight, and of possibly having selected a neighbouring cell. -/
def axisDeviation (u η A lam step : K) (dim : Nat) : K :=
  2 * regularWeightError u η A step (1 + lam + positionError u η (((dim - 1 : Nat) : K) + lam)) +
    4 * positionError u η (((dim - 1 : Nat) : K) + lam)

/-- The same for cubic interpolation (C70): the errors of the cubic rule, the effect of the error of
the relative position (of size up to 3), and of possibly having selected a neighbouring cell. -/
def cubicAxisDeviation (u η A step : K) (dim : Nat) : K :=
  1650 * u + 59 * (regularWeightError u η A step 3 + 2 * positionError u η ((dim - 1 : Nat) : K))

/-- The same at observations outside the grid by at most `lam` steps (C93). -/
def cubicAxisDeviationOut (u η A lam step : K) (dim : Nat) : K :=
  1650 * (1 + lam) ^ 3 * u + 59 * (1 + lam) ^ 2 * (regularWeightError u η A step (3 + lam) +
    2 * positionError u η (((dim - 1 : Nat) : K) + lam))

/-- Nothing overflows when the observation `x` is located on a regular axis with `dim` nodes of size
up to `A`, and `dim` is far below `2^63`. -/
structure AxisInBounds [LinearOrder K] (u η Ω A lam step x : K) (dim : Nat) : Prop where
  node : 2 * (1 + u) * A + η ≤ Ω
  obs : |x| + A + nodeError u η A ≤ Ω
  position : (1 + u) * (((dim - 1 : Nat) : K) + lam) ≤ Ω
  weight : (1 + u) * (1 + lam + positionError u η (((dim - 1 : Nat) : K) + lam) +
    nodeError u η A / step) ≤ Ω
  index : ((dim - 1 : Nat) : K) + lam + positionError u η (((dim - 1 : Nat) : K) + lam) + 1 ≤ 2 ^ 63

/-- Node `i` is one of the `n` nodes `p` and no other is closer to `x` by more than `slack`. (C77) -/
def NearestWithin [LinearOrder K] (n : Nat) (p : Nat → K) (x slack : K) (i : Nat) : Prop :=
  i < n ∧ ∀ j < n, |x - p i| ≤ |x - p j| + slack

end

end Interpn
