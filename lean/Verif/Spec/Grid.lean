import Verif.Spec.Api
import Verif.Spec.Slices
import Verif.Spec.Layout
import Verif.Model.Exact

/-! Vocabulary for the exact-arithmetic properties: grids of either kind described by their node
coordinates, the observations that can be evaluated, and evaluation through the public interface. -/

set_option autoImplicit false

namespace Interpn

/-- The axes of an `N`-dimensional grid, as given to the two kinds of constructors. -/
inductive Axes (K : Type) (N : Nat) where
  | regular (dims : Fin N → Nat) (starts steps : Fin N → K)
  | rectilinear (grids : Fin N → List K)

section
variable {K : Type} [Field K] [LinearOrder K] [FloorRing K] {N : Nat}

/-- Number of nodes of each axis. -/
def Axes.size : Axes K N → Fin N → Nat
  | .regular dims _ _, k => dims k
  | .rectilinear grids, k => (grids k).length

/-- Coordinate of node `i` of axis `k`. -/
def Axes.node : Axes K N → Fin N → Nat → K
  | .regular _ starts steps, k, i => starts k + steps k * i
  | .rectilinear grids, k, i => (grids k).getD i 0

/-- The inputs the constructors document as valid: one value per node, at least `m` nodes per
axis, strictly increasing nodes. -/
structure Axes.Valid (G : Axes K N) (m : Nat) (vals : List K) : Prop where
  slice : IsSlice vals
  len : vals.length = ∏ k, G.size k
  big : ∀ k, m ≤ G.size k
  increasing : ∀ k i, i + 1 < G.size k → G.node k i < G.node k (i + 1)

/-- On a regular grid the number of whole steps from the first node to the observation must be
an integer from `lo` to `isize::MAX` on every axis. Rectilinear grids have no such limit. -/
def Axes.StepsFit (lo : Int) : Axes K N → (Fin N → K) → Prop
  | .regular _ starts steps, x =>
    ∀ k, lo ≤ ⌊(x k - starts k) / steps k⌋ ∧ ⌊(x k - starts k) / steps k⌋ ≤ 2 ^ 63 - 1
  | .rectilinear _, _ => True

/-- Observations that linear and nearest interpolation can evaluate (C17). -/
def Axes.Representable (G : Axes K N) (x : Fin N → K) : Prop := G.StepsFit (-(2 ^ 63)) x

/-- Observations that cubic interpolation can evaluate (C07, C17): `isize::MIN` is excluded. -/
def Axes.RepresentableCubic (G : Axes K N) (x : Fin N → K) : Prop := G.StepsFit (-(2 ^ 63) + 1) x

attribute [local instance] exactOps

/-- Multilinear interpolation at the point `x` in exact arithmetic: construct, then evaluate. -/
def multilinearAt (e : Evaluator) (fma : Bool) (G : Axes K N) (vals : List K) (x : Fin N → K) :
    Res K :=
  match G with
  | .regular dims starts steps => multilinearRegularAt e fma dims starts steps vals x
  | .rectilinear grids => multilinearRectilinearAt e fma grids vals x

/-- Multicubic interpolation at the point `x` in exact arithmetic. -/
def multicubicAt (e : Evaluator) (fma : Bool) (G : Axes K N) (vals : List K) (lin : Bool)
    (x : Fin N → K) : Res K :=
  match G with
  | .regular dims starts steps => multicubicRegularAt e fma dims starts steps vals lin x
  | .rectilinear grids => multicubicRectilinearAt e fma grids vals lin x

/-- Nearest-neighbor interpolation at the point `x` in exact arithmetic. -/
def nearestAt (fma : Bool) (G : Axes K N) (vals : List K) (x : Fin N → K) : Res K :=
  match G with
  | .regular dims starts steps => nearestRegularAt fma dims starts steps vals x
  | .rectilinear grids => nearestRectilinearAt grids vals x

end

section
variable {K : Type} [Field K] [LinearOrder K]

/-- `x` belongs to cell `i` of an axis with `n` nodes `p`: between nodes `i` and `i + 1`, where
the first cell extends to -∞ and the last one to +∞. A node belongs to both adjacent cells. -/
def InCell (n : Nat) (p : Nat → K) (x : K) (i : Nat) : Prop :=
  i + 1 < n ∧ (i = 0 ∨ p i ≤ x) ∧ (i + 2 = n ∨ x ≤ p (i + 1))

/-- Inside the grid range of an axis. -/
def InRange (n : Nat) (p : Nat → K) (x : K) : Prop := p 0 ≤ x ∧ x ≤ p (n - 1)

/-- The affine function through nodes `i` and `i + 1`, at `x`. -/
def linPiece (p f : Nat → K) (i : Nat) (x : K) : K :=
  f i + (x - p i) / (p (i + 1) - p i) * (f (i + 1) - f i)

/-- Node `i` is the closest to `x` among the `n` nodes `p`, the lowest such index on ties. -/
def IsNearest (n : Nat) (p : Nat → K) (x : K) (i : Nat) : Prop :=
  i < n ∧ (∀ j < n, |x - p i| ≤ |x - p j|) ∧ ∀ j < i, |x - p i| < |x - p j|

/-- Slope assigned to node `i`: at interior nodes the mean of the two one-sided slopes, each
weighted by the width of the opposite interval (the centered difference on uniform spacing); at
the end nodes the slope that makes the end cell a quadratic, `2 s - m` where `s` is the slope of
the chord and `m` the slope at the other node of the cell. -/
def nodeSlope (n : Nat) (p f : Nat → K) (i : Nat) : K :=
  let chord := fun j => (f (j + 1) - f j) / (p (j + 1) - p j)
  let inner := fun j => ((p j - p (j - 1)) * chord j + (p (j + 1) - p j) * chord (j - 1)) /
    (p (j + 1) - p (j - 1))
  if i = 0 then 2 * chord 0 - inner 1
  else if i + 1 = n then 2 * chord (i - 1) - inner (i - 1)
  else inner i

/-- The cubic with values `y0`, `y1` and slopes `m0`, `m1` at `a` and `b`, at `x` (Hermite form). -/
def hermiteCubic (a b y0 y1 m0 m1 x : K) : K :=
  let t := (x - a) / (b - a)
  (1 + 2 * t) * (1 - t) ^ 2 * y0 + t * (1 - t) ^ 2 * (b - a) * m0 +
    t ^ 2 * (3 - 2 * t) * y1 + t ^ 2 * (t - 1) * (b - a) * m1

/-- The cubic interpolant of the data `(p i, f i)` at a point `x` of cell `i`: the Hermite cubic
of the cell, except that outside the grid it is the tangent line at the end node if `lin`. -/
def cubicPiece (n : Nat) (p f : Nat → K) (lin : Bool) (i : Nat) (x : K) : K :=
  if lin ∧ x < p 0 then f 0 + nodeSlope n p f 0 * (x - p 0)
  else if lin ∧ p (n - 1) < x then f (n - 1) + nodeSlope n p f (n - 1) * (x - p (n - 1))
  else hermiteCubic (p i) (p (i + 1)) (f i) (f (i + 1)) (nodeSlope n p f i)
    (nodeSlope n p f (i + 1)) x

end

end Interpn
