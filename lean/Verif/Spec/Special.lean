import Verif.Spec.Slices
import Verif.Spec.Layout
import Verif.Spec.Constructors
import Mathlib.Algebra.BigOperators.Fin

/-! Vocabulary for C53 and C54: inputs accepted by the constructors for an arbitrary float type,
and the laws of IEEE special values. -/

set_option autoImplicit false

namespace Interpn
open FloatOps

/-- Data accepted by the regular-grid constructors (at least `m` nodes per axis): the right number
of values, and positive steps. -/
structure RegularAccepted {T : Type} [FloatOps T] {N : Nat} (m : Nat) (dims : Fin N → Nat)
    (steps : Fin N → T) (vals : List T) : Prop where
  slice : IsSlice vals
  len : vals.length = ∏ k, dims k
  big : ∀ k, m ≤ dims k
  pos : ∀ k, (zero <. steps k) = true

/-- Data accepted by the rectilinear-grid constructors: the right number of values, and the second
entry of every grid exceeds the first. -/
structure RectilinearAccepted {T : Type} [FloatOps T] {N : Nat} (m : Nat) (grids : Fin N → List T)
    (vals : List T) : Prop where
  slice : IsSlice vals
  len : vals.length = ∏ k, (grids k).length
  big : ∀ k, m ≤ (grids k).length
  order : ∀ k, SecondExceedsFirst (grids k)

/-- A property of floats (being NaN; being NaN or infinite) that no arithmetic operation can get
rid of, except division by such a number. -/
structure Absorbing {T : Type} [FloatOps T] (P : T → Prop) : Prop where
  add : ∀ a b, P a ∨ P b → P (a +. b)
  sub : ∀ a b, P a ∨ P b → P (a -. b)
  mul : ∀ a b, P a ∨ P b → P (a *. b)
  div : ∀ a b, P a → P (a /. b)
  neg : ∀ a, P a → P (-. a)
  abs : ∀ a, P a → P (FloatOps.abs a)
  floor : ∀ a, P a → P (FloatOps.floor a)
  mulAdd : ∀ a b c, P a ∨ P b ∨ P c → P (FloatOps.mulAdd a b c)

/-- The laws of special values used by C54; `nan` and `nonfinite` (NaN or infinite) are the
corresponding classes of floats. All of them are part of IEEE 754, except the last, which is the
documented behaviour of `NumCast`: a float that is not finite does not convert to an integer. -/
structure SpecialValues {T : Type} [FloatOps T] (nan nonfinite : T → Prop) : Prop where
  nan_absorbing : Absorbing nan
  nonfinite_absorbing : Absorbing nonfinite
  nonfinite_of_nan : ∀ a, nan a → nonfinite a
  /-- comparisons with NaN are false -/
  lt_nan : ∀ a b, nan a ∨ nan b → (a <. b) = false
  le_nan : ∀ a b, nan a ∨ nan b → (a <=. b) = false
  toIsize_nonfinite : ∀ a, nonfinite a → toIsize a = none

/-- What a special stored value does to an evaluation `eval` of grid data of shape `dims` (in
C order). There is a block of nodes (`m k` consecutive ones from `o k` on along axis `k`) such that
the data outside the block do not matter at all, and a value with property `P` at any node of the
block makes the result a `P` too. -/
structure ContaminationBlock {T : Type} {N : Nat} (P : T → Prop) (dims o m : Fin N → Nat)
    (eval : List T → Res T) : Prop where
  inside : ∀ k, o k + m k ≤ dims k
  ignored : ∀ vals vals' : List T, IsSlice vals → vals.length = vals'.length →
    (∀ loc : Fin N → Nat, (∀ k, o k ≤ loc k ∧ loc k < o k + m k) →
      vals[cIndex dims loc]? = vals'[cIndex dims loc]?) →
    eval vals = eval vals'
  poisoned : ∀ vals : List T, IsSlice vals → vals.length = ∏ k, dims k →
    (∃ (loc : Fin N → Nat) (v : T), (∀ k, o k ≤ loc k ∧ loc k < o k + m k) ∧
      vals[cIndex dims loc]? = some v ∧ P v) →
    ∃ r, eval vals = .ok r ∧ P r

end Interpn
