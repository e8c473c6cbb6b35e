import Verif.Model.Core

/-! Specification of batch evaluation. -/

set_option autoImplicit false

namespace Interpn

variable {T : Type} {N : Nat}

/-- "Construct the interpolator, then evaluate the batch": a failing construction is passed on
and leaves the buffer alone. -/
def constructThen {α : Type} (new : Res α) (out : List T) (interp : α → Res Unit × List T) :
    Res Unit × List T :=
  match new with
  | .ok s => interp s
  | .err e => (.err e, out)
  | .panic => (.panic, out)

/-- `pt` is observation number `i` of a batch given as one coordinate list per axis. -/
def PointAt (x : Fin N → List T) (i : Nat) (pt : Fin N → T) : Prop :=
  ∀ k, (x k)[i]? = some (pt k)

/-- Same, for a number of axes known only at run time. -/
def PointAtL (x : List (List T)) (i : Nat) (pt : List T) : Prop :=
  x.map (fun xx => xx[i]?) = pt.map some

/-- `vs` are the results of evaluating the first observations of the batch, in order. -/
def ResultsOf (one : (Fin N → T) → Res T) (x : Fin N → List T) (vs : List T) : Prop :=
  ∀ i v, vs[i]? = some v → ∃ pt, PointAt x i pt ∧ one pt = .ok v

/-- Same, for a number of axes known only at run time. -/
def ResultsOfL (one : List T → Res T) (x : List (List T)) (vs : List T) : Prop :=
  ∀ i v, vs[i]? = some v → ∃ pt, PointAtL x i pt ∧ one pt = .ok v

/-- What `interp` of an `N`-dimensional interpolator does with a batch `x` and a buffer `out`,
in terms of `interp_one`. -/
structure BatchSpec (one : (Fin N → T) → Res T)
    (interp : (Fin N → List T) → List T → Res Unit × List T) : Prop where
  /-- wrong lengths: an error, buffer untouched -/
  mismatch : ∀ x out, (∃ k, (x k).length ≠ out.length) →
    interp x out = (.err "Dimension mismatch", out)
  /-- success exactly when the new buffer has the old length and lists the results -/
  ok_iff : ∀ x out out', interp x out = (.ok (), out') ↔
    (∀ k, (x k).length = out.length) ∧ out'.length = out.length ∧ ResultsOf one x out'
  /-- first failing observation: earlier results are written, the rest is untouched -/
  first_err : ∀ x out vs pt e, (∀ k, (x k).length = out.length) → vs.length < out.length →
    ResultsOf one x vs → PointAt x vs.length pt → one pt = .err e →
    interp x out = (.err e, vs ++ out.drop vs.length)
  first_panic : ∀ x out vs pt, (∀ k, (x k).length = out.length) → vs.length < out.length →
    ResultsOf one x vs → PointAt x vs.length pt → one pt = .panic →
    interp x out = (.panic, vs ++ out.drop vs.length)
  /-- one of the above always applies -/
  total : ∀ x (out : List T), (∀ k, (x k).length = out.length) →
    (∃ out', out'.length = out.length ∧ ResultsOf one x out') ∨
    (∃ vs pt, vs.length < out.length ∧ ResultsOf one x vs ∧ PointAt x vs.length pt ∧
      ((∃ e, one pt = .err e) ∨ one pt = .panic))

/-- Same for the recursive evaluators, where the number `n` of axes is a run-time value. -/
structure BatchSpecL (n : Nat) (one : List T → Res T)
    (interp : List (List T) → List T → Res Unit × List T) : Prop where
  mismatch : ∀ x out, (x.length ≠ n ∨ ∃ xx ∈ x, xx.length ≠ out.length) →
    interp x out = (.err "Dimension mismatch", out)
  ok_iff : ∀ x out out', interp x out = (.ok (), out') ↔
    x.length = n ∧ (∀ xx ∈ x, xx.length = out.length) ∧ out'.length = out.length ∧
      ResultsOfL one x out'
  first_err : ∀ x out vs pt e, x.length = n → (∀ xx ∈ x, xx.length = out.length) →
    vs.length < out.length → ResultsOfL one x vs → PointAtL x vs.length pt → one pt = .err e →
    interp x out = (.err e, vs ++ out.drop vs.length)
  first_panic : ∀ x out vs pt, x.length = n → (∀ xx ∈ x, xx.length = out.length) →
    vs.length < out.length → ResultsOfL one x vs → PointAtL x vs.length pt → one pt = .panic →
    interp x out = (.panic, vs ++ out.drop vs.length)
  total : ∀ x (out : List T), x.length = n → (∀ xx ∈ x, xx.length = out.length) →
    (∃ out', out'.length = out.length ∧ ResultsOfL one x out') ∨
    (∃ vs pt, vs.length < out.length ∧ ResultsOfL one x vs ∧ PointAtL x vs.length pt ∧
      ((∃ e, one pt = .err e) ∨ one pt = .panic))

end Interpn
