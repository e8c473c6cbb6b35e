import Verif.Spec.Batch

/-! Batches given to the `interpn` entry points as lists of coordinate arrays (C114). -/

set_option autoImplicit false

namespace Interpn

variable {T : Type}

/-- For each number `n` of observation arrays, `run` either fails in one and the same way whatever
the batch, leaving the buffer alone, or evaluates observation by observation. -/
def Pointwise (run : List (List T) → List T → Res Unit × List T) : Prop :=
  ∀ n : Nat,
    (∃ s : Res Unit, s ≠ .ok () ∧ ∀ obs out, obs.length = n → run obs out = (s, out)) ∨
    ∃ one : (Fin n → T) → Res T,
      BatchSpec one fun (x : Fin n → List T) out => run (List.ofFn x) out

/-- A batch in two parts: coordinate arrays concatenated axis by axis. -/
def joinBatch (obs₁ obs₂ : List (List T)) : List (List T) := List.zipWith (· ++ ·) obs₁ obs₂

/-- Evaluating two batches one after the other, stopping at the first failure: the outcome, and the
two buffers one behind the other. -/
def runBoth (run : List (List T) → List T → Res Unit × List T) (obs₁ obs₂ : List (List T))
    (out₁ out₂ : List T) : Res Unit × List T :=
  match run obs₁ out₁ with
  | (.ok _, r₁) => ((run obs₂ out₂).1, r₁ ++ (run obs₂ out₂).2)
  | (s, r₁) => (s, r₁ ++ out₂)

/-- `a[ix]` in numpy for a list of indices in range: entry `j` of the result is entry `ix[j]` of
`a`. -/
def pick (ix : List Nat) (a : List T) : List T := ix.filterMap fun i => a[i]?

end Interpn
