import Verif.Model.Search

/-! Instrumentation: the evaluators with a count of what they do (C115). The files of this
directory repeat the evaluation functions of the model, line for line, in a monad that counts; the
first part of C115 says that dropping the counts gives back the model. -/

set_option autoImplicit false

namespace Interpn

/-- What is counted. -/
inductive Op where
  /-- a pass through the body of a loop -/
  | pass
  /-- a read of an entry of the value array -/
  | read
  /-- an interpolation along one axis -/
  | kernel
  /-- a comparison of the observation with a grid coordinate during a search -/
  | compare
  deriving DecidableEq

/-- An outcome with the number of operations of each sort that led to it. -/
def Counted (α : Type) : Type := Res α × (Op → Nat)

namespace Counted
variable {α β σ : Type}

/-- The outcome, without the count. -/
def outcome (x : Counted α) : Res α := x.1

/-- The count. -/
def count (x : Counted α) (o : Op) : Nat := x.2 o

/-- An outcome at no charge. -/
def free (r : Res α) : Counted α := (r, fun _ => 0)

/-- `Err(msg)` at no charge. -/
def err (msg : String) : Counted α := free (.err msg)

/-- Sequencing; counts add up, and an error or panic keeps what was counted before it. -/
def bind (x : Counted α) (f : α → Counted β) : Counted β :=
  match x.1 with
  | .ok a => ((f a).1, fun o => x.2 o + (f a).2 o)
  | .err e => (.err e, x.2)
  | .panic => (.panic, x.2)

instance : Monad Counted where
  pure a := free (.ok a)
  bind := bind

/-- Statements without a charge of their own: arithmetic, array accesses other than to the value
array. -/
instance : MonadLift Res Counted where
  monadLift := free

/-- Count one operation. -/
def tick (o : Op) : Counted Unit := (.ok (), fun o' => if o' = o then 1 else 0)

/-- `Interpn.forRange`, one pass counted per execution of the body. -/
def forRange (n : Nat) (init : σ) (body : Nat → σ → Counted σ) : Counted σ :=
  match n with
  | 0 => free (.ok init)
  | n + 1 => do
    let s ← forRange n init body
    tick .pass
    body n s

/-- `index_arr`, `/repo/src/lib.rs` 117-126. -/
def indexArr {T : Type} {n : Nat} (loc dimprod : Fin n → Nat) (data : List T) : Counted T := do
  let i ← forRange n 0 fun j i => do
    uadd i (← umul (← aget loc j) (← aget dimprod j))
  tick .read
  lget data i

/-- `index_arr_fixed_dims`, `/repo/src/lib.rs` 128-144. -/
def indexArrFixedDims {T : Type} {N : Nat} (loc dimprod : Fin N → Nat) (data : List T) :
    Counted T := do
  let i ← forRange N 0 fun j i => do
    uadd i (← umul (← aget loc j) (← aget dimprod j))
  tick .read
  lget data i

/-- `slice::partition_point`; the calls of `pred` are counted. -/
def partitionPoint {T : Type} (s : List T) (pred : T → Bool) : Counted Nat :=
  let r := partitionPointCounted s pred
  (.ok r.1, fun o => if o = .compare then r.2 else 0)

/-- The batch loop `for i in 0..n { out[i] = point(i)?; }` (`Interpn.batchLoop`), one pass counted
per observation. -/
def batchLoop {T : Type} (point : Nat → Counted T) :
    (k i : Nat) → List T → (Res Unit × List T) × (Op → Nat)
  | 0, _, out => ((.ok (), out), fun _ => 0)
  | k + 1, i, out =>
    let p := do tick .pass; point i
    match p.1 with
    | .ok v =>
      if i < out.length then
        let r := batchLoop point k (i + 1) (out.set i v)
        (r.1, fun o => p.2 o + r.2 o)
      else ((.panic, out), p.2)
    | .err e => ((.err e, out), p.2)
    | .panic => ((.panic, out), p.2)

end Counted

end Interpn
