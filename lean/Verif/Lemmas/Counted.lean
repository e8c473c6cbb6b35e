import Verif.Spec.Counted
import Verif.Lemmas.Search
import Verif.Lemmas.Basic
import Mathlib.Algebra.BigOperators.Intervals
import Mathlib.Algebra.Order.BigOperators.Group.Finset
import Mathlib.Algebra.BigOperators.Pi
import Mathlib.Tactic.Ring
import Mathlib.Data.Nat.Factorization.Basic

/-! Rules for counts of operations (C115). -/

set_option autoImplicit false

namespace Interpn
open Finset

namespace Counted
variable {α β σ : Type}

/-! ### Dropping the counts -/

theorem outcome_bind (x : Counted α) (f : α → Counted β) :
    (x >>= f).1 = (x.1 >>= fun a => (f a).1) := by
  show (bind x f).1 = Res.bind x.1 _
  unfold bind Res.bind
  cases x.1 <;> rfl

theorem outcome_pure (a : α) : (pure a : Counted α).1 = .ok a := rfl

theorem outcome_free (r : Res α) : (free r).1 = r := rfl

theorem outcome_lift (r : Res α) : (MonadLift.monadLift r : Counted α).1 = r := rfl

theorem outcome_liftM (r : Res α) : (liftM r : Counted α).1 = r := rfl

theorem outcome_err (m : String) : (err m : Counted α).1 = .err m := rfl

theorem outcome_tick (o : Op) : (tick o).1 = .ok () := rfl

theorem outcome_ite {c : Prop} [Decidable c] (x y : Counted α) :
    (if c then x else y).1 = if c then x.1 else y.1 := by split <;> rfl

theorem outcome_forRange (n : Nat) (init : σ) (body : Nat → σ → Counted σ) :
    (forRange n init body).1 = Interpn.forRange n init fun i s => (body i s).1 := by
  induction n with
  | zero => rfl
  | succ n ih =>
    unfold forRange Interpn.forRange
    rw [outcome_bind, ih]
    cases Interpn.forRange n init fun i s => (body i s).1 with
    | ok a => exact outcome_bind _ _
    | err e => rfl
    | panic => rfl

theorem outcome_indexArr {T : Type} {n : Nat} (loc dimprod : Fin n → Nat) (data : List T) :
    (indexArr loc dimprod data).1 = Interpn.indexArr loc dimprod data := by
  unfold indexArr Interpn.indexArr
  simp only [outcome_bind, outcome_liftM, outcome_forRange, outcome_tick, Res.ok_bind]

theorem outcome_indexArrFixedDims {T : Type} {n : Nat} (loc dimprod : Fin n → Nat)
    (data : List T) :
    (indexArrFixedDims loc dimprod data).1 = Interpn.indexArrFixedDims loc dimprod data := by
  unfold indexArrFixedDims Interpn.indexArrFixedDims
  simp only [outcome_bind, outcome_liftM, outcome_forRange, outcome_tick, Res.ok_bind]

theorem outcome_partitionPoint {T : Type} (s : List T) (pred : T → Bool) :
    (partitionPoint s pred).1 = .ok (Interpn.partitionPoint s pred) := rfl

theorem outcome_batchLoop {T : Type} (point : Nat → Counted T) (k i : Nat) (out : List T) :
    (batchLoop point k i out).1 = Interpn.batchLoop (fun i => (point i).1) k i out := by
  induction k generalizing i out with
  | zero => rfl
  | succ k ih =>
    unfold batchLoop Interpn.batchLoop
    have e : (do tick .pass; point i : Counted T).1 = (point i).1 := outcome_bind _ _
    simp only [e]
    cases (point i).1 with
    | ok v =>
      simp only
      split
      · exact ih _ _
      · rfl
    | err m => rfl
    | panic => rfl

/-! ### Counts -/

/-- `x` is charged `c`: exactly that if it succeeds, at most that otherwise. -/
def Costs (x : Counted α) (c : Op → Nat) : Prop :=
  (∀ o, x.2 o ≤ c o) ∧ ∀ a, x.1 = .ok a → ∀ o, x.2 o = c o

theorem Costs.of_eq {x : Counted α} {c c' : Op → Nat} (h : Costs x c) (e : c = c') : Costs x c' :=
  e ▸ h

theorem costs_free (r : Res α) : Costs (free r) 0 := ⟨fun _ => le_rfl, fun _ _ _ => rfl⟩

theorem costs_pure (a : α) : Costs (pure a) 0 := costs_free _

theorem costs_lift (r : Res α) : Costs (MonadLift.monadLift r : Counted α) 0 := costs_free r

theorem costs_err (m : String) : Costs (err m : Counted α) 0 := costs_free _

/-- A failure may be given any budget. -/
theorem costs_err' (m : String) (c : Op → Nat) : Costs (err m : Counted α) c :=
  ⟨fun _ => Nat.zero_le _, fun _ h => by cases h⟩

theorem Costs.bind {x : Counted α} {f : α → Counted β} {c c' : Op → Nat} (h : Costs x c)
    (h' : ∀ a, x.1 = .ok a → Costs (f a) c') : Costs (x >>= f) (c + c') := by
  have e : (x >>= f) = Counted.bind x f := rfl
  rw [e]
  unfold Costs Counted.bind
  cases hx : x.1 with
  | ok a =>
    refine ⟨fun o => ?_, fun b hb o => ?_⟩
    · exact Nat.add_le_add (h.1 o) ((h' a hx).1 o)
    · exact congrArg₂ (· + ·) (h.2 a hx o) ((h' a hx).2 b hb o)
  | err m =>
    exact ⟨fun o => (h.1 o).trans (Nat.le_add_right _ _), fun b hb => by cases hb⟩
  | panic =>
    exact ⟨fun o => (h.1 o).trans (Nat.le_add_right _ _), fun b hb => by cases hb⟩

/-- Sequencing after something without charge. -/
theorem Costs.bind0 {x : Counted α} {f : α → Counted β} {c : Op → Nat} (h : Costs x 0)
    (h' : ∀ a, x.1 = .ok a → Costs (f a) c) : Costs (x >>= f) c := by
  have := h.bind h'
  rwa [zero_add] at this

/-- Something without charge comes last. -/
theorem Costs.then0 {x : Counted α} {f : α → Counted β} {c : Op → Nat} (h : Costs x c)
    (h' : ∀ a, x.1 = .ok a → Costs (f a) 0) : Costs (x >>= f) c := by
  have := h.bind h'
  rwa [add_zero] at this

/-- The charge for one operation. -/
def one (o : Op) : Op → Nat := fun o' => if o' = o then 1 else 0

theorem costs_tick (o : Op) : Costs (tick o) (one o) := ⟨fun _ => le_rfl, fun _ _ _ => rfl⟩

theorem costs_forRange {n : Nat} {init : σ} {body : Nat → σ → Counted σ} {c : Nat → Op → Nat}
    (h : ∀ i, i < n → ∀ s, Costs (body i s) (c i)) :
    Costs (forRange n init body) (∑ i ∈ range n, (one .pass + c i)) := by
  induction n with
  | zero => exact costs_free _
  | succ n ih =>
    rw [sum_range_succ]
    unfold forRange
    exact (ih fun i hi => h i (by omega)).bind fun s _ =>
      (costs_tick .pass).bind fun _ _ => h n (by omega) s

theorem one_pass : one .pass = charge 1 0 0 0 := by funext o; cases o <;> rfl
theorem one_read : one .read = charge 0 1 0 0 := by funext o; cases o <;> rfl
theorem one_kernel : one .kernel = charge 0 0 1 0 := by funext o; cases o <;> rfl

theorem charge_add (a b c d a' b' c' d' : Nat) :
    charge a b c d + charge a' b' c' d' = charge (a + a') (b + b') (c + c') (d + d') := by
  funext o; cases o <;> rfl

theorem charge_zero : charge 0 0 0 0 = 0 := by funext o; cases o <;> rfl

theorem charge_sum {ι : Type} (s : Finset ι) (a b c d : ι → Nat) :
    ∑ i ∈ s, charge (a i) (b i) (c i) (d i) =
      charge (∑ i ∈ s, a i) (∑ i ∈ s, b i) (∑ i ∈ s, c i) (∑ i ∈ s, d i) := by
  funext o; rw [Finset.sum_apply]; cases o <;> rfl

theorem costs_loop {n : Nat} {init : σ} {body : Nat → σ → Counted σ} {a b c d : Nat → Nat}
    (h : ∀ i, i < n → ∀ s, Costs (body i s) (charge (a i) (b i) (c i) (d i))) :
    Costs (forRange n init body) (charge (n + ∑ i ∈ range n, a i) (∑ i ∈ range n, b i)
      (∑ i ∈ range n, c i) (∑ i ∈ range n, d i)) := by
  refine (costs_forRange h).of_eq ?_
  rw [Finset.sum_add_distrib, charge_sum, one_pass, charge_sum, charge_add]
  simp

/-- A loop whose body is charged nothing. -/
theorem costs_loop0 {n : Nat} {init : σ} {body : Nat → σ → Counted σ}
    (h : ∀ i, i < n → ∀ s, Costs (body i s) 0) :
    Costs (forRange n init body) (charge n 0 0 0) := by
  refine (costs_loop (a := fun _ => 0) (b := fun _ => 0) (c := fun _ => 0) (d := fun _ => 0)
    fun i hi s => ?_).of_eq ?_
  · rw [charge_zero]; exact h i hi s
  · simp

theorem costs_indexArr {T : Type} {n : Nat} (loc dimprod : Fin n → Nat) (data : List T) :
    Costs (indexArr loc dimprod data) (charge n 1 0 0) := by
  unfold indexArr
  refine ((costs_loop0 fun i _ s => ?_).bind fun i _ =>
    ((costs_tick .read).then0 fun _ _ => costs_lift _)).of_eq ?_
  · exact (costs_lift _).bind0 fun _ _ => (costs_lift _).bind0 fun _ _ =>
      (costs_lift _).bind0 fun _ _ => costs_lift _
  · rw [one_read, charge_add]; rfl

theorem costs_indexArrFixedDims {T : Type} {n : Nat} (loc dimprod : Fin n → Nat)
    (data : List T) : Costs (indexArrFixedDims loc dimprod data) (charge n 1 0 0) :=
  costs_indexArr loc dimprod data

theorem costs_partitionPoint {T : Type} {s : List T} (hs : 0 < s.length) (pred : T → Bool) :
    Costs (partitionPoint s pred) (charge 0 0 0 (Nat.clog 2 s.length + 1)) := by
  have h : (partitionPoint s pred).2 = charge 0 0 0 (Nat.clog 2 s.length + 1) := by
    funext o
    cases o
    · rfl
    · rfl
    · rfl
    · show (partitionPointCounted s pred).2 = Nat.clog 2 s.length + 1
      exact partitionPoint_calls s pred (List.length_pos_iff.1 hs)
  exact ⟨fun o => (congrFun h o).le, fun _ _ o => congrFun h o⟩

theorem costs_batchLoop {T : Type} {point : Nat → Counted T} {c : Op → Nat}
    (h : ∀ i, Costs (point i) c) (k i : Nat) (out : List T) :
    ChargedBatch (batchLoop point k i out) k (one .pass + c) := by
  induction k generalizing i out with
  | zero => exact ⟨fun o => by simp [batchLoop], fun _ o => by simp [batchLoop]⟩
  | succ k ih =>
    have hp : Costs (do tick .pass; point i : Counted T) (one .pass + c) :=
      (costs_tick .pass).bind fun _ _ => h i
    unfold batchLoop ChargedBatch
    simp only
    generalize (do tick .pass; point i : Counted T) = p at hp
    have hle : ∀ o, p.2 o ≤ (k + 1) * (one .pass + c) o := fun o =>
      (hp.1 o).trans (Nat.le_mul_of_pos_left _ (Nat.succ_pos k))
    cases hx : p.1 with
    | ok v =>
      simp only
      split
      · refine ⟨fun o => ?_, fun ho o => ?_⟩
        · rw [Nat.succ_mul, Nat.add_comm (k * _)]
          exact Nat.add_le_add (hp.1 o) ((ih (i + 1) (out.set i v)).1 o)
        · rw [Nat.succ_mul, Nat.add_comm (k * _)]
          exact congrArg₂ (· + ·) (hp.2 v hx o) ((ih (i + 1) (out.set i v)).2 ho o)
      · exact ⟨hle, fun ho => by cases ho⟩
    | err m => exact ⟨hle, fun ho => by cases ho⟩
    | panic => exact ⟨hle, fun ho => by cases ho⟩

end Counted

end Interpn
