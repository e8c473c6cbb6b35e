import Verif.Lemmas.CountedErase
import Mathlib.Algebra.BigOperators.Fin
import Mathlib.Data.List.GetD
import Mathlib.Algebra.Order.Ring.GeomSum

/-! What the evaluators are charged (C115). -/

set_option autoImplicit false
set_option linter.unusedTactic false
set_option linter.unreachableTactic false
set_option linter.unusedSectionVars false

open Interpn.FloatOps Finset

namespace Interpn.Counted
variable {T σ : Type} {N M : Nat}

/-- Steps without charge. -/
macro "free_steps" : tactic => `(tactic| repeat' (first
  | exact costs_lift _
  | exact costs_pure _
  | exact costs_err _
  | refine Costs.bind0 (costs_lift _) fun _ _ => ?_
  | dsimp only
  | split))

/-- Steps without charge before one with a charge. -/
macro "lift_steps" : tactic => `(tactic| repeat' (first
  | refine Costs.bind0 (costs_lift _) fun _ _ => ?_
  | dsimp only))

theorem sum_multiples {FP : Nat} (hF : 0 < FP) (n : Nat) :
    ∑ i ∈ range (FP ^ (n + 1)), ∑ j ∈ range n, (if (i + 1) % FP ^ (j + 1) = 0 then 1 else 0) =
      ∑ j ∈ range n, FP ^ (j + 1) := by
  rw [Finset.sum_comm, ← Finset.sum_range_reflect (fun j => FP ^ (j + 1))]
  refine Finset.sum_congr rfl fun j hj => ?_
  rw [Finset.mem_range] at hj
  have : ∑ i ∈ range (FP ^ (n + 1)), (if (i + 1) % FP ^ (j + 1) = 0 then 1 else 0) =
      #{i ∈ range (FP ^ (n + 1)) | FP ^ (j + 1) ∣ i + 1} := by
    rw [Finset.card_filter]
    exact Finset.sum_congr rfl fun i _ => by simp only [Nat.dvd_iff_mod_eq_zero]
  rw [this, Nat.card_multiples, Nat.pow_div (by omega) hF]
  congr 1
  omega

/-- The double loop over vertices and levels: every vertex is read once, and each value on a level
above the first comes from one interpolation. -/
theorem costs_vertices {FP : Nat} (hF : 0 < FP) (hN : 0 < N) {init : σ}
    {body : Nat → Nat → σ → Counted σ}
    (h0 : ∀ i s, Costs (body i 0 s) (charge (2 * N) 1 0 0))
    (hj : ∀ i j s, Costs (body i (j + 1) s)
      (charge 0 0 (if (i + 1) % FP ^ (j + 1) = 0 then 1 else 0) 0)) :
    Costs (forRange (FP ^ N) init fun i st => forRange N st fun j st => body i j st)
      (charge (FP ^ N * (3 * N + 1)) (FP ^ N) (∑ j ∈ range (N - 1), FP ^ (j + 1)) 0) := by
  obtain ⟨n, rfl⟩ : ∃ n, N = n + 1 := ⟨N - 1, by omega⟩
  refine (costs_loop (a := fun _ => 3 * (n + 1)) (b := fun _ => 1)
    (c := fun i => ∑ j ∈ range n, if (i + 1) % FP ^ (j + 1) = 0 then 1 else 0) (d := fun _ => 0)
    fun i _ st => ?_).of_eq ?_
  · refine (costs_loop (a := fun j => if j = 0 then 2 * (n + 1) else 0)
      (b := fun j => if j = 0 then 1 else 0)
      (c := fun j => if j = 0 then 0 else if (i + 1) % FP ^ j = 0 then 1 else 0)
      (d := fun _ => 0) fun j _ st => ?_).of_eq ?_
    · cases j with
      | zero => exact h0 i st
      | succ j => exact hj i j st
    · rw [Finset.sum_range_succ', Finset.sum_range_succ', Finset.sum_range_succ']
      simp
      congr 1
      omega
  · rw [sum_multiples hF]
    simp
    congr 1
    ring

theorem sum_getD {α : Type} (f : List α → Nat) (l : List (List α)) :
    ∑ i ∈ range l.length, f (l.getD i []) = (l.map f).sum := by
  induction l with
  | nil => rfl
  | cons a l ih =>
    rw [List.length_cons, Finset.sum_range_succ', List.map_cons, List.sum_cons, ← ih, Nat.add_comm]
    rfl

theorem sum_kernels (FP : Nat) (hN : 0 < N) :
    ∑ j ∈ range (N - 1), FP ^ (j + 1) + 1 = ∑ j ∈ range N, FP ^ j := by
  obtain ⟨n, rfl⟩ : ∃ n, N = n + 1 := ⟨N - 1, by omega⟩
  rw [Finset.sum_range_succ']
  rfl

variable [FloatOps T]

theorem MultilinearRegular.costs_getLoc (s : Interpn.MultilinearRegular T N) (v : T) (k : Nat) :
    Costs (MultilinearRegular.getLoc s v k) 0 := by
  unfold MultilinearRegular.getLoc
  free_steps

theorem MultilinearRegular.costs_setup (fma : Bool) (s : Interpn.MultilinearRegular T N) (x : Fin N → T) :
    Costs (MultilinearRegular.setup fma s x) (charge N 0 0 0) := by
  unfold MultilinearRegular.setup
  refine costs_loop0 fun i hi st => ?_
  refine Costs.bind0 (costs_lift _) fun _ _ => ?_
  refine Costs.bind0 (costs_lift _) fun _ _ => ?_
  refine Costs.bind0 (costs_lift _) fun _ _ => ?_
  refine Costs.bind0 (MultilinearRegular.costs_getLoc s _ _) fun _ _ => ?_
  free_steps

theorem MultilinearRegular.costs_vertexLoop (hN : 0 < N) (fma : Bool) (s : Interpn.MultilinearRegular T N)
    (dimprod origin : Fin N → Nat) (dts : Fin N → T) :
    Costs (MultilinearRegular.vertexLoop fma s dimprod origin dts)
      (charge (2 ^ N * (3 * N + 1)) (2 ^ N) (∑ j ∈ range (N - 1), 2 ^ (j + 1)) 0) := by
  unfold MultilinearRegular.vertexLoop
  refine costs_vertices (by decide) hN (fun i st => ?_) fun i j st => ?_
  · simp only [if_pos]
    refine ((costs_loop0 fun k _ loc => ?_).bind fun loc _ =>
      ((costs_indexArrFixedDims _ _ _).then0 fun _ _ => ?_)).of_eq (c := charge N 0 0 0 + charge N 1 0 0) ?_
    · free_steps
    · free_steps
    · rw [charge_add]; congr 1; omega
  · simp only [Nat.succ_ne_zero, if_false]
    by_cases hq : (i + 1) % 2 ^ (j + 1) = 0
    · rw [if_pos hq, if_pos hq]
      lift_steps
      refine Costs.then0 ((costs_tick .kernel).of_eq one_kernel) fun _ _ => ?_
      free_steps
    · rw [if_neg hq, if_neg hq, charge_zero]
      exact costs_pure _

theorem MultilinearRegular.costs_interpOne (hN : 0 < N) (fma : Bool) (s : Interpn.MultilinearRegular T N)
    (x : Fin N → T) : Costs (MultilinearRegular.interpOne fma s x)
      (charge (N + 2 ^ N * (3 * N + 1)) (2 ^ N) (∑ j ∈ range N, 2 ^ j)
      0) := by
  unfold MultilinearRegular.interpOne
  refine ((MultilinearRegular.costs_setup fma s x).bind fun ⟨_, _⟩ _ =>
    ((MultilinearRegular.costs_vertexLoop hN fma s _ _ _).bind
      (c' := charge 0 0 1 0) fun ⟨_, store⟩ _ => ?_)).of_eq ?_
  · rw [charge_add, charge_add, sum_kernels 2 hN]
    simp
  · lift_steps
    refine Costs.then0 ((costs_tick .kernel).of_eq one_kernel) fun _ _ => ?_
    free_steps

theorem MultilinearRegular.charged_interp (hN : 0 < N) (fma : Bool) (s : Interpn.MultilinearRegular T N)
    (x : Fin N → List T) (out : List T) :
    ChargedBatch (MultilinearRegular.interp fma s x out) out.length
      (charge (1 + 2 * N + 2 ^ N * (3 * N + 1)) (2 ^ N) (∑ j ∈ range N, 2 ^ j)
      0) := by
  unfold MultilinearRegular.interp
  simp only
  split
  · exact ⟨fun _ => Nat.zero_le _, fun h => by cases h⟩
  · have hp := fun tmp => MultilinearRegular.costs_interpOne hN fma s tmp
    have e := costs_batchLoop (fun i => (costs_loop0 (n := N) (init := ((fun _ => zero) : Fin N → T))
      (body := fun j tmp => do aset tmp j (← lget (← aget x j) i))
      fun j _ tmp => by free_steps).bind fun tmp _ => hp tmp) out.length 0 out
    rw [one_pass, charge_add, charge_add] at e
    convert e using 2
    · ring
    all_goals simp

theorem MultilinearRegularRecursive.costs_getLoc (s : Interpn.MultilinearRegularRecursive T M) (v : T) (k : Nat) :
    Costs (MultilinearRegularRecursive.getLoc s v k) 0 := by
  unfold MultilinearRegularRecursive.getLoc
  free_steps

theorem MultilinearRegularRecursive.costs_populate (fma : Bool) (s : Interpn.MultilinearRegularRecursive T M)
    {n : Nat} (origin dimprod : Fin n → Nat) (dts : Fin n → T) (d : Nat)
    (loc : Fin n → Nat) :
    Costs (MultilinearRegularRecursive.populate fma s origin dimprod dts d loc)
      (charge (2 ^ d * n + 2 * ∑ j ∈ range d, 2 ^ j) (2 ^ d) (∑ j ∈ range d, 2 ^ j) 0) := by
  induction d generalizing loc with
  | zero =>
    unfold MultilinearRegularRecursive.populate
    refine Costs.then0 ((costs_indexArr _ _ _).of_eq ?_) fun _ _ => costs_pure _
    simp
  | succ d ih =>
    unfold MultilinearRegularRecursive.populate
    refine ((costs_loop (a := fun _ => 2 ^ d * n + 2 * ∑ j ∈ range d, 2 ^ j)
      (b := fun _ => 2 ^ d) (c := fun _ => ∑ j ∈ range d, 2 ^ j) (d := fun _ => 0)
      fun i _ st => ?_).bind (c' := charge 0 0 1 0) fun ⟨vals, loc⟩ _ => ?_).of_eq ?_
    · refine Costs.bind0 (costs_lift _) fun _ _ => ?_
      refine Costs.bind0 (costs_lift _) fun _ _ => ?_
      refine Costs.bind0 (costs_lift _) fun _ _ => ?_
      refine Costs.then0 (ih _) fun _ _ => ?_
      free_steps
    · rw [charge_add, Finset.sum_range_succ' _ d]
      simp only [Finset.sum_const, Finset.card_range, smul_eq_mul, pow_succ, ← Finset.sum_mul]
      congr 1 <;> ring
    · lift_steps
      refine Costs.then0 ((costs_tick .kernel).of_eq one_kernel) fun _ _ => ?_
      free_steps

theorem MultilinearRegularRecursive.costs_strideLoop (s : Interpn.MultilinearRegularRecursive T M) :
    Costs (MultilinearRegularRecursive.strideLoop s) (charge s.ndims 0 0 0) := by
  unfold MultilinearRegularRecursive.strideLoop
  refine Costs.then0 (costs_loop0 fun i _ st => ?_) fun _ _ => ?_
  · free_steps
  · free_steps

theorem MultilinearRegularRecursive.costs_interpOne (fma : Bool) (s : Interpn.MultilinearRegularRecursive T M)
    (x : List T) : Costs (MultilinearRegularRecursive.interpOne fma s x)
      (charge (3 * s.ndims + (2 ^ s.ndims * s.ndims + 2 * ∑ j ∈ range s.ndims, 2 ^ j))
        (2 ^ s.ndims) (∑ j ∈ range s.ndims, 2 ^ j) 0) := by
  unfold MultilinearRegularRecursive.interpOne
  simp only
  split
  · refine ((MultilinearRegularRecursive.costs_strideLoop s).bind fun dimprod _ =>
      (costs_loop0 (fun i _ st => ?_)).bind fun o _ =>
        (costs_loop0 (fun i _ dts => ?_)).bind fun dts _ =>
          (MultilinearRegularRecursive.costs_populate fma s _ _ _ _ _).then0 fun _ _ => ?_).of_eq ?_
    · refine Costs.bind0 (costs_lift _) fun _ _ => ?_
      refine Costs.bind0 (MultilinearRegularRecursive.costs_getLoc s _ _) fun _ _ => ?_
      free_steps
    · free_steps
    · free_steps
    · simp only [charge_add]
      congr 1 <;> ring
  · exact costs_err' _ _

theorem MultilinearRegularRecursive.charged_interp (fma : Bool) (s : Interpn.MultilinearRegularRecursive T M)
    (x : List (List T)) (out : List T) :
    ChargedBatch (MultilinearRegularRecursive.interp fma s x out) out.length
      (charge (1 + 4 * s.ndims + (2 ^ s.ndims * s.ndims + 2 * ∑ j ∈ range s.ndims, 2 ^ j))
        (2 ^ s.ndims) (∑ j ∈ range s.ndims, 2 ^ j) 0) := by
  unfold MultilinearRegularRecursive.interp
  simp only
  split
  · exact ⟨fun _ => Nat.zero_le _, fun h => by cases h⟩
  split
  · exact ⟨fun _ => Nat.zero_le _, fun h => by cases h⟩
  split
  · exact ⟨fun _ => Nat.zero_le _, fun h => by cases h⟩
  · have hp := fun tmp => MultilinearRegularRecursive.costs_interpOne fma s tmp
    have e := costs_batchLoop (fun i => (costs_loop0 (n := s.ndims)
      (init := ((fun _ => zero) : Fin s.ndims → T))
      (body := fun j tmp => do aset tmp j (← lget (← lget x j) i))
      fun j _ tmp => by free_steps).bind fun tmp _ => hp (List.ofFn tmp)) out.length 0 out
    rw [one_pass, charge_add, charge_add] at e
    convert e using 2
    · ring
    all_goals simp

theorem MultilinearRectilinear.costs_getLoc (s : Interpn.MultilinearRectilinear T N) (v : T)
    (h : ∀ k, 0 < (s.grids k).length) (k : Fin N) :
    Costs (MultilinearRectilinear.getLoc s v k) (charge 0 0 0 (Nat.clog 2 (s.grids k).length + 1)) := by
  unfold MultilinearRectilinear.getLoc
  refine Costs.bind0 (costs_lift _) fun grid hg => ?_
  have hg' : aget s.grids k = .ok grid := hg
  rw [aget_lt _ k.2] at hg'
  obtain rfl : s.grids k = grid := Res.ok.inj hg'
  refine Costs.then0 (costs_partitionPoint (h k) _) fun _ _ => ?_
  free_steps

theorem MultilinearRectilinear.costs_setup (s : Interpn.MultilinearRectilinear T N)
    (h : ∀ k, 0 < (s.grids k).length) (x : Fin N → T) :
    Costs (MultilinearRectilinear.setup s x) (charge N 0 0 (∑ k : Fin N, (Nat.clog 2 (s.grids k).length + 1))) := by
  unfold MultilinearRectilinear.setup
  refine (costs_loop (a := fun _ => 0) (b := fun _ => 0) (c := fun _ => 0)
    (d := fun i => if hi : i < N then Nat.clog 2 (s.grids ⟨i, hi⟩).length + 1 else 0)
    fun i hi st => ?_).of_eq ?_
  · rw [dif_pos hi]
    refine Costs.bind0 (costs_lift _) fun _ _ => ?_
    refine Costs.bind0 (costs_lift _) fun _ _ => ?_
    refine Costs.bind0 (costs_lift _) fun _ _ => ?_
    refine Costs.then0 (MultilinearRectilinear.costs_getLoc s _ h ⟨i, hi⟩) fun _ _ => ?_
    free_steps
  · simp [Finset.sum_range]

theorem MultilinearRectilinear.costs_vertexLoop (hN : 0 < N) (fma : Bool) (s : Interpn.MultilinearRectilinear T N)
    (x : Fin N → T) (dimprod origin : Fin N → Nat) :
    Costs (MultilinearRectilinear.vertexLoop fma s x dimprod origin)
      (charge (2 ^ N * (3 * N + 1)) (2 ^ N) (∑ j ∈ range (N - 1), 2 ^ (j + 1)) 0) := by
  unfold MultilinearRectilinear.vertexLoop
  refine costs_vertices (by decide) hN (fun i st => ?_) fun i j st => ?_
  · simp only [if_pos]
    refine ((costs_loop0 fun k _ loc => ?_).bind fun loc _ =>
      ((costs_indexArrFixedDims _ _ _).then0 fun _ _ => ?_)).of_eq (c := charge N 0 0 0 + charge N 1 0 0) ?_
    · free_steps
    · free_steps
    · rw [charge_add]; congr 1; omega
  · simp only [Nat.succ_ne_zero, if_false]
    by_cases hq : (i + 1) % 2 ^ (j + 1) = 0
    · rw [if_pos hq, if_pos hq]
      lift_steps
      refine Costs.then0 ((costs_tick .kernel).of_eq one_kernel) fun _ _ => ?_
      free_steps
    · rw [if_neg hq, if_neg hq, charge_zero]
      exact costs_pure _

theorem MultilinearRectilinear.costs_interpOne (hN : 0 < N) (fma : Bool) (s : Interpn.MultilinearRectilinear T N)
    (h : ∀ k, 0 < (s.grids k).length)
    (x : Fin N → T) : Costs (MultilinearRectilinear.interpOne fma s x)
      (charge (N + 2 ^ N * (3 * N + 1)) (2 ^ N) (∑ j ∈ range N, 2 ^ j)
      (∑ k : Fin N, (Nat.clog 2 (s.grids k).length + 1))) := by
  unfold MultilinearRectilinear.interpOne
  refine ((MultilinearRectilinear.costs_setup s h x).bind fun ⟨_, _⟩ _ =>
    ((MultilinearRectilinear.costs_vertexLoop hN fma s _ _ _).bind
      (c' := charge 0 0 1 0) fun ⟨_, store⟩ _ => ?_)).of_eq ?_
  · rw [charge_add, charge_add, sum_kernels 2 hN]
    simp
  · lift_steps
    refine Costs.then0 ((costs_tick .kernel).of_eq one_kernel) fun _ _ => ?_
    free_steps

theorem MultilinearRectilinear.charged_interp (hN : 0 < N) (fma : Bool) (s : Interpn.MultilinearRectilinear T N)
    (h : ∀ k, 0 < (s.grids k).length)
    (x : Fin N → List T) (out : List T) :
    ChargedBatch (MultilinearRectilinear.interp fma s x out) out.length
      (charge (1 + 2 * N + 2 ^ N * (3 * N + 1)) (2 ^ N) (∑ j ∈ range N, 2 ^ j)
      (∑ k : Fin N, (Nat.clog 2 (s.grids k).length + 1))) := by
  unfold MultilinearRectilinear.interp
  simp only
  split
  · exact ⟨fun _ => Nat.zero_le _, fun h => by cases h⟩
  · have hp := fun tmp => MultilinearRectilinear.costs_interpOne hN fma s h tmp
    have e := costs_batchLoop (fun i => (costs_loop0 (n := N) (init := ((fun _ => zero) : Fin N → T))
      (body := fun j tmp => do aset tmp j (← lget (← aget x j) i))
      fun j _ tmp => by free_steps).bind fun tmp _ => hp tmp) out.length 0 out
    rw [one_pass, charge_add, charge_add] at e
    convert e using 2
    · ring
    all_goals simp

theorem MultilinearRectilinearRecursive.costs_getLoc (s : Interpn.MultilinearRectilinearRecursive T M) (v : T)
    (h : ∀ g ∈ s.grids, 0 < g.length) (k : Nat) :
    Costs (MultilinearRectilinearRecursive.getLoc s v k) (charge 0 0 0 (Nat.clog 2 (s.grids.getD k []).length + 1)) := by
  unfold MultilinearRectilinearRecursive.getLoc
  refine Costs.bind0 (costs_lift _) fun grid hg => ?_
  have hg' : lget s.grids k = .ok grid := hg
  obtain ⟨hk, rfl⟩ := List.getElem?_eq_some_iff.1 (lget_eq_ok.1 hg')
  rw [List.getD_eq_getElem _ _ hk]
  refine Costs.then0 (costs_partitionPoint (h _ (List.getElem_mem hk)) _) fun _ _ => ?_
  free_steps

theorem MultilinearRectilinearRecursive.costs_populate (fma : Bool) (s : Interpn.MultilinearRectilinearRecursive T M)
    {n : Nat} (origin dimprod : Fin n → Nat) (x : Fin n → T) (d : Nat)
    (loc : Fin n → Nat) :
    Costs (MultilinearRectilinearRecursive.populate fma s origin dimprod x d loc)
      (charge (2 ^ d * n + 2 * ∑ j ∈ range d, 2 ^ j) (2 ^ d) (∑ j ∈ range d, 2 ^ j) 0) := by
  induction d generalizing loc with
  | zero =>
    unfold MultilinearRectilinearRecursive.populate
    refine Costs.then0 ((costs_indexArr _ _ _).of_eq ?_) fun _ _ => costs_pure _
    simp
  | succ d ih =>
    unfold MultilinearRectilinearRecursive.populate
    refine ((costs_loop (a := fun _ => 2 ^ d * n + 2 * ∑ j ∈ range d, 2 ^ j)
      (b := fun _ => 2 ^ d) (c := fun _ => ∑ j ∈ range d, 2 ^ j) (d := fun _ => 0)
      fun i _ st => ?_).bind (c' := charge 0 0 1 0) fun ⟨vals, loc⟩ _ => ?_).of_eq ?_
    · refine Costs.bind0 (costs_lift _) fun _ _ => ?_
      refine Costs.bind0 (costs_lift _) fun _ _ => ?_
      refine Costs.bind0 (costs_lift _) fun _ _ => ?_
      refine Costs.then0 (ih _) fun _ _ => ?_
      free_steps
    · rw [charge_add, Finset.sum_range_succ' _ d]
      simp only [Finset.sum_const, Finset.card_range, smul_eq_mul, pow_succ, ← Finset.sum_mul]
      congr 1 <;> ring
    · lift_steps
      refine Costs.then0 ((costs_tick .kernel).of_eq one_kernel) fun _ _ => ?_
      free_steps

theorem MultilinearRectilinearRecursive.costs_strideLoop (s : Interpn.MultilinearRectilinearRecursive T M) :
    Costs (MultilinearRectilinearRecursive.strideLoop s) (charge s.grids.length 0 0 0) := by
  unfold MultilinearRectilinearRecursive.strideLoop
  refine Costs.then0 (costs_loop0 fun i _ st => ?_) fun _ _ => ?_
  · free_steps
  · free_steps

theorem MultilinearRectilinearRecursive.costs_interpOne (fma : Bool) (s : Interpn.MultilinearRectilinearRecursive T M)
    (h : ∀ g ∈ s.grids, 0 < g.length)
    (x : List T) : Costs (MultilinearRectilinearRecursive.interpOne fma s x)
      (charge (2 * s.grids.length + (2 ^ s.grids.length * s.grids.length + 2 * ∑ j ∈ range s.grids.length, 2 ^ j))
        (2 ^ s.grids.length) (∑ j ∈ range s.grids.length, 2 ^ j) (s.grids.map fun g => Nat.clog 2 g.length + 1).sum) := by
  unfold MultilinearRectilinearRecursive.interpOne
  simp only
  split
  · refine ((MultilinearRectilinearRecursive.costs_strideLoop s).bind fun dimprod _ =>
      (costs_loop (a := fun _ => 0) (b := fun _ => 0) (c := fun _ => 0)
        (d := fun i => Nat.clog 2 (s.grids.getD i []).length + 1) fun i hi st => ?_).bind fun o _ =>
          (MultilinearRectilinearRecursive.costs_populate fma s _ _ _ _ _).then0 fun _ _ => ?_).of_eq ?_
    · refine Costs.bind0 (costs_lift _) fun _ _ => ?_
      refine Costs.then0 (MultilinearRectilinearRecursive.costs_getLoc s _ h i) fun _ _ => ?_
      free_steps
    · free_steps
    · simp only [charge_add]
      congr 1
      · simp; ring
      · simp
      · simp
      · rw [sum_getD fun g => Nat.clog 2 g.length + 1]; ring
  · exact costs_err' _ _

theorem MultilinearRectilinearRecursive.charged_interp (fma : Bool) (s : Interpn.MultilinearRectilinearRecursive T M)
    (h : ∀ g ∈ s.grids, 0 < g.length)
    (x : List (List T)) (out : List T) :
    ChargedBatch (MultilinearRectilinearRecursive.interp fma s x out) out.length
      (charge (1 + 3 * s.grids.length + (2 ^ s.grids.length * s.grids.length + 2 * ∑ j ∈ range s.grids.length, 2 ^ j))
        (2 ^ s.grids.length) (∑ j ∈ range s.grids.length, 2 ^ j) (s.grids.map fun g => Nat.clog 2 g.length + 1).sum) := by
  unfold MultilinearRectilinearRecursive.interp
  simp only
  split
  · exact ⟨fun _ => Nat.zero_le _, fun h => by cases h⟩
  split
  · exact ⟨fun _ => Nat.zero_le _, fun h => by cases h⟩
  split
  · exact ⟨fun _ => Nat.zero_le _, fun h => by cases h⟩
  · have hp := fun tmp => MultilinearRectilinearRecursive.costs_interpOne fma s h tmp
    have e := costs_batchLoop (fun i => (costs_loop0 (n := s.grids.length)
      (init := ((fun _ => zero) : Fin s.grids.length → T))
      (body := fun j tmp => do aset tmp j (← lget (← lget x j) i))
      fun j _ tmp => by free_steps).bind fun tmp _ => hp (List.ofFn tmp)) out.length 0 out
    rw [one_pass, charge_add, charge_add] at e
    convert e using 2
    · ring
    all_goals simp

theorem MulticubicRegular.costs_getLoc (s : Interpn.MulticubicRegular T N) (v : T) (k : Nat) :
    Costs (MulticubicRegular.getLoc s v k) 0 := by
  unfold MulticubicRegular.getLoc
  free_steps

theorem MulticubicRegular.costs_setup (s : Interpn.MulticubicRegular T N) (x : Fin N → T) :
    Costs (MulticubicRegular.setup s x) (charge N 0 0 0) := by
  unfold MulticubicRegular.setup
  refine costs_loop0 fun i hi st => ?_
  refine Costs.bind0 (costs_lift _) fun _ _ => ?_
  refine Costs.bind0 (costs_lift _) fun _ _ => ?_
  refine Costs.bind0 (costs_lift _) fun _ _ => ?_
  refine Costs.bind0 (MulticubicRegular.costs_getLoc s _ _) fun _ _ => ?_
  free_steps

theorem MulticubicRegular.costs_vertexLoop (hN : 0 < N) (fma : Bool) (s : Interpn.MulticubicRegular T N)
    (dimprod origin : Fin N → Nat) (sat : Fin N → Saturation) (dts : Fin N → T) :
    Costs (MulticubicRegular.vertexLoop fma s dimprod origin sat dts)
      (charge (4 ^ N * (3 * N + 1)) (4 ^ N) (∑ j ∈ range (N - 1), 4 ^ (j + 1)) 0) := by
  unfold MulticubicRegular.vertexLoop
  refine costs_vertices (by decide) hN (fun i st => ?_) fun i j st => ?_
  · simp only [if_pos]
    refine ((costs_loop0 fun k _ loc => ?_).bind fun loc _ =>
      ((costs_indexArrFixedDims _ _ _).then0 fun _ _ => ?_)).of_eq (c := charge N 0 0 0 + charge N 1 0 0) ?_
    · free_steps
    · free_steps
    · rw [charge_add]; congr 1; omega
  · simp only [Nat.succ_ne_zero, if_false]
    by_cases hq : (i + 1) % 4 ^ (j + 1) = 0
    · rw [if_pos hq, if_pos hq]
      lift_steps
      refine Costs.then0 ((costs_tick .kernel).of_eq one_kernel) fun _ _ => ?_
      free_steps
    · rw [if_neg hq, if_neg hq, charge_zero]
      exact costs_pure _

theorem MulticubicRegular.costs_interpOne (hN : 0 < N) (fma : Bool) (s : Interpn.MulticubicRegular T N)
    (x : Fin N → T) : Costs (MulticubicRegular.interpOne fma s x)
      (charge (N + 4 ^ N * (3 * N + 1)) (4 ^ N) (∑ j ∈ range N, 4 ^ j)
      0) := by
  unfold MulticubicRegular.interpOne
  refine ((MulticubicRegular.costs_setup s x).bind fun ⟨_, _⟩ _ =>
    ((MulticubicRegular.costs_vertexLoop hN fma s _ _ _ _).bind
      (c' := charge 0 0 1 0) fun ⟨_, store⟩ _ => ?_)).of_eq ?_
  · rw [charge_add, charge_add, sum_kernels 4 hN]
    simp
  · lift_steps
    refine Costs.then0 ((costs_tick .kernel).of_eq one_kernel) fun _ _ => ?_
    free_steps

theorem MulticubicRegular.charged_interp (hN : 0 < N) (fma : Bool) (s : Interpn.MulticubicRegular T N)
    (x : Fin N → List T) (out : List T) :
    ChargedBatch (MulticubicRegular.interp fma s x out) out.length
      (charge (1 + 2 * N + 4 ^ N * (3 * N + 1)) (4 ^ N) (∑ j ∈ range N, 4 ^ j)
      0) := by
  unfold MulticubicRegular.interp
  simp only
  split
  · exact ⟨fun _ => Nat.zero_le _, fun h => by cases h⟩
  · have hp := fun tmp => MulticubicRegular.costs_interpOne hN fma s tmp
    have e := costs_batchLoop (fun i => (costs_loop0 (n := N) (init := ((fun _ => zero) : Fin N → T))
      (body := fun j tmp => do aset tmp j (← lget (← aget x j) i))
      fun j _ tmp => by free_steps).bind fun tmp _ => hp tmp) out.length 0 out
    rw [one_pass, charge_add, charge_add] at e
    convert e using 2
    · ring
    all_goals simp

theorem MulticubicRegularRecursive.costs_getLoc (s : Interpn.MulticubicRegularRecursive T M) (v : T) (k : Nat) :
    Costs (MulticubicRegularRecursive.getLoc s v k) 0 := by
  unfold MulticubicRegularRecursive.getLoc
  free_steps

theorem MulticubicRegularRecursive.costs_populate (fma : Bool) (s : Interpn.MulticubicRegularRecursive T M)
    {n : Nat} (sat : Fin n → Saturation) (origin dimprod : Fin n → Nat) (dts : Fin n → T) (d : Nat)
    (loc : Fin n → Nat) :
    Costs (MulticubicRegularRecursive.populate fma s sat origin dimprod dts d loc)
      (charge (4 ^ d * n + 4 * ∑ j ∈ range d, 4 ^ j) (4 ^ d) (∑ j ∈ range d, 4 ^ j) 0) := by
  induction d generalizing loc with
  | zero =>
    unfold MulticubicRegularRecursive.populate
    refine Costs.then0 ((costs_indexArr _ _ _).of_eq ?_) fun _ _ => costs_pure _
    simp
  | succ d ih =>
    unfold MulticubicRegularRecursive.populate
    refine ((costs_loop (a := fun _ => 4 ^ d * n + 4 * ∑ j ∈ range d, 4 ^ j)
      (b := fun _ => 4 ^ d) (c := fun _ => ∑ j ∈ range d, 4 ^ j) (d := fun _ => 0)
      fun i _ st => ?_).bind (c' := charge 0 0 1 0) fun ⟨vals, loc⟩ _ => ?_).of_eq ?_
    · refine Costs.bind0 (costs_lift _) fun _ _ => ?_
      refine Costs.bind0 (costs_lift _) fun _ _ => ?_
      refine Costs.bind0 (costs_lift _) fun _ _ => ?_
      refine Costs.then0 (ih _) fun _ _ => ?_
      free_steps
    · rw [charge_add, Finset.sum_range_succ' _ d]
      simp only [Finset.sum_const, Finset.card_range, smul_eq_mul, pow_succ, ← Finset.sum_mul]
      congr 1 <;> ring
    · lift_steps
      refine Costs.then0 ((costs_tick .kernel).of_eq one_kernel) fun _ _ => ?_
      free_steps

theorem MulticubicRegularRecursive.costs_strideLoop (s : Interpn.MulticubicRegularRecursive T M) :
    Costs (MulticubicRegularRecursive.strideLoop s) (charge s.ndims 0 0 0) := by
  unfold MulticubicRegularRecursive.strideLoop
  refine Costs.then0 (costs_loop0 fun i _ st => ?_) fun _ _ => ?_
  · free_steps
  · free_steps

theorem MulticubicRegularRecursive.costs_interpOne (fma : Bool) (s : Interpn.MulticubicRegularRecursive T M)
    (x : List T) : Costs (MulticubicRegularRecursive.interpOne fma s x)
      (charge (3 * s.ndims + (4 ^ s.ndims * s.ndims + 4 * ∑ j ∈ range s.ndims, 4 ^ j))
        (4 ^ s.ndims) (∑ j ∈ range s.ndims, 4 ^ j) 0) := by
  unfold MulticubicRegularRecursive.interpOne
  simp only
  split
  · refine ((MulticubicRegularRecursive.costs_strideLoop s).bind fun dimprod _ =>
      (costs_loop0 (fun i _ st => ?_)).bind fun o _ =>
        (costs_loop0 (fun i _ dts => ?_)).bind fun dts _ =>
          (MulticubicRegularRecursive.costs_populate fma s _ _ _ _ _ _).then0 fun _ _ => ?_).of_eq ?_
    · refine Costs.bind0 (costs_lift _) fun _ _ => ?_
      refine Costs.bind0 (MulticubicRegularRecursive.costs_getLoc s _ _) fun _ _ => ?_
      free_steps
    · free_steps
    · free_steps
    · simp only [charge_add]
      congr 1 <;> ring
  · exact costs_err' _ _

theorem MulticubicRegularRecursive.charged_interp (fma : Bool) (s : Interpn.MulticubicRegularRecursive T M)
    (x : List (List T)) (out : List T) :
    ChargedBatch (MulticubicRegularRecursive.interp fma s x out) out.length
      (charge (1 + 4 * s.ndims + (4 ^ s.ndims * s.ndims + 4 * ∑ j ∈ range s.ndims, 4 ^ j))
        (4 ^ s.ndims) (∑ j ∈ range s.ndims, 4 ^ j) 0) := by
  unfold MulticubicRegularRecursive.interp
  simp only
  split
  · exact ⟨fun _ => Nat.zero_le _, fun h => by cases h⟩
  split
  · exact ⟨fun _ => Nat.zero_le _, fun h => by cases h⟩
  split
  · exact ⟨fun _ => Nat.zero_le _, fun h => by cases h⟩
  · have hp := fun tmp => MulticubicRegularRecursive.costs_interpOne fma s tmp
    have e := costs_batchLoop (fun i => (costs_loop0 (n := s.ndims)
      (init := ((fun _ => zero) : Fin s.ndims → T))
      (body := fun j tmp => do aset tmp j (← lget (← lget x j) i))
      fun j _ tmp => by free_steps).bind fun tmp _ => hp (List.ofFn tmp)) out.length 0 out
    rw [one_pass, charge_add, charge_add] at e
    convert e using 2
    · ring
    all_goals simp

theorem MulticubicRectilinear.costs_getLoc (s : Interpn.MulticubicRectilinear T N) (v : T)
    (h : ∀ k, 0 < (s.grids k).length) (k : Fin N) :
    Costs (MulticubicRectilinear.getLoc s v k) (charge 0 0 0 (Nat.clog 2 (s.grids k).length + 1)) := by
  unfold MulticubicRectilinear.getLoc
  refine Costs.bind0 (costs_lift _) fun grid hg => ?_
  have hg' : aget s.grids k = .ok grid := hg
  rw [aget_lt _ k.2] at hg'
  obtain rfl : s.grids k = grid := Res.ok.inj hg'
  refine Costs.then0 (costs_partitionPoint (h k) _) fun _ _ => ?_
  free_steps

theorem MulticubicRectilinear.costs_setup (s : Interpn.MulticubicRectilinear T N)
    (h : ∀ k, 0 < (s.grids k).length) (x : Fin N → T) :
    Costs (MulticubicRectilinear.setup s x) (charge N 0 0 (∑ k : Fin N, (Nat.clog 2 (s.grids k).length + 1))) := by
  unfold MulticubicRectilinear.setup
  refine (costs_loop (a := fun _ => 0) (b := fun _ => 0) (c := fun _ => 0)
    (d := fun i => if hi : i < N then Nat.clog 2 (s.grids ⟨i, hi⟩).length + 1 else 0)
    fun i hi st => ?_).of_eq ?_
  · rw [dif_pos hi]
    refine Costs.bind0 (costs_lift _) fun _ _ => ?_
    refine Costs.bind0 (costs_lift _) fun _ _ => ?_
    refine Costs.bind0 (costs_lift _) fun _ _ => ?_
    refine Costs.then0 (MulticubicRectilinear.costs_getLoc s _ h ⟨i, hi⟩) fun _ _ => ?_
    free_steps
  · simp [Finset.sum_range]

theorem MulticubicRectilinear.costs_vertexLoop (hN : 0 < N) (fma : Bool) (s : Interpn.MulticubicRectilinear T N)
    (x : Fin N → T) (dimprod origin : Fin N → Nat) (sat : Fin N → Saturation) :
    Costs (MulticubicRectilinear.vertexLoop fma s x dimprod origin sat)
      (charge (4 ^ N * (3 * N + 1)) (4 ^ N) (∑ j ∈ range (N - 1), 4 ^ (j + 1)) 0) := by
  unfold MulticubicRectilinear.vertexLoop
  refine costs_vertices (by decide) hN (fun i st => ?_) fun i j st => ?_
  · simp only [if_pos]
    refine ((costs_loop0 fun k _ loc => ?_).bind fun loc _ =>
      ((costs_indexArrFixedDims _ _ _).then0 fun _ _ => ?_)).of_eq (c := charge N 0 0 0 + charge N 1 0 0) ?_
    · free_steps
    · free_steps
    · rw [charge_add]; congr 1; omega
  · simp only [Nat.succ_ne_zero, if_false]
    by_cases hq : (i + 1) % 4 ^ (j + 1) = 0
    · rw [if_pos hq, if_pos hq]
      lift_steps
      refine Costs.then0 ((costs_tick .kernel).of_eq one_kernel) fun _ _ => ?_
      free_steps
    · rw [if_neg hq, if_neg hq, charge_zero]
      exact costs_pure _

theorem MulticubicRectilinear.costs_interpOne (hN : 0 < N) (fma : Bool) (s : Interpn.MulticubicRectilinear T N)
    (h : ∀ k, 0 < (s.grids k).length)
    (x : Fin N → T) : Costs (MulticubicRectilinear.interpOne fma s x)
      (charge (N + 4 ^ N * (3 * N + 1)) (4 ^ N) (∑ j ∈ range N, 4 ^ j)
      (∑ k : Fin N, (Nat.clog 2 (s.grids k).length + 1))) := by
  unfold MulticubicRectilinear.interpOne
  refine ((MulticubicRectilinear.costs_setup s h x).bind fun ⟨_, _⟩ _ =>
    ((MulticubicRectilinear.costs_vertexLoop hN fma s _ _ _ _).bind
      (c' := charge 0 0 1 0) fun ⟨_, store⟩ _ => ?_)).of_eq ?_
  · rw [charge_add, charge_add, sum_kernels 4 hN]
    simp
  · lift_steps
    refine Costs.then0 ((costs_tick .kernel).of_eq one_kernel) fun _ _ => ?_
    free_steps

theorem MulticubicRectilinear.charged_interp (hN : 0 < N) (fma : Bool) (s : Interpn.MulticubicRectilinear T N)
    (h : ∀ k, 0 < (s.grids k).length)
    (x : Fin N → List T) (out : List T) :
    ChargedBatch (MulticubicRectilinear.interp fma s x out) out.length
      (charge (1 + 2 * N + 4 ^ N * (3 * N + 1)) (4 ^ N) (∑ j ∈ range N, 4 ^ j)
      (∑ k : Fin N, (Nat.clog 2 (s.grids k).length + 1))) := by
  unfold MulticubicRectilinear.interp
  simp only
  split
  · exact ⟨fun _ => Nat.zero_le _, fun h => by cases h⟩
  · have hp := fun tmp => MulticubicRectilinear.costs_interpOne hN fma s h tmp
    have e := costs_batchLoop (fun i => (costs_loop0 (n := N) (init := ((fun _ => zero) : Fin N → T))
      (body := fun j tmp => do aset tmp j (← lget (← aget x j) i))
      fun j _ tmp => by free_steps).bind fun tmp _ => hp tmp) out.length 0 out
    rw [one_pass, charge_add, charge_add] at e
    convert e using 2
    · ring
    all_goals simp

theorem MulticubicRectilinearRecursive.costs_getLoc (s : Interpn.MulticubicRectilinearRecursive T M) (v : T)
    (h : ∀ g ∈ s.grids, 0 < g.length) (k : Nat) :
    Costs (MulticubicRectilinearRecursive.getLoc s v k) (charge 0 0 0 (Nat.clog 2 (s.grids.getD k []).length + 1)) := by
  unfold MulticubicRectilinearRecursive.getLoc
  refine Costs.bind0 (costs_lift _) fun grid hg => ?_
  have hg' : lget s.grids k = .ok grid := hg
  obtain ⟨hk, rfl⟩ := List.getElem?_eq_some_iff.1 (lget_eq_ok.1 hg')
  rw [List.getD_eq_getElem _ _ hk]
  refine Costs.then0 (costs_partitionPoint (h _ (List.getElem_mem hk)) _) fun _ _ => ?_
  free_steps

theorem MulticubicRectilinearRecursive.costs_populate (fma : Bool) (s : Interpn.MulticubicRectilinearRecursive T M)
    {n : Nat} (sat : Fin n → Saturation) (origin dimprod : Fin n → Nat) (x : Fin n → T) (d : Nat)
    (loc : Fin n → Nat) :
    Costs (MulticubicRectilinearRecursive.populate fma s sat origin dimprod x d loc)
      (charge (4 ^ d * n + 4 * ∑ j ∈ range d, 4 ^ j) (4 ^ d) (∑ j ∈ range d, 4 ^ j) 0) := by
  induction d generalizing loc with
  | zero =>
    unfold MulticubicRectilinearRecursive.populate
    refine Costs.then0 ((costs_indexArr _ _ _).of_eq ?_) fun _ _ => costs_pure _
    simp
  | succ d ih =>
    unfold MulticubicRectilinearRecursive.populate
    refine ((costs_loop (a := fun _ => 4 ^ d * n + 4 * ∑ j ∈ range d, 4 ^ j)
      (b := fun _ => 4 ^ d) (c := fun _ => ∑ j ∈ range d, 4 ^ j) (d := fun _ => 0)
      fun i _ st => ?_).bind (c' := charge 0 0 1 0) fun ⟨vals, loc⟩ _ => ?_).of_eq ?_
    · refine Costs.bind0 (costs_lift _) fun _ _ => ?_
      refine Costs.bind0 (costs_lift _) fun _ _ => ?_
      refine Costs.bind0 (costs_lift _) fun _ _ => ?_
      refine Costs.then0 (ih _) fun _ _ => ?_
      free_steps
    · rw [charge_add, Finset.sum_range_succ' _ d]
      simp only [Finset.sum_const, Finset.card_range, smul_eq_mul, pow_succ, ← Finset.sum_mul]
      congr 1 <;> ring
    · lift_steps
      refine Costs.then0 ((costs_tick .kernel).of_eq one_kernel) fun _ _ => ?_
      free_steps

theorem MulticubicRectilinearRecursive.costs_strideLoop (s : Interpn.MulticubicRectilinearRecursive T M) :
    Costs (MulticubicRectilinearRecursive.strideLoop s) (charge s.grids.length 0 0 0) := by
  unfold MulticubicRectilinearRecursive.strideLoop
  refine Costs.then0 (costs_loop0 fun i _ st => ?_) fun _ _ => ?_
  · free_steps
  · free_steps

theorem MulticubicRectilinearRecursive.costs_interpOne (fma : Bool) (s : Interpn.MulticubicRectilinearRecursive T M)
    (h : ∀ g ∈ s.grids, 0 < g.length)
    (x : List T) : Costs (MulticubicRectilinearRecursive.interpOne fma s x)
      (charge (2 * s.grids.length + (4 ^ s.grids.length * s.grids.length + 4 * ∑ j ∈ range s.grids.length, 4 ^ j))
        (4 ^ s.grids.length) (∑ j ∈ range s.grids.length, 4 ^ j) (s.grids.map fun g => Nat.clog 2 g.length + 1).sum) := by
  unfold MulticubicRectilinearRecursive.interpOne
  simp only
  split
  · refine ((MulticubicRectilinearRecursive.costs_strideLoop s).bind fun dimprod _ =>
      (costs_loop (a := fun _ => 0) (b := fun _ => 0) (c := fun _ => 0)
        (d := fun i => Nat.clog 2 (s.grids.getD i []).length + 1) fun i hi st => ?_).bind fun o _ =>
          (MulticubicRectilinearRecursive.costs_populate fma s _ _ _ _ _ _).then0 fun _ _ => ?_).of_eq ?_
    · refine Costs.bind0 (costs_lift _) fun _ _ => ?_
      refine Costs.then0 (MulticubicRectilinearRecursive.costs_getLoc s _ h i) fun _ _ => ?_
      free_steps
    · free_steps
    · simp only [charge_add]
      congr 1
      · simp; ring
      · simp
      · simp
      · rw [sum_getD fun g => Nat.clog 2 g.length + 1]; ring
  · exact costs_err' _ _

theorem MulticubicRectilinearRecursive.charged_interp (fma : Bool) (s : Interpn.MulticubicRectilinearRecursive T M)
    (h : ∀ g ∈ s.grids, 0 < g.length)
    (x : List (List T)) (out : List T) :
    ChargedBatch (MulticubicRectilinearRecursive.interp fma s x out) out.length
      (charge (1 + 3 * s.grids.length + (4 ^ s.grids.length * s.grids.length + 4 * ∑ j ∈ range s.grids.length, 4 ^ j))
        (4 ^ s.grids.length) (∑ j ∈ range s.grids.length, 4 ^ j) (s.grids.map fun g => Nat.clog 2 g.length + 1).sum) := by
  unfold MulticubicRectilinearRecursive.interp
  simp only
  split
  · exact ⟨fun _ => Nat.zero_le _, fun h => by cases h⟩
  split
  · exact ⟨fun _ => Nat.zero_le _, fun h => by cases h⟩
  split
  · exact ⟨fun _ => Nat.zero_le _, fun h => by cases h⟩
  · have hp := fun tmp => MulticubicRectilinearRecursive.costs_interpOne fma s h tmp
    have e := costs_batchLoop (fun i => (costs_loop0 (n := s.grids.length)
      (init := ((fun _ => zero) : Fin s.grids.length → T))
      (body := fun j tmp => do aset tmp j (← lget (← lget x j) i))
      fun j _ tmp => by free_steps).bind fun tmp _ => hp (List.ofFn tmp)) out.length 0 out
    rw [one_pass, charge_add, charge_add] at e
    convert e using 2
    · ring
    all_goals simp

theorem NearestRegular.costs_getLoc (s : Interpn.NearestRegular T N) (v : T) (k : Nat) :
    Costs (NearestRegular.getLoc s v k) 0 := by
  unfold NearestRegular.getLoc
  free_steps

theorem NearestRegular.costs_setup (fma : Bool) (s : Interpn.NearestRegular T N) (x : Fin N → T) :
    Costs (NearestRegular.setup fma s x) (charge N 0 0 0) := by
  unfold NearestRegular.setup
  refine costs_loop0 fun i hi st => ?_
  refine Costs.bind0 (costs_lift _) fun _ _ => ?_
  refine Costs.bind0 (costs_lift _) fun _ _ => ?_
  refine Costs.bind0 (costs_lift _) fun _ _ => ?_
  refine Costs.bind0 (NearestRegular.costs_getLoc s _ _) fun _ _ => ?_
  free_steps

theorem NearestRegular.costs_interpOne (fma : Bool) (s : Interpn.NearestRegular T N)
    (x : Fin N → T) : Costs (NearestRegular.interpOne fma s x)
      (charge (N + N) 1 0 0) := by
  unfold NearestRegular.interpOne
  refine ((NearestRegular.costs_setup fma s x).bind fun ⟨_, _⟩ _ =>
    costs_indexArrFixedDims _ _ _).of_eq ?_
  rw [charge_add]

theorem NearestRegular.charged_interp (fma : Bool) (s : Interpn.NearestRegular T N)
    (x : Fin N → List T) (out : List T) :
    ChargedBatch (NearestRegular.interp fma s x out) out.length
      (charge (1 + 3 * N) 1 0 0) := by
  unfold NearestRegular.interp
  simp only
  split
  · exact ⟨fun _ => Nat.zero_le _, fun h => by cases h⟩
  · have hp := fun tmp => NearestRegular.costs_interpOne fma s tmp
    have e := costs_batchLoop (fun i => (costs_loop0 (n := N) (init := ((fun _ => zero) : Fin N → T))
      (body := fun j tmp => do aset tmp j (← lget (← aget x j) i))
      fun j _ tmp => by free_steps).bind fun tmp _ => hp tmp) out.length 0 out
    rw [one_pass, charge_add, charge_add] at e
    convert e using 2
    · ring
    all_goals simp

theorem NearestRectilinear.costs_getLoc (s : Interpn.NearestRectilinear T N) (v : T)
    (h : ∀ k, 0 < (s.grids k).length) (k : Fin N) :
    Costs (NearestRectilinear.getLoc s v k) (charge 0 0 0 (Nat.clog 2 (s.grids k).length + 1)) := by
  unfold NearestRectilinear.getLoc
  refine Costs.bind0 (costs_lift _) fun grid hg => ?_
  have hg' : aget s.grids k = .ok grid := hg
  rw [aget_lt _ k.2] at hg'
  obtain rfl : s.grids k = grid := Res.ok.inj hg'
  refine Costs.then0 (costs_partitionPoint (h k) _) fun _ _ => ?_
  free_steps

theorem NearestRectilinear.costs_setup (s : Interpn.NearestRectilinear T N)
    (h : ∀ k, 0 < (s.grids k).length) (x : Fin N → T) :
    Costs (NearestRectilinear.setup s x) (charge N 0 0 (∑ k : Fin N, (Nat.clog 2 (s.grids k).length + 1))) := by
  unfold NearestRectilinear.setup
  refine (costs_loop (a := fun _ => 0) (b := fun _ => 0) (c := fun _ => 0)
    (d := fun i => if hi : i < N then Nat.clog 2 (s.grids ⟨i, hi⟩).length + 1 else 0)
    fun i hi st => ?_).of_eq ?_
  · rw [dif_pos hi]
    refine Costs.bind0 (costs_lift _) fun _ _ => ?_
    refine Costs.bind0 (costs_lift _) fun _ _ => ?_
    refine Costs.bind0 (costs_lift _) fun _ _ => ?_
    refine Costs.then0 (NearestRectilinear.costs_getLoc s _ h ⟨i, hi⟩) fun _ _ => ?_
    free_steps
  · simp [Finset.sum_range]

theorem NearestRectilinear.costs_interpOne (s : Interpn.NearestRectilinear T N)
    (h : ∀ k, 0 < (s.grids k).length)
    (x : Fin N → T) : Costs (NearestRectilinear.interpOne s x)
      (charge (N + N) 1 0 (∑ k : Fin N, (Nat.clog 2 (s.grids k).length + 1))) := by
  unfold NearestRectilinear.interpOne
  refine ((NearestRectilinear.costs_setup s h x).bind fun ⟨_, _⟩ _ =>
    costs_indexArrFixedDims _ _ _).of_eq ?_
  rw [charge_add]
  simp

theorem NearestRectilinear.charged_interp (s : Interpn.NearestRectilinear T N)
    (h : ∀ k, 0 < (s.grids k).length)
    (x : Fin N → List T) (out : List T) :
    ChargedBatch (NearestRectilinear.interp s x out) out.length
      (charge (1 + 3 * N) 1 0 (∑ k : Fin N, (Nat.clog 2 (s.grids k).length + 1))) := by
  unfold NearestRectilinear.interp
  simp only
  split
  · exact ⟨fun _ => Nat.zero_le _, fun h => by cases h⟩
  · have hp := fun tmp => NearestRectilinear.costs_interpOne s h tmp
    have e := costs_batchLoop (fun i => (costs_loop0 (n := N) (init := ((fun _ => zero) : Fin N → T))
      (body := fun j tmp => do aset tmp j (← lget (← aget x j) i))
      fun j _ tmp => by free_steps).bind fun tmp _ => hp tmp) out.length 0 out
    rw [one_pass, charge_add, charge_add] at e
    convert e using 2
    · ring
    all_goals simp

end Interpn.Counted
