import Verif.Lemmas.CountedCosts
import Verif.Spec.CountedOneDim
import Verif.Lemmas.OneDim

/-! Counts for the one-dimensional interpolators (C115). -/

set_option autoImplicit false

open Interpn.FloatOps Finset

namespace Interpn.Counted
variable {T : Type} [FloatOps T]

/-! ### Dropping the counts -/

theorem RegularGrid1D.outcome_at (g : Interpn.RegularGrid1D T) (loc : T) :
    (RegularGrid1D.at g loc).1 = g.at loc := by
  unfold RegularGrid1D.at Interpn.RegularGrid1D.at
  simp only [outcome_bind, outcome_liftM]
  refine bind_congr fun ⟨i, extrap⟩ => ?_
  dsimp only
  cases (ofUsize i : Option T) with
  | none => rfl
  | some f =>
    simp only [outcome_bind, outcome_liftM, outcome_pure, outcome_tick, Res.ok_bind]
    rfl

theorem RectilinearGrid1D.outcome_index (g : Interpn.RectilinearGrid1D T) (loc : T) :
    (RectilinearGrid1D.index g loc).1 = g.index loc := by
  unfold RectilinearGrid1D.index Interpn.RectilinearGrid1D.index
  simp only [outcome_bind, outcome_liftM, outcome_partitionPoint, Res.ok_bind]
  refine bind_congr fun a => bind_congr fun b => bind_congr fun c => bind_congr fun d =>
    bind_congr fun e => ?_
  split
  · rfl
  · split <;> rfl

theorem RectilinearGrid1D.outcome_at (g : Interpn.RectilinearGrid1D T) (loc : T) :
    (RectilinearGrid1D.at g loc).1 = g.at loc := by
  unfold RectilinearGrid1D.at Interpn.RectilinearGrid1D.at
  rw [outcome_bind, RectilinearGrid1D.outcome_index]
  refine bind_congr fun ⟨i, extrap⟩ => ?_
  simp only [outcome_bind, outcome_liftM, outcome_pure, outcome_tick, Res.ok_bind]
  rfl

theorem outcome_evalOne (fma : Bool) (kind : Kind1D) {gridAt : T → Counted (GridSample T)}
    {gridAt' : T → Res (GridSample T)} (h : ∀ loc, (gridAt loc).1 = gridAt' loc) (loc : T) :
    (evalOne fma kind gridAt loc).1 = kind.evalOne fma gridAt' loc := by
  cases kind <;> simp only [evalOne, Kind1D.evalOne]
  · unfold Linear1D.evalOne Interpn.Linear1D.evalOne
    rw [outcome_bind, h]
    rfl
  · unfold LinearHoldLast1D.evalOne Interpn.LinearHoldLast1D.evalOne
    rw [outcome_bind, h]
    refine bind_congr fun g => ?_
    cases g.extrap <;> rfl
  · unfold Left1D.evalOne Interpn.Left1D.evalOne
    rw [outcome_bind, h]
    refine bind_congr fun g => ?_
    cases g.extrap <;> rfl
  · unfold Right1D.evalOne Interpn.Right1D.evalOne
    rw [outcome_bind, h]
    refine bind_congr fun g => ?_
    cases g.extrap <;> rfl
  · unfold Nearest1D.evalOne Interpn.Nearest1D.evalOne
    rw [outcome_bind, h]
    rfl

omit [FloatOps T] in
theorem outcome_eval1D {e : T → Counted T} {e' : T → Res T} (h : ∀ loc, (e loc).1 = e' loc)
    (locs out : List T) : (eval1D e locs out).1 = Interpn.eval1D e' locs out := by
  unfold eval1D Interpn.eval1D
  split
  · rfl
  · rw [outcome_batchLoop]
    congr 1
    funext i
    rw [outcome_bind, outcome_liftM]
    exact bind_congr fun a => h a

/-! ### Counts -/

theorem RegularGrid1D.costs_at (g : Interpn.RegularGrid1D T) (loc : T) :
    Costs (RegularGrid1D.at g loc) (charge 0 2 0 0) := by
  unfold RegularGrid1D.at
  refine Costs.bind0 (costs_lift _) fun ⟨i, extrap⟩ _ => ?_
  dsimp only
  split
  · exact costs_err' _ _
  · have h2 : charge 0 2 0 0 = one .read + one .read := by rw [one_read, charge_add]
    rw [h2]
    refine (costs_tick _).bind fun _ _ => Costs.bind0 (costs_lift _) fun _ _ => ?_
    refine (costs_tick _).then0 fun _ _ => ?_
    free_steps

theorem RectilinearGrid1D.costs_at (g : Interpn.RectilinearGrid1D T) (hg : 0 < g.grid.length) (loc : T) :
    Costs (RectilinearGrid1D.at g loc) (charge 0 2 0 (Nat.clog 2 g.grid.length + 1)) := by
  unfold RectilinearGrid1D.at RectilinearGrid1D.index
  have h2 : charge 0 2 0 (Nat.clog 2 g.grid.length + 1) =
      charge 0 0 0 (Nat.clog 2 g.grid.length + 1) + (one .read + one .read) := by
    rw [one_read, charge_add, charge_add]
  rw [h2]
  refine Costs.bind ?_ fun ⟨i, extrap⟩ _ => ?_
  · refine Costs.then0 (costs_partitionPoint hg _) fun _ _ => ?_
    free_steps
  · dsimp only
    refine Costs.bind0 (costs_lift _) fun _ _ => Costs.bind0 (costs_lift _) fun _ _ =>
      Costs.bind0 (costs_lift _) fun _ _ => ?_
    refine (costs_tick _).bind fun _ _ => Costs.bind0 (costs_lift _) fun _ _ => ?_
    refine (costs_tick _).then0 fun _ _ => ?_
    free_steps

theorem costs_evalOne (fma : Bool) (kind : Kind1D) {gridAt : T → Counted (GridSample T)} {loc : T}
    {r c : Nat} (h : Costs (gridAt loc) (charge 0 r 0 c)) {inside : Bool}
    (hin : ∀ g, (gridAt loc).1 = .ok g → (g.extrap = .inside ↔ inside = true)) :
    Costs (evalOne fma kind gridAt loc) (charge 0 r (kernels1D kind inside) c) := by
  have hk : ∀ k, charge 0 r k c = charge 0 r 0 c + charge 0 0 k 0 := fun k => by
    rw [charge_add]; simp
  rw [hk]
  cases kind <;> simp only [evalOne, kernels1D]
  · refine h.bind fun g _ => ?_
    rw [← one_kernel]
    exact (costs_tick _).then0 fun _ _ => costs_pure _
  · refine h.bind fun g hg => ?_
    have := hin g hg
    split <;> rename_i e
    · rw [if_pos (this.1 e), ← one_kernel]
      exact (costs_tick _).then0 fun _ _ => costs_pure _
    all_goals
      rw [if_neg (fun hh => by rw [this.2 hh] at e; cases e), charge_zero]
      exact costs_pure _
  all_goals
    rw [charge_zero, add_zero]
    refine h.then0 fun g _ => ?_
    first
      | exact costs_pure _
      | (split <;> exact costs_pure _)

omit [FloatOps T] in
/-- A batch whose observations have charges of their own. -/
theorem batchLoop_sum {point : Nat → Counted T} {c : Nat → Op → Nat} (n : Nat)
    (h : ∀ i, i < n → Costs (point i) (c i)) (k i : Nat) (hk : i + k ≤ n) (out : List T) :
    (∀ o, (batchLoop point k i out).2 o ≤ (∑ j ∈ range k, (one .pass + c (i + j))) o) ∧
    ((batchLoop point k i out).1.1 = .ok () →
      ∀ o, (batchLoop point k i out).2 o = (∑ j ∈ range k, (one .pass + c (i + j))) o) := by
  induction k generalizing i out with
  | zero => exact ⟨fun o => by simp [batchLoop], fun _ o => by simp [batchLoop]⟩
  | succ k ih =>
    have hp : Costs (do tick .pass; point i : Counted T) (one .pass + c i) :=
      (costs_tick .pass).bind fun _ _ => h i (by omega)
    rw [sum_range_succ', add_comm (∑ _ ∈ range k, _)]
    simp only [Nat.add_zero]
    have e : ∑ j ∈ range k, (one .pass + c (i + (j + 1))) = ∑ j ∈ range k, (one .pass + c (i + 1 + j)) :=
      sum_congr rfl fun j _ => by rw [show i + (j + 1) = i + 1 + j by omega]
    rw [e]
    unfold batchLoop
    simp only
    generalize (do tick .pass; point i : Counted T) = p at hp
    cases hx : p.1 with
    | ok v =>
      simp only
      split
      · refine ⟨fun o => Nat.add_le_add (hp.1 o) ((ih (i + 1) (by omega) (out.set i v)).1 o),
          fun ho o => congrArg₂ (· + ·) (hp.2 v hx o) ((ih (i + 1) (by omega) (out.set i v)).2 ho o)⟩
      · exact ⟨fun o => (hp.1 o).trans (Nat.le_add_right _ _), fun ho => by cases ho⟩
    | err m => exact ⟨fun o => (hp.1 o).trans (Nat.le_add_right _ _), fun ho => by cases ho⟩
    | panic => exact ⟨fun o => (hp.1 o).trans (Nat.le_add_right _ _), fun ho => by cases ho⟩

omit [FloatOps T] in
theorem sum_range_getD (l : List T) (z : T) (g : T → Nat) :
    ∑ j ∈ range l.length, g (l.getD j z) = (l.map g).sum := by
  induction l with
  | nil => rfl
  | cons a l ih =>
    rw [List.length_cons, sum_range_succ', List.map_cons, List.sum_cons, ← ih, add_comm]
    rfl

/-- A batch of one-dimensional observations. -/
theorem charged_eval1D {e : T → Counted T} {r c : Nat} {k : T → Nat}
    (h : ∀ loc, Costs (e loc) (charge 0 r (k loc) c)) (locs out : List T) :
    (∀ o, (eval1D e locs out).2 o ≤
      charge out.length (out.length * r) (locs.map k).sum (out.length * c) o) ∧
    ((eval1D e locs out).1.1 = .ok () → ∀ o, (eval1D e locs out).2 o =
      charge out.length (out.length * r) (locs.map k).sum (out.length * c) o) := by
  unfold eval1D
  split
  · exact ⟨fun _ => Nat.zero_le _, fun h => by cases h⟩
  · next hl =>
    have := batchLoop_sum (point := fun i => do e (← lget locs i))
      (c := fun i => charge 0 r (k (locs.getD i zero)) c) locs.length (fun i hi => by
        refine Costs.bind0 (costs_lift _) fun a ha => ?_
        have ha' : lget locs i = .ok a := ha
        unfold lget at ha'
        rw [List.getElem?_eq_getElem hi] at ha'
        cases ha'
        rw [List.getD_eq_getElem _ _ hi]
        exact h _) locs.length 0 (by omega) out
    have es : ∑ j ∈ range locs.length, (one .pass + charge 0 r (k (locs.getD (0 + j) zero)) c) =
        charge out.length (out.length * r) (locs.map k).sum (out.length * c) := by
      simp only [Nat.zero_add, one_pass, charge_add]
      rw [charge_sum, sum_range_getD]
      simp [not_not.1 hl]
    rw [es] at this
    exact this

theorem RegularGrid1D.at_inside {g : Interpn.RegularGrid1D T} {loc : T} {s : GridSample T}
    (h : g.at loc = .ok s) : s.extrap = .inside ↔ (!(g.stop <. loc) && !(loc <. g.start)) = true := by
  unfold Interpn.RegularGrid1D.at at h
  rw [Res.bind_eq_ok] at h
  obtain ⟨⟨i, ex⟩, h1, h2⟩ := h
  have hs : s.extrap = ex := by
    dsimp only at h2
    cases hf : (ofUsize i : Option T) with
    | none => rw [hf] at h2; cases h2
    | some f =>
      rw [hf] at h2
      simp only [Res.bind_eq_ok] at h2
      obtain ⟨_, _, _, _, _, _, h3⟩ := h2
      cases h3
      rfl
  have he : ex = if g.stop <. loc then Extrap.outsideHigh else if loc <. g.start then .outsideLow
      else .inside := by
    unfold Interpn.RegularGrid1D.index at h1
    dsimp only at h1
    split at h1
    · cases h1
    · rw [Res.bind_eq_ok] at h1
      obtain ⟨_, _, h3⟩ := h1
      cases h3
      rfl
  rw [hs, he]
  cases g.stop <. loc <;> cases loc <. g.start <;> simp

theorem RectilinearGrid1D.at_inside {g : Interpn.RectilinearGrid1D T} {loc : T} {s : GridSample T}
    (h : g.at loc = .ok s) : s.extrap = .inside ↔
      (!(loc <. g.grid.getD 0 zero) && !(g.grid.getD (g.grid.length - 1) zero <. loc)) = true := by
  unfold Interpn.RectilinearGrid1D.at at h
  rw [Res.bind_eq_ok] at h
  obtain ⟨⟨i, ex⟩, h1, h2⟩ := h
  have hs : s.extrap = ex := by
    simp only [Res.bind_eq_ok] at h2
    obtain ⟨_, _, _, _, _, _, _, _, _, _, h3⟩ := h2
    cases h3
    rfl
  have hget : ∀ {k a}, lget g.grid k = .ok a → g.grid.getD k zero = a := by
    intro k a ha
    unfold lget at ha
    rw [List.getD_eq_getElem?_getD]
    cases e : g.grid[k]? with
    | none => rw [e] at ha; cases ha
    | some b => rw [e] at ha; cases ha; rfl
  unfold Interpn.RectilinearGrid1D.index at h1
  simp only [Res.bind_eq_ok] at h1
  obtain ⟨p, -, q, -, a, ha, m, hm, b, hb, h3⟩ := h1
  have hm' : m = g.grid.length - 1 := by
    unfold usub at hm
    split at hm
    · cases hm; rfl
    · cases hm
  rw [hget ha, ← hm', hget hb, hs]
  cases c1 : loc <. a
  · cases c2 : b <. loc
    · simp only [c1, c2, Bool.false_eq_true, if_false, Res.pure_eq, Res.ok_bind, Res.ok.injEq,
        Prod.mk.injEq] at h3
      simp [← h3.2]
    · simp only [c1, c2, Bool.false_eq_true, if_false, if_true, Res.pure_eq, Res.ok_bind, Res.ok.injEq,
        Prod.mk.injEq] at h3
      simp [← h3.2]
  · simp only [c1, if_true, Res.pure_eq, Res.ok_bind, Res.ok.injEq, Prod.mk.injEq] at h3
    simp [← h3.2]

end Interpn.Counted
