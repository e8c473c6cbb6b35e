import Verif.Props.Accuracy
import Verif.Lemmas.ExampleGrids
import Mathlib.Topology.UniformSpace.HeineCantor
import Mathlib.Topology.MetricSpace.Pseudo.Pi
import Mathlib.Topology.Order.Compact

/-! C138: for every continuous function the interpolants of its samples converge to it when the grid
is refined. -/

set_option autoImplicit false
set_option linter.unusedSectionVars false

namespace Interpn

section
variable {K : Type} [Field K] [LinearOrder K] [IsStrictOrderedRing K] [FloorRing K] {N : Nat}

/-- C138: the multilinear error is at most the largest change of the function between the observation
and the corners of its cell. -/
theorem C138_multilinear (e : Evaluator) (he : e.Fits N) (fma : Bool) (G : Axes K N)
    (vals : List K) (hG : G.Valid 2 vals) (F : (Fin N → K) → K)
    (hg : Samples G.size vals fun loc => F fun k => G.node k (loc k)) (x : Fin N → K)
    (hin : ∀ k, InRange (G.size k) (G.node k) (x k)) (c : Fin N → Nat)
    (hc : ∀ k, InCell (G.size k) (G.node k) (x k) (c k)) (ε : K)
    (hF : ∀ loc : Fin N → Nat, (∀ k, loc k = c k ∨ loc k = c k + 1) →
      |F (fun k => G.node k (loc k)) - F x| ≤ ε) :
    ∃ y, multilinearAt e fma G vals x = .ok y ∧ |y - F x| ≤ ε := by
  obtain ⟨y, hy, h1, h2⟩ := C22_range e he fma G vals hG _ hg x
    (hG.inRange_fits le_rfl hin _ (by simp)) hin c hc (F x - ε) (F x + ε) (fun loc hl => by
      have := abs_le.1 (hF loc hl)
      constructor <;> linarith [this.1, this.2])
  exact ⟨y, hy, abs_le.2 ⟨by linarith, by linarith⟩⟩

/-- C138: the multicubic error is at most `(1 + ρ² / (2 (1 + ρ))) ^ N` times the largest change of the
function between the observation and the nodes around its cell. -/
theorem C138_multicubic (e : Evaluator) (he : e.Fits N) (fma : Bool) (G : Axes K N)
    (vals : List K) (lin : Bool) (hG : G.Valid 4 vals) (F : (Fin N → K) → K)
    (hg : Samples G.size vals fun loc => F fun k => G.node k (loc k)) (ρ : K)
    (hρ : ∀ k, MeshRatio (G.size k) (G.node k) ρ) (x : Fin N → K)
    (hin : ∀ k, InRange (G.size k) (G.node k) (x k)) (c : Fin N → Nat)
    (hc : ∀ k, InCell (G.size k) (G.node k) (x k) (c k)) (ε : K)
    (hF : ∀ loc : Fin N → Nat, (∀ k, loc k < G.size k ∧ c k ≤ loc k + 1 ∧ loc k ≤ c k + 2) →
      |F (fun k => G.node k (loc k)) - F x| ≤ ε) :
    ∃ y, multicubicAt e fma G vals lin x = .ok y ∧
      |y - F x| ≤ (1 + ρ ^ 2 / (2 * (1 + ρ))) ^ N * ε := by
  obtain ⟨y, hy, h1⟩ := C63_overshoot e he fma G vals lin hG _ hg ρ hρ x
    (hG.inRange_fits (by omega) hin _ (by simp)) hin c hc (F x - ε) (F x + ε) (fun loc hl => by
      have := abs_le.1 (hF loc hl)
      constructor <;> linarith [this.1, this.2])
  have e1 : (F x - ε + (F x + ε)) / 2 = F x := by ring
  have e2 : (F x + ε - (F x - ε)) / 2 = ε := by ring
  rw [e1, e2] at h1
  exact ⟨y, hy, h1⟩

/-- C138: the nearest-neighbor error is the change of the function between the observation and the
nearest node, which is nowhere further than a cell width in the grid. -/
theorem C138_nearest (fma : Bool) (G : Axes K N) (vals : List K) (hG : G.Valid 2 vals)
    (F : (Fin N → K) → K) (hg : Samples G.size vals fun loc => F fun k => G.node k (loc k))
    (x : Fin N → K) (hin : ∀ k, InRange (G.size k) (G.node k) (x k)) (c : Fin N → Nat)
    (hc : ∀ k, InCell (G.size k) (G.node k) (x k) (c k)) :
    ∃ loc : Fin N → Nat, (∀ k, loc k < G.size k ∧
        2 * |G.node k (loc k) - x k| ≤ G.node k (c k + 1) - G.node k (c k)) ∧
      nearestAt fma G vals x = .ok (F fun k => G.node k (loc k)) := by
  have := fun k => exists_isNearest (hG.big k) (hG.incr k) (x k)
  choose loc hl using this
  refine ⟨loc, fun k => ⟨(hl k).1, ?_⟩, nearestAt_eq fma G vals hG _ hg x
    (hG.inRange_fits le_rfl hin _ (by simp)) loc hl⟩
  obtain ⟨ha, hb⟩ := inRange_of_inCell (hc k) (hin k)
  have h1 := (hl k).2.1 (c k) (by have := (hc k).1; omega)
  have h2 := (hl k).2.1 (c k + 1) (hc k).1
  rw [abs_sub_comm]
  rw [abs_of_nonneg (by linarith : (0 : K) ≤ x k - G.node k (c k))] at h1
  rw [abs_sub_comm (x k) (G.node k (c k + 1)),
    abs_of_nonneg (by linarith : (0 : K) ≤ G.node k (c k + 1) - x k)] at h2
  linarith

end

section
variable {N : Nat}

/-- No cell of the grid is wider than `δ`, and the grid lies in the box from `a` to `b`. -/
structure Refines (G : Axes ℝ N) (a b : Fin N → ℝ) (δ : ℝ) : Prop where
  width : ∀ k i, i + 1 < G.size k → G.node k (i + 1) - G.node k i ≤ δ
  lower : ∀ k, a k ≤ G.node k 0
  upper : ∀ k, G.node k (G.size k - 1) ≤ b k

/-- Uniform continuity on a box. -/
theorem box_modulus (a b : Fin N → ℝ) (F : (Fin N → ℝ) → ℝ) (hF : ContinuousOn F (Set.Icc a b))
    (ε : ℝ) (hε : 0 < ε) : ∃ δ > 0, ∀ y ∈ Set.Icc a b, ∀ z ∈ Set.Icc a b,
      (∀ k, |y k - z k| ≤ δ) → |F y - F z| ≤ ε := by
  obtain ⟨δ, hδ, h⟩ := Metric.uniformContinuousOn_iff_le.1
    (isCompact_Icc.uniformContinuousOn_of_continuous hF) ε hε
  refine ⟨δ, hδ, fun y hy z hz hd => ?_⟩
  have := h y hy z hz ((dist_pi_le_iff hδ.le).2 fun k => by rw [Real.dist_eq]; exact hd k)
  rwa [Real.dist_eq] at this

theorem Refines.mem {G : Axes ℝ N} {a b : Fin N → ℝ} {δ : ℝ} (h : Refines G a b δ) {y : Fin N → ℝ}
    (hy : ∀ k, InRange (G.size k) (G.node k) (y k)) : y ∈ Set.Icc a b :=
  ⟨fun k => (h.lower k).trans (hy k).1, fun k => (hy k).2.trans (h.upper k)⟩

theorem node_inRange {G : Axes ℝ N} {m : Nat} {vals : List ℝ} (hG : G.Valid m vals) {k : Fin N}
    {i : Nat} (h : i < G.size k) : InRange (G.size k) (G.node k) (G.node k i) :=
  ⟨(hG.incr k).le (by omega) h, (hG.incr k).le (by omega) (by omega)⟩

/-- C138: multilinear interpolants of a continuous function converge to it, uniformly over all
grids in the box and all observations in the grid. -/
theorem C138_converges_multilinear (a b : Fin N → ℝ) (F : (Fin N → ℝ) → ℝ)
    (hF : ContinuousOn F (Set.Icc a b)) (ε : ℝ) (hε : 0 < ε) :
    ∃ δ > 0, ∀ (e : Evaluator) (_ : e.Fits N) (fma : Bool) (G : Axes ℝ N) (vals : List ℝ),
      G.Valid 2 vals → Refines G a b δ →
      (Samples G.size vals fun loc => F fun k => G.node k (loc k)) →
      ∀ x : Fin N → ℝ, (∀ k, InRange (G.size k) (G.node k) (x k)) →
        ∃ y, multilinearAt e fma G vals x = .ok y ∧ |y - F x| ≤ ε := by
  obtain ⟨δ, hδ, h⟩ := box_modulus a b F hF ε hε
  refine ⟨δ, hδ, fun e he fma G vals hG hr hg x hin => ?_⟩
  obtain ⟨c, hc⟩ := hG.cells le_rfl x
  refine C138_multilinear e he fma G vals hG F hg x hin c hc ε fun loc hl => ?_
  refine h _ (hr.mem fun k => node_inRange hG (by have := (hc k).1; have := hl k; omega)) _
    (hr.mem hin) fun k => ?_
  obtain ⟨ha, hb⟩ := inRange_of_inCell (hc k) (hin k)
  have hw := hr.width k (c k) (hc k).1
  rw [abs_le]
  rcases hl k with h | h <;> simp only [h] <;> constructor <;> linarith

/-- C138: multicubic interpolants of a continuous function converge to it, uniformly over all grids
in the box whose adjacent cells have ratios of at most `ρ`. -/
theorem C138_converges_multicubic (a b : Fin N → ℝ) (F : (Fin N → ℝ) → ℝ)
    (hF : ContinuousOn F (Set.Icc a b)) (ρ : ℝ) (hρ0 : 0 < ρ) (ε : ℝ) (hε : 0 < ε) :
    ∃ δ > 0, ∀ (e : Evaluator) (_ : e.Fits N) (fma lin : Bool) (G : Axes ℝ N) (vals : List ℝ),
      G.Valid 4 vals → Refines G a b δ → (∀ k, MeshRatio (G.size k) (G.node k) ρ) →
      (Samples G.size vals fun loc => F fun k => G.node k (loc k)) →
      ∀ x : Fin N → ℝ, (∀ k, InRange (G.size k) (G.node k) (x k)) →
        ∃ y, multicubicAt e fma G vals lin x = .ok y ∧ |y - F x| ≤ ε := by
  have hΛ : (0 : ℝ) < (1 + ρ ^ 2 / (2 * (1 + ρ))) ^ N := by positivity
  obtain ⟨δ, hδ, h⟩ := box_modulus a b F hF (ε / (1 + ρ ^ 2 / (2 * (1 + ρ))) ^ N) (by positivity)
  refine ⟨δ / 2, by positivity, fun e he fma lin G vals hG hr hρ hg x hin => ?_⟩
  obtain ⟨c, hc⟩ := hG.cells (by omega) x
  obtain ⟨y, hy, hb⟩ := C138_multicubic e he fma G vals lin hG F hg ρ hρ x hin c hc
    (ε / (1 + ρ ^ 2 / (2 * (1 + ρ))) ^ N) fun loc hl => by
      refine h _ (hr.mem fun k => node_inRange hG (hl k).1) _ (hr.mem hin) fun k => ?_
      obtain ⟨ha, hb⟩ := inRange_of_inCell (hc k) (hin k)
      have hc1 := (hc k).1
      have hw := hr.width k (c k) hc1
      obtain ⟨h0, h1, h2⟩ := hl k
      rw [abs_le]
      rcases (show loc k + 1 = c k ∨ loc k = c k ∨ loc k = c k + 1 ∨ loc k = c k + 2 by omega) with
        h | h | h | h
      · have hw' := hr.width k (loc k) (by omega)
        have hi := (hG.incr k).lt (i := loc k) (j := c k) (by omega) (by omega)
        rw [h] at hw'
        constructor <;> linarith
      · simp only [h]; constructor <;> linarith
      · simp only [h]; constructor <;> linarith
      · have hw' := hr.width k (c k + 1) (by omega)
        have hi := (hG.incr k).lt (i := c k + 1) (j := loc k) (by omega) h0
        rw [show c k + 1 + 1 = loc k by omega] at hw'
        constructor <;> linarith
  refine ⟨y, hy, hb.trans_eq ?_⟩
  field_simp

/-- C138: nearest-neighbor results of a continuous function converge to it. -/
theorem C138_converges_nearest (a b : Fin N → ℝ) (F : (Fin N → ℝ) → ℝ)
    (hF : ContinuousOn F (Set.Icc a b)) (ε : ℝ) (hε : 0 < ε) :
    ∃ δ > 0, ∀ (fma : Bool) (G : Axes ℝ N) (vals : List ℝ), G.Valid 2 vals → Refines G a b δ →
      (Samples G.size vals fun loc => F fun k => G.node k (loc k)) →
      ∀ x : Fin N → ℝ, (∀ k, InRange (G.size k) (G.node k) (x k)) →
        ∃ y, nearestAt fma G vals x = .ok y ∧ |y - F x| ≤ ε := by
  obtain ⟨δ, hδ, h⟩ := box_modulus a b F hF ε hε
  refine ⟨δ, hδ, fun fma G vals hG hr hg x hin => ?_⟩
  obtain ⟨c, hc⟩ := hG.cells le_rfl x
  obtain ⟨loc, hl, hy⟩ := C138_nearest fma G vals hG F hg x hin c hc
  refine ⟨_, hy, h _ (hr.mem fun k => node_inRange hG (hl k).1) _ (hr.mem hin) fun k => ?_⟩
  have hw := hr.width k (c k) (hc k).1
  have h0 := abs_nonneg (G.node k (loc k) - x k)
  have := (hl k).2
  linarith

end

/-! ### Concrete cases -/

/-- The hypotheses of the convergence theorems for `|x - 1/3|`, which has a kink between nodes, on
grids of `n` cells in the unit interval. -/
example (n : Nat) (h3 : 3 ≤ n) (hn : n ≤ 10 ^ 6) :
    let G : Axes ℝ 1 := .regular (fun _ => n + 1) (fun _ => 0) fun _ => 1 / n
    let F : (Fin 1 → ℝ) → ℝ := fun x => |x 0 - 1 / 3|
    let vals : List ℝ := (List.range (n + 1)).map fun i : Nat => |1 / (n : ℝ) * i - 1 / 3|
    G.Valid 4 vals ∧ Refines G (fun _ => 0) (fun _ => 1) (1 / n) ∧
      (∀ k, MeshRatio (G.size k) (G.node k) 1) ∧
      (Samples G.size vals fun loc => F fun k => G.node k (loc k)) ∧
      ContinuousOn F (Set.Icc (fun _ => 0) fun _ => 1) := by
  intro G F vals
  have hn0 : (0 : ℝ) < n := by exact_mod_cast (by omega : 0 < n)
  refine ⟨⟨?_, by simp [G, Axes.size, vals], ?_, ?_⟩, ⟨?_, ?_, ?_⟩, ?_, ?_, ?_⟩
  · unfold IsSlice; simp [vals]; omega
  · intro k; simp [G, Axes.size]; omega
  · intro k i hi
    simp only [G, Axes.node]
    push_cast
    have : (0 : ℝ) < 1 / n := by positivity
    linarith
  · intro k i hi
    simp only [G, Axes.node]
    push_cast
    linarith
  · intro k; simp [G, Axes.node]
  · intro k
    simp only [G, Axes.node, Axes.size, Nat.add_sub_cancel]
    rw [zero_add, one_div, inv_mul_cancel₀ hn0.ne']
  · exact meshRatio_regular _ _ _
  · intro loc hl
    have h0 : loc 0 < n + 1 := hl 0
    have e : cIndex G.size loc = loc 0 := by simp [cIndex, Fin.last]
    rw [e]
    simp only [vals, F, G, Axes.node, List.getElem?_map, List.getElem?_range h0, Option.map_some,
      zero_add]
  · exact (Continuous.abs (by fun_prop)).continuousOn

section Examples
attribute [local instance] ratOps

/-- `|x - 1/3|` on five nodes at `x = 1/3`: the corners of the cell are off by at most 1/6, the nodes
around it by at most 5/12. -/
example :
    let G : Axes ℚ 1 := .regular (fun _ => 5) (fun _ => 0) fun _ => 1/4
    let vals : List ℚ := [1/3, 1/12, 1/6, 5/12, 2/3]
    G.Valid 4 vals ∧ (∀ k, InRange (G.size k) (G.node k) (1/3)) ∧
      (∀ k, InCell (G.size k) (G.node k) (1/3) 1) ∧
      (∀ i < 5, vals.getD i 0 = |G.node 0 i - 1/3|) ∧
      multilinearAt .flat false G vals (fun _ => 1/3) = .ok (1/9) ∧ (1/9 : ℚ) ≤ 1/6 ∧
      nearestAt false G vals (fun _ => 1/3) = .ok (1/12) := by
  intro G vals
  refine ⟨valid_of_check ?_, ?_⟩ <;> decide +kernel

end Examples

end Interpn
