import Verif.Lemmas.Integral
import Verif.Lemmas.ExactCore
import Verif.Props.Smooth
import Mathlib.Tactic.NormNum

/-! C132: integrals of the interpolants over the grid. -/

set_option autoImplicit false
set_option linter.unusedSectionVars false

namespace Interpn

open MeasureTheory Set

section
variable {N : Nat}

theorem Axes.inRange_of_mem {G : Axes ℝ N} {x : Fin N → ℝ} (hx : x ∈ Icc G.lower G.upper) (k : Fin N) :
    InRange (G.size k) (G.node k) (x k) := ⟨hx.1 k, hx.2 k⟩

/-- C132: the integral over the whole grid of the multilinear interpolant is the trapezoid rule
applied to the table along every axis. -/
theorem C132_multilinear (e : Evaluator) (he : e.Fits N) (fma : Bool) (G : Axes ℝ N)
    (vals : List ℝ) (hG : G.Valid 2 vals) (g : (Fin N → Nat) → ℝ) (hg : Samples G.size vals g)
    (F : (Fin N → ℝ) → ℝ)
    (hF : ∀ x ∈ Icc G.lower G.upper, multilinearAt e fma G vals x = .ok (F x)) :
    IntegrableOn F (Icc G.lower G.upper) ∧
      ∫ x in Icc G.lower G.upper, F x =
        axisByAxis (fun k f => trapezoid (G.size k) (G.node k) f) g := by
  have hv := fun k => linFn_integral (hG.big k) (hG.incr k)
  have h := integral_axisByAxis (n := G.size) (a := G.lower) (b := G.upper)
    (φ := fun k f t => linFn (G.size k) (G.node k) f t)
    (fun k x => linPiece_linear (someCell_inCell (p := G.node k) (hG.big k) x).1)
    (fun k f => (hv k f).1) g (F := F) (by
      intro x hx
      have hcell : ∀ k, InCell (G.size k) (G.node k) (x k) (someCell (G.size k) (G.node k) (x k)) :=
        fun k => someCell_inCell (hG.big k) (x k)
      have := hF x hx
      rw [multilinearAt_eq e he fma G vals hG g hg x
        (hG.inRange_fits le_rfl (Axes.inRange_of_mem hx) _ (by decide)) _ hcell] at this
      exact (Res.ok.inj this).symm)
  refine ⟨h.1, h.2.trans ?_⟩
  congr 1
  funext k f
  exact (hv k f).2

/-- C132: the integral of the multicubic interpolant is the trapezoid rule with a correction on
every cell, applied along every axis. -/
theorem C132_multicubic (e : Evaluator) (he : e.Fits N) (fma : Bool) (G : Axes ℝ N)
    (vals : List ℝ) (lin : Bool) (hG : G.Valid 4 vals) (g : (Fin N → Nat) → ℝ)
    (hg : Samples G.size vals g) (F : (Fin N → ℝ) → ℝ)
    (hF : ∀ x ∈ Icc G.lower G.upper, multicubicAt e fma G vals lin x = .ok (F x)) :
    IntegrableOn F (Icc G.lower G.upper) ∧
      ∫ x in Icc G.lower G.upper, F x =
        axisByAxis (fun k f => correctedTrapezoid (G.size k) (G.node k) f) g := by
  have h2 : ∀ k, 2 ≤ G.size k := fun k => le_trans (by omega) (hG.big k)
  have hv := fun k => cubicFn_integral (h2 k) (hG.incr k) lin
  have h := integral_axisByAxis (n := G.size) (a := G.lower) (b := G.upper)
    (φ := fun k f t => cubicFn (G.size k) (G.node k) f lin t)
    (fun k x => cubicPiece_linear (hG.big k) lin (someCell_inCell (p := G.node k) (h2 k) x).1)
    (fun k f => (hv k f).1) g (F := F) (by
      intro x hx
      have hcell : ∀ k, InCell (G.size k) (G.node k) (x k) (someCell (G.size k) (G.node k) (x k)) :=
        fun k => someCell_inCell (h2 k) (x k)
      have := hF x hx
      rw [multicubicAt_eq e he fma G vals lin hG g hg x
        (hG.inRange_fits (by omega) (Axes.inRange_of_mem hx) _ (by decide)) _ hcell] at this
      exact (Res.ok.inj this).symm)
  refine ⟨h.1, h.2.trans ?_⟩
  congr 1
  funext k f
  exact (hv k f).2

/-- C132: on a regular grid the corrections cancel except at the ends of each axis, where the
weights of the three outermost nodes become `3/8, 7/6, 23/24` steps. -/
theorem C132_multicubic_regular (e : Evaluator) (he : e.Fits N) (fma : Bool) (dims : Fin N → Nat)
    (starts steps : Fin N → ℝ) (vals : List ℝ) (lin : Bool)
    (hG : (Axes.regular dims starts steps).Valid 4 vals) (g : (Fin N → Nat) → ℝ)
    (hg : Samples dims vals g) (F : (Fin N → ℝ) → ℝ)
    (hF : ∀ x ∈ Icc starts (fun k => starts k + steps k * (dims k - 1 : Nat)),
      multicubicAt e fma (.regular dims starts steps) vals lin x = .ok (F x)) :
    ∫ x in Icc starts (fun k => starts k + steps k * (dims k - 1 : Nat)), F x =
      axisByAxis (fun k f => gregory (dims k) (steps k) f) g := by
  have hlo : (Axes.regular dims starts steps).lower = starts := by
    funext k
    simp [Axes.lower, Axes.node]
  have hs : ∀ k, steps k ≠ 0 := by
    intro k h0
    have := hG.incr k 0 (by have := hG.big k; omega)
    simp [Axes.node, h0] at this
  have h := (C132_multicubic e he fma (.regular dims starts steps) vals lin hG g hg F
    (by rw [hlo]; exact hF)).2
  rw [hlo] at h
  refine h.trans ?_
  congr 1
  funext k f
  exact correctedTrapezoid_uniform (hG.big k) (hs k) (fun _ => rfl) f

/-- C132: the integral of the nearest-neighbor interpolant is the trapezoid rule as well. -/
theorem C132_nearest (fma : Bool) (G : Axes ℝ N) (vals : List ℝ) (hG : G.Valid 2 vals)
    (g : (Fin N → Nat) → ℝ) (hg : Samples G.size vals g) (F : (Fin N → ℝ) → ℝ)
    (hF : ∀ x ∈ Icc G.lower G.upper, nearestAt fma G vals x = .ok (F x)) :
    IntegrableOn F (Icc G.lower G.upper) ∧
      ∫ x in Icc G.lower G.upper, F x =
        axisByAxis (fun k f => trapezoid (G.size k) (G.node k) f) g := by
  have hv := fun k => nearest_integral (hG.big k) (hG.incr k)
  have h := integral_axisByAxis (n := G.size) (a := G.lower) (b := G.upper)
    (φ := fun k f t => f (someNearest (G.size k) (G.node k) t))
    (fun k x => ⟨fun f f' h => h _ (someNearest_isNearest (hG.big k) (hG.incr k) x).1,
      fun _ _ => rfl, fun _ _ => rfl⟩)
    (fun k f => (hv k f).1) g (F := F) (by
      intro x hx
      have := hF x hx
      rw [nearestAt_eq fma G vals hG g hg x
        (hG.inRange_fits le_rfl (Axes.inRange_of_mem hx) _ (by decide)) _
        fun k => someNearest_isNearest (hG.big k) (hG.incr k) (x k)] at this
      rw [axisByAxis_eval _ _ (fun k => someNearest (G.size k) (G.node k) (x k)) fun _ _ => rfl]
      exact (Res.ok.inj this).symm)
  refine ⟨h.1, h.2.trans ?_⟩
  congr 1
  funext k f
  exact (hv k f).2

end

section
variable {G : Axes ℝ 1} {vals : List ℝ}

/-- Integration rule that belongs to each kind of one-dimensional interpolator: left and right
sums for the two step functions, the trapezoid rule for the others. -/
noncomputable def Kind1D.rule (n : Nat) (p f : Nat → ℝ) : Kind1D → ℝ
  | .left => ∑ i ∈ Finset.range (n - 1), (p (i + 1) - p i) * f i
  | .right => ∑ i ∈ Finset.range (n - 1), (p (i + 1) - p i) * f (i + 1)
  | .linear | .linearHoldLast | .nearest =>
    ∑ i ∈ Finset.range (n - 1), (p (i + 1) - p i) * ((f i + f (i + 1)) / 2)

/-- C132: the integrals of the one-dimensional interpolators over the grid. -/
theorem C132_one_dim (kind : Kind1D) (fma : Bool) (hG : G.Valid 2 vals) (F : ℝ → ℝ)
    (hF : ∀ x, InRange (G.size 0) (G.node 0) x → interp1DAt kind fma G vals x = .ok (F x)) :
    IntegrableOn F (Icc (G.node 0 0) (G.node 0 (G.size 0 - 1))) ∧
      ∫ x in Icc (G.node 0 0) (G.node 0 (G.size 0 - 1)), F x =
        kind.rule (G.size 0) (G.node 0) fun i => vals.getD i 0 := by
  have hn := hG.big 0
  have hi := hG.incr 0
  have hfit : ∀ x, InRange (G.size 0) (G.node 0) x → G.Representable fun _ => x := fun x hx =>
    hG.inRange_fits le_rfl (x := fun _ => x)
      (fun k => by rw [Subsingleton.elim k 0]; exact hx) _ (by decide)
  have hcong : ∀ {φ : ℝ → ℝ} {I : ℝ}, (∀ x, InRange (G.size 0) (G.node 0) x → F x = φ x) →
      (IntegrableOn φ (Icc (G.node 0 0) (G.node 0 (G.size 0 - 1))) ∧
        ∫ x in Icc (G.node 0 0) (G.node 0 (G.size 0 - 1)), φ x = I) →
      IntegrableOn F (Icc (G.node 0 0) (G.node 0 (G.size 0 - 1))) ∧
        ∫ x in Icc (G.node 0 0) (G.node 0 (G.size 0 - 1)), F x = I := by
    intro φ I h h'
    have hE : EqOn F φ (Icc (G.node 0 0) (G.node 0 (G.size 0 - 1))) := fun x hx => h x ⟨hx.1, hx.2⟩
    exact ⟨h'.1.congr_fun hE.symm measurableSet_Icc,
      (setIntegral_congr_fun measurableSet_Icc hE).trans h'.2⟩
  have hlin : (∀ x, InRange (G.size 0) (G.node 0) x → interp1DAt .linear fma G vals x = .ok (F x)) →
      IntegrableOn F (Icc (G.node 0 0) (G.node 0 (G.size 0 - 1))) ∧
      ∫ x in Icc (G.node 0 0) (G.node 0 (G.size 0 - 1)), F x =
        trapezoid (G.size 0) (G.node 0) fun i => vals.getD i 0 := by
    intro hF
    refine hcong (fun x hx => ?_) (linFn_integral hn hi _)
    have := hF x hx
    rw [interp1DAt_linear fma hG x (hfit x hx) (someCell_inCell hn x)] at this
    exact (Res.ok.inj this).symm
  have hstep : ∀ I : Nat → ℝ,
      (∀ i, i + 1 < G.size 0 → ∀ x ∈ Ioo (G.node 0 i) (G.node 0 (i + 1)), F x = I i) →
      IntegrableOn F (Icc (G.node 0 0) (G.node 0 (G.size 0 - 1))) ∧
      ∫ x in Icc (G.node 0 0) (G.node 0 (G.size 0 - 1)), F x =
        ∑ i ∈ Finset.range (G.size 0 - 1), (G.node 0 (i + 1) - G.node 0 i) * I i := by
    intro I h
    exact integral_cells hn hi fun i hi' =>
      integral_const_on (hi.lt (Nat.lt_succ_self i) hi').le (h i hi')
  have hopen : ∀ i, i + 1 < G.size 0 → ∀ x ∈ Ioo (G.node 0 i) (G.node 0 (i + 1)),
      InRange (G.size 0) (G.node 0) x := fun i h x hx =>
    ⟨(hi.le (Nat.zero_le i) (by omega)).trans hx.1.le, hx.2.le.trans (hi.le (by omega) (by omega))⟩
  cases kind with
  | linear => exact hlin hF
  | linearHoldLast =>
    exact hlin fun x hx => ((C41_cases fma hG x (hfit x hx)).2.2 hx).symm.trans (hF x hx)
  | nearest =>
    refine hcong (fun x hx => ?_) (nearest_integral hn hi _)
    have := hF x hx
    rw [C43_nearest fma hG x (hfit x hx) _ (someNearest_isNearest hn hi x)] at this
    exact (Res.ok.inj this).symm
  | left =>
    refine hstep _ fun i h x hx => ?_
    have hr := hopen i h x hx
    refine (Res.ok.inj (Eq.trans ?_ (hF x hr))).symm
    cases G with
    | regular dims starts steps =>
      exact ((C42_left_regular fma hG x (hfit x hr)).2.1 i h hx.1.le hx.2).symm
    | rectilinear grids =>
      exact ((C42_left_rectilinear fma hG x).2.1 i h hx.1 hx.2.le).symm
  | right =>
    refine hstep _ fun i h x hx => ?_
    have hr := hopen i h x hx
    refine (Res.ok.inj (Eq.trans ?_ (hF x hr))).symm
    cases G with
    | regular dims starts steps =>
      exact ((C42_right_regular fma hG x (hfit x hr)).2.1 i h hx.1.le hx.2).symm
    | rectilinear grids =>
      exact ((C42_right_rectilinear fma hG x).2.2.1 i h hx.1 hx.2.le).symm

end

section Examples

/-- An uneven 3×2 grid. -/
noncomputable def exIntegralGrid : Axes ℝ 2 := .rectilinear ![[0, 1, 4], [1, 3]]

noncomputable def exIntegralVals : List ℝ := [2, 6, 6, 16, 10, 26]

theorem exIntegral_valid : exIntegralGrid.Valid 2 exIntegralVals := by
  refine ⟨by unfold IsSlice; simp [exIntegralVals], by simp [Axes.size, exIntegralGrid,
    exIntegralVals], ?_, ?_⟩
  · intro k; fin_cases k <;> simp [Axes.size, exIntegralGrid]
  · intro k i hi
    fin_cases k
    · simp only [Axes.size, exIntegralGrid] at hi
      have : i = 0 ∨ i = 1 := by simp at hi; omega
      rcases this with rfl | rfl <;> norm_num [Axes.node, exIntegralGrid]
    · simp only [Axes.size, exIntegralGrid] at hi
      have : i = 0 := by simp at hi; omega
      subst this
      norm_num [Axes.node, exIntegralGrid]

/-- The integral of the bilinear interpolant of a table on the uneven grid. -/
example : ∃ F : (Fin 2 → ℝ) → ℝ,
    (∀ x ∈ Icc exIntegralGrid.lower exIntegralGrid.upper,
      multilinearAt .flat false exIntegralGrid exIntegralVals x = .ok (F x)) ∧
    ∫ x in Icc exIntegralGrid.lower exIntegralGrid.upper, F x = 102 := by
  obtain ⟨F, _, hF⟩ := C23_continuous exIntegralGrid exIntegralVals exIntegral_valid
  have hF' : ∀ x ∈ Icc exIntegralGrid.lower exIntegralGrid.upper,
      multilinearAt .flat false exIntegralGrid exIntegralVals x = .ok (F x) :=
    fun x _ => hF .flat false x Nat.two_pos trivial
  refine ⟨F, hF', ?_⟩
  rw [(C132_multilinear .flat Nat.two_pos false exIntegralGrid exIntegralVals exIntegral_valid
    (valAt (0 : ℝ) exIntegralGrid.size exIntegralVals)
    (samples_valAt (0 : ℝ) _ _ exIntegral_valid.len) F hF').2]
  norm_num [axisByAxis, trapezoid, Finset.sum_range_succ, Axes.size, Axes.node, exIntegralGrid,
    exIntegralVals, valAt, cIndex, Fin.snoc, show Fin.last 1 = (1 : Fin 2) from rfl]

/-- The nearest-neighbor interpolant of the same table has the same integral. -/
example : ∃ F : (Fin 2 → ℝ) → ℝ,
    (∀ x ∈ Icc exIntegralGrid.lower exIntegralGrid.upper,
      nearestAt false exIntegralGrid exIntegralVals x = .ok (F x)) ∧
    ∫ x in Icc exIntegralGrid.lower exIntegralGrid.upper, F x = 102 := by
  have hs := samples_valAt (0 : ℝ) _ _ exIntegral_valid.len
  have hF' := fun (x : Fin 2 → ℝ) (_ : x ∈ Icc exIntegralGrid.lower exIntegralGrid.upper) =>
    nearestAt_eq false exIntegralGrid exIntegralVals exIntegral_valid _ hs x trivial _
      fun k => someNearest_isNearest (exIntegral_valid.big k) (exIntegral_valid.incr k) (x k)
  refine ⟨_, hF', ?_⟩
  rw [(C132_nearest false exIntegralGrid exIntegralVals exIntegral_valid _ hs _ hF').2]
  norm_num [axisByAxis, trapezoid, Finset.sum_range_succ, Axes.size, Axes.node, exIntegralGrid,
    exIntegralVals, valAt, cIndex, Fin.snoc, show Fin.last 1 = (1 : Fin 2) from rfl]

/-- The cubic interpolant of five fourth powers one apart. -/
example : ∃ F : (Fin 1 → ℝ) → ℝ,
    (∀ x ∈ Icc (fun _ => 0) (fun _ => (0 : ℝ) + 1 * (5 - 1 : Nat)),
      multicubicAt .flat false (.regular (fun _ => 5) (fun _ => 0) (fun _ => 1)) [0, 1, 16, 81, 256]
        true x = .ok (F x)) ∧
    ∫ x in Icc (fun _ => 0) (fun _ => (0 : ℝ) + 1 * (5 - 1 : Nat)), F x = 619 / 3 := by
  have hG : (Axes.regular (fun _ => 5) (fun _ => 0) (fun _ => 1) : Axes ℝ 1).Valid 4
      [0, 1, 16, 81, 256] :=
    ⟨by unfold IsSlice; simp, by simp [Axes.size], fun _ => by simp [Axes.size],
      fun _ _ _ => by simp [Axes.node]⟩
  obtain ⟨F, _, hF⟩ := C33_contDiff _ _ true hG
  have hF' : ∀ x ∈ Icc (fun _ => 0) (fun _ => (0 : ℝ) + 1 * (5 - 1 : Nat)),
      multicubicAt .flat false (.regular (fun _ => 5) (fun _ => 0) (fun _ => 1)) [0, 1, 16, 81, 256]
        true x = .ok (F x) := by
    intro x hx
    refine hF .flat false x Nat.one_pos (hG.inRange_fits (by omega) (fun k => ⟨?_, ?_⟩) _ (by decide))
    · simpa [Axes.node] using hx.1 k
    · simpa [Axes.node, Axes.size] using hx.2 k
  refine ⟨F, hF', ?_⟩
  rw [C132_multicubic_regular .flat Nat.one_pos false _ _ _ _ true hG _
    (samples_valAt (0 : ℝ) _ _ hG.len) F hF']
  norm_num [axisByAxis, gregory, Finset.sum_range_succ, Axes.size, valAt, cIndex, Fin.snoc]

/-- Five cubes `x³` one apart: the end-corrected rule gives `64`, the integral of `x³` from 0 to 4
(the cubic end cells are off by amounts that cancel). -/
example : gregory 5 1 (fun i => ((i : ℝ)) ^ 3) = 64 := by
  norm_num [gregory, Finset.sum_range_succ]

/-- With four nodes it is Simpson's 3/8 rule. -/
example (f : Nat → ℝ) (h : ℝ) : gregory 4 h f = 3 * h / 8 * (f 0 + 3 * f 1 + 3 * f 2 + f 3) := by
  norm_num [gregory, Finset.sum_range_succ]
  ring

/-- The three rules of the one-dimensional interpolators differ. -/
example :
    let p : Nat → ℝ := fun i => ([0, 1, 4] : List ℝ).getD i 0
    let f : Nat → ℝ := fun i => ([2, 6, 10] : List ℝ).getD i 0
    Kind1D.left.rule 3 p f = 20 ∧ Kind1D.linear.rule 3 p f = 28 ∧ Kind1D.right.rule 3 p f = 36 := by
  norm_num [Kind1D.rule, Finset.sum_range_succ]

end Examples

end Interpn
