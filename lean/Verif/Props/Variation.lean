import Verif.Lemmas.Variation
import Verif.Props.Accuracy
import Verif.Props.MulticubicExact
import Verif.Lemmas.ExampleGrids
import Verif.Lemmas.RatOps
import Mathlib.Tactic.FinCases
import Mathlib.Tactic.IntervalCases
import Mathlib.Tactic.NormNum

/-! C136: interpolation along an axis does not oscillate more than the table. -/

set_option autoImplicit false
set_option linter.unusedSectionVars false

namespace Interpn

section
variable {K : Type} [Field K] [LinearOrder K] [IsStrictOrderedRing K] [FloorRing K] {N : Nat}

/-- Cells of a point moved along axis `j`. -/
theorem sweep_cells {G : Axes K N} {c : Fin N → Nat} {x : Fin N → K}
    (hc : ∀ k, InCell (G.size k) (G.node k) (x k) (c k)) {j : Fin N} {z : K} {d : Nat}
    (hd : InCell (G.size j) (G.node j) z d) (k : Fin N) :
    InCell (G.size k) (G.node k) (Function.update x j z k) (Function.update c j d k) := by
  by_cases h : k = j
  · subst h; simpa using hd
  · simpa [h] using hc k

theorem sweep_inRange {G : Axes K N} {x : Fin N → K} (hx : ∀ k, InRange (G.size k) (G.node k) (x k))
    {j : Fin N} {z : K} (hz : InRange (G.size j) (G.node j) z) (k : Fin N) :
    InRange (G.size k) (G.node k) (Function.update x j z k) := by
  by_cases h : k = j
  · subst h; simpa using hz
  · simpa [h] using hx k

/-- C136, multilinear: let an observation move up along axis `j` through the points `z 0 ≤ … ≤ z m`
of the grid. If the values change by no more than `V` in total along any line of the table parallel
to the axis, so do the results. -/
theorem C136_multilinear (e : Evaluator) (he : e.Fits N) (fma : Bool) (G : Axes K N) (vals : List K)
    (hG : G.Valid 2 vals) (g : (Fin N → Nat) → K) (hg : Samples G.size vals g) (j : Fin N) (V : K)
    (hV : ∀ loc : Fin N → Nat, (∀ k, loc k < G.size k) → ∑ i ∈ Finset.range (G.size j - 1),
      |g (Function.update loc j (i + 1)) - g (Function.update loc j i)| ≤ V)
    (x : Fin N → K) (hx : ∀ k, InRange (G.size k) (G.node k) (x k)) (m : Nat) (z : Nat → K)
    (hz : ∀ i < m, z i ≤ z (i + 1)) (hin : ∀ i ≤ m, InRange (G.size j) (G.node j) (z i)) :
    ∃ y : Nat → K, (∀ i ≤ m, multilinearAt e fma G vals (Function.update x j (z i)) = .ok (y i)) ∧
      ∑ i ∈ Finset.range m, |y (i + 1) - y i| ≤ V := by
  obtain ⟨c, hc⟩ := hG.cells le_rfl x
  choose d hd using fun i => exists_inCell (p := G.node j) (hG.big j) (z i)
  refine ⟨fun i => axisByAxis (Function.update (fun k f => linPiece (G.node k) f (c k) (x k)) j
    fun f => linPiece (G.node j) f (d i) (z i)) g, fun i hi => ?_, ?_⟩
  · rw [multilinearAt_eq e he fma G vals hG g hg _
      (hG.inRange_fits le_rfl (sweep_inRange hx (hin i hi)) _ (by decide)) _
      (sweep_cells hc (hd i))]
    congr 2
    funext k
    by_cases h : k = j
    · subst h; simp
    · simp [h]
  · have := axisByAxis_variation (Λ := (1 : K)) (C := 1) zero_le_one (n := G.size)
      (fun k => by have := hG.big k; omega)
      (fun k f => linPiece (G.node k) f (c k) (x k)) (fun k => linPiece_linear (hc k).1)
      (fun k f ε hf => by
        rw [one_mul]
        obtain ⟨t0, t1⟩ := weight_mem (hG.incr k) (hc k) (hx k)
        have h1 := abs_le.1 (hf (c k) (by have := (hc k).1; omega))
        have h2 := abs_le.1 (hf (c k + 1) (hc k).1)
        rw [linPiece_weights, abs_le]
        have a1 := mul_le_mul_of_nonneg_left h1.1 (sub_nonneg.2 t1)
        have a2 := mul_le_mul_of_nonneg_left h1.2 (sub_nonneg.2 t1)
        have a3 := mul_le_mul_of_nonneg_left h2.1 t0
        have a4 := mul_le_mul_of_nonneg_left h2.2 t0
        constructor <;> linarith) j (m := m)
      (fun i f => linPiece (G.node j) f (d i) (z i)) (fun i _ => linPiece_linear (hd i).1)
      (fun f => by
        rw [one_mul]
        exact linPiece_variation (hG.incr j) f z d hz (fun i _ => hd i) hin) zero_le_one g V hV
    rwa [one_pow, one_mul, one_mul] at this

/-- C136, nearest neighbor: the same, also for points outside the grid. -/
theorem C136_nearest (fma : Bool) (G : Axes K N) (vals : List K) (hG : G.Valid 2 vals)
    (g : (Fin N → Nat) → K) (hg : Samples G.size vals g) (j : Fin N) (V : K)
    (hV : ∀ loc : Fin N → Nat, (∀ k, loc k < G.size k) → ∑ i ∈ Finset.range (G.size j - 1),
      |g (Function.update loc j (i + 1)) - g (Function.update loc j i)| ≤ V)
    (x : Fin N → K) (m : Nat) (z : Nat → K) (hz : ∀ i < m, z i ≤ z (i + 1))
    (hx : ∀ i ≤ m, G.Representable (Function.update x j (z i))) :
    ∃ y : Nat → K, (∀ i ≤ m, nearestAt fma G vals (Function.update x j (z i)) = .ok (y i)) ∧
      ∑ i ∈ Finset.range m, |y (i + 1) - y i| ≤ V := by
  choose c hc using fun k => exists_isNearest (hG.big k) (hG.incr k) (x k)
  choose d hd using fun i => exists_isNearest (hG.big j) (hG.incr j) (z i)
  refine ⟨fun i => g (Function.update c j (d i)), fun i hi => ?_, ?_⟩
  · refine nearestAt_eq fma G vals hG g hg _ (hx i hi) _ fun k => ?_
    by_cases h : k = j
    · subst h; simpa using hd i
    · simpa [h] using hc k
  · refine le_trans (pick_variation (n := G.size j) (fun i => g (Function.update c j i)) d
      (fun i hi => nearest_mono (hG.incr j) (hz i hi) (hd i) (hd (i + 1))) fun i _ => (hd i).1)
      (hV c fun k => (hc k).1)

/-- C136, multicubic: the results change in total by at most `1 + 6 ρ²/(1 + ρ)` times as much as the
values, amplified by `1 + ρ²/(2 (1 + ρ))` for each other axis. Here `ρ` bounds the ratio of the
widths of adjacent cells. -/
theorem C136_multicubic (e : Evaluator) (he : e.Fits N) (fma : Bool) (G : Axes K N) (vals : List K)
    (lin : Bool) (hG : G.Valid 4 vals) (g : (Fin N → Nat) → K) (hg : Samples G.size vals g) (ρ : K)
    (hρ : ∀ k, MeshRatio (G.size k) (G.node k) ρ) (j : Fin N) (V : K)
    (hV : ∀ loc : Fin N → Nat, (∀ k, loc k < G.size k) → ∑ i ∈ Finset.range (G.size j - 1),
      |g (Function.update loc j (i + 1)) - g (Function.update loc j i)| ≤ V)
    (x : Fin N → K) (hx : ∀ k, InRange (G.size k) (G.node k) (x k)) (m : Nat) (z : Nat → K)
    (hz : ∀ i < m, z i ≤ z (i + 1)) (hin : ∀ i ≤ m, InRange (G.size j) (G.node j) (z i)) :
    ∃ y : Nat → K,
      (∀ i ≤ m, multicubicAt e fma G vals lin (Function.update x j (z i)) = .ok (y i)) ∧
      ∑ i ∈ Finset.range m, |y (i + 1) - y i| ≤
        (1 + 6 * ρ ^ 2 / (1 + ρ)) * (1 + ρ ^ 2 / (2 * (1 + ρ))) ^ (N - 1) * V := by
  obtain ⟨c, hc⟩ := hG.cells (by omega) x
  choose d hd using fun i => exists_inCell (p := G.node j) (le_trans (by omega) (hG.big j)) (z i)
  have hρ1 : 1 ≤ ρ := ratio_ge_one (hG.incr j) (hG.big j) (hρ j)
  refine ⟨fun i => axisByAxis (Function.update
    (fun k f => cubicPiece (G.size k) (G.node k) f lin (c k) (x k)) j
    fun f => cubicPiece (G.size j) (G.node j) f lin (d i) (z i)) g, fun i hi => ?_, ?_⟩
  · rw [multicubicAt_eq e he fma G vals lin hG g hg _
      (hG.inRange_fits (by omega) (sweep_inRange hx (hin i hi)) _ (by decide)) _
      (sweep_cells hc (hd i))]
    congr 2
    funext k
    by_cases h : k = j
    · subst h; simp
    · simp [h]
  · have := axisByAxis_variation (Λ := 1 + ρ ^ 2 / (2 * (1 + ρ))) (C := 1 + 6 * ρ ^ 2 / (1 + ρ))
      (by positivity) (n := G.size) (fun k => by have := hG.big k; omega)
      (fun k f => cubicPiece (G.size k) (G.node k) f lin (c k) (x k))
      (fun k => cubicPiece_linear (hG.big k) lin (hc k).1)
      (fun k f ε hf => by
        have := cubicPiece_lip (hG.incr k) (hG.big k) lin (hc k) (hx k) (hρ k) (f := f)
          (f' := fun _ => 0) (ε := ε) (fun j h => by rw [sub_zero]; exact hf j h.1)
        rwa [(cubicPiece_linear (hG.big k) lin (hc k).1).zero, sub_zero] at this) j (m := m)
      (fun i f => cubicPiece (G.size j) (G.node j) f lin (d i) (z i))
      (fun i _ => cubicPiece_linear (hG.big j) lin (hd i).1)
      (fun f => cubicPiece_variation (hG.incr j) (hG.big j) lin hρ1 (hρ j) f z d hz
        (fun i _ => hd i) hin) (by positivity) g V hV
    rwa [← mul_assoc] at this

/-- C136, multicubic on a regular grid: a factor of 4, and `5/4` for each other axis. -/
theorem C136_multicubic_regular (e : Evaluator) (he : e.Fits N) (fma : Bool) (dims : Fin N → Nat)
    (starts steps : Fin N → K) (vals : List K) (lin : Bool)
    (hG : (Axes.regular dims starts steps).Valid 4 vals) (g : (Fin N → Nat) → K)
    (hg : Samples dims vals g) (j : Fin N) (V : K)
    (hV : ∀ loc : Fin N → Nat, (∀ k, loc k < dims k) → ∑ i ∈ Finset.range (dims j - 1),
      |g (Function.update loc j (i + 1)) - g (Function.update loc j i)| ≤ V)
    (x : Fin N → K) (hx : ∀ k, InRange (dims k) (fun i => starts k + steps k * i) (x k)) (m : Nat)
    (z : Nat → K) (hz : ∀ i < m, z i ≤ z (i + 1))
    (hin : ∀ i ≤ m, InRange (dims j) (fun i => starts j + steps j * i) (z i)) :
    ∃ y : Nat → K,
      (∀ i ≤ m, multicubicAt e fma (.regular dims starts steps) vals lin
        (Function.update x j (z i)) = .ok (y i)) ∧
      ∑ i ∈ Finset.range m, |y (i + 1) - y i| ≤ 4 * (5 / 4) ^ (N - 1) * V := by
  obtain ⟨y, h1, h2⟩ := C136_multicubic e he fma (.regular dims starts steps) vals lin hG g hg 1
    (meshRatio_regular dims starts steps) j V hV x hx m z hz hin
  refine ⟨y, h1, h2.trans (le_of_eq ?_)⟩
  norm_num

end

section Examples

attribute [local instance] ratOps

/-- Lines of the table `0 2 1; 3 3 5` along the second axis vary by 3 and 2. -/
example (x : Fin 2 → ℚ)
    (hx : ∀ k, InRange (![2, 3] k) ((Axes.rectilinear ![[0, 1], [0, 1, 5]] : Axes ℚ 2).node k)
      (x k)) (m : Nat) (z : Nat → ℚ) (hz : ∀ i < m, z i ≤ z (i + 1))
    (hin : ∀ i ≤ m, InRange 3 ((Axes.rectilinear ![[0, 1], [0, 1, 5]] : Axes ℚ 2).node 1) (z i)) :
    let G : Axes ℚ 2 := .rectilinear ![[0, 1], [0, 1, 5]]
    let vals : List ℚ := [0, 2, 1, 3, 3, 5]
    (∃ y : Nat → ℚ, (∀ i ≤ m, multilinearAt .flat false G vals (Function.update x 1 (z i)) =
      .ok (y i)) ∧ ∑ i ∈ Finset.range m, |y (i + 1) - y i| ≤ 3) ∧
    ∃ y : Nat → ℚ, (∀ i ≤ m, nearestAt true G vals (Function.update x 1 (z i)) = .ok (y i)) ∧
      ∑ i ∈ Finset.range m, |y (i + 1) - y i| ≤ 3 := by
  intro G vals
  have hG : G.Valid 2 vals := valid_of_check (by decide +kernel)
  have hV : ∀ loc : Fin 2 → Nat, (∀ k, loc k < G.size k) → ∑ i ∈ Finset.range (G.size 1 - 1),
      |valAt 0 G.size vals (Function.update loc 1 (i + 1)) -
        valAt 0 G.size vals (Function.update loc 1 i)| ≤ 3 := by
    intro loc hl
    obtain ⟨a, b, rfl⟩ : ∃ a b, loc = ![a, b] := ⟨loc 0, loc 1, by
      funext k; fin_cases k <;> rfl⟩
    have ha : a < 2 := hl 0
    have hb : b < 3 := hl 1
    clear hl hin hx x hz z m
    interval_cases a <;> interval_cases b <;> decide +kernel
  exact ⟨C136_multilinear .flat Nat.two_pos false G vals hG _ (samples_valAt 0 _ _ hG.len) 1 3 hV x
      (by intro k; fin_cases k; exacts [hx 0, hx 1]) m z hz hin,
    C136_nearest true G vals hG _ (samples_valAt 0 _ _ hG.len) 1 3 hV x m z hz
      fun _ _ => trivial⟩

/-- A zigzag of variation 3 in a rectilinear axis with ratio 2: the cubic varies by at most 27. -/
example (m : Nat) (z : Nat → ℚ) (hz : ∀ i < m, z i ≤ z (i + 1))
    (hin : ∀ i ≤ m, InRange 4 ((Axes.rectilinear ![[0, 1, 3, 4]] : Axes ℚ 1).node 0) (z i)) :
    ∃ y : Nat → ℚ, (∀ i ≤ m, multicubicAt (.recursive 3) true (.rectilinear ![[0, 1, 3, 4]])
      [0, 1, 0, 1] true (Function.update ![0] 0 (z i)) = .ok (y i)) ∧
      ∑ i ∈ Finset.range m, |y (i + 1) - y i| ≤ 27 := by
  have hG : (Axes.rectilinear ![[0, 1, 3, 4]] : Axes ℚ 1).Valid 4 [0, 1, 0, 1] :=
    valid_of_check (by decide +kernel)
  obtain ⟨y, h1, h2⟩ := C136_multicubic (.recursive 3) (show 0 < 1 ∧ 1 ≤ 3 by decide) true
    (.rectilinear ![[0, 1, 3, 4]]) [0, 1, 0, 1] true hG _ (samples_valAt 0 _ _ hG.len) 2 (by
      intro k i hi
      replace hi : i + 2 < 4 := by fin_cases k; exact hi
      have : i < 2 := by omega
      clear hin hz z m hG
      fin_cases k
      interval_cases i <;> constructor <;> decide +kernel) 0 3 (by
      intro loc hl
      obtain ⟨a, rfl⟩ : ∃ a, loc = ![a] := ⟨loc 0, by funext k; fin_cases k; rfl⟩
      have ha : a < 4 := hl 0
      clear hl hin hz z m hG
      interval_cases a <;> decide +kernel) ![0] (by
      clear hin hz z m hG
      intro k; fin_cases k; exact ⟨by decide +kernel, by decide +kernel⟩) m z hz hin
  refine ⟨y, h1, h2.trans (le_of_eq ?_)⟩
  norm_num

/-- On a regular axis at most four times the variation of the table. -/
example (m : Nat) (z : Nat → ℚ) (hz : ∀ i < m, z i ≤ z (i + 1))
    (hin : ∀ i ≤ m, InRange 4 (fun i => (0 : ℚ) + 1 * i) (z i)) :
    ∃ y : Nat → ℚ, (∀ i ≤ m, multicubicAt .flat false (.regular ![4] ![0] ![1])
      [0, 1, 0, 1] false (Function.update ![0] 0 (z i)) = .ok (y i)) ∧
      ∑ i ∈ Finset.range m, |y (i + 1) - y i| ≤ 12 := by
  have hG : (Axes.regular ![4] ![0] ![1] : Axes ℚ 1).Valid 4 [0, 1, 0, 1] :=
    valid_of_check (by decide +kernel)
  obtain ⟨y, h1, h2⟩ := C136_multicubic_regular .flat Nat.one_pos false ![4] ![0] ![1] [0, 1, 0, 1]
    false hG _ (samples_valAt 0 _ _ hG.len) 0 3 (by
      intro loc hl
      obtain ⟨a, rfl⟩ : ∃ a, loc = ![a] := ⟨loc 0, by funext k; fin_cases k; rfl⟩
      have ha : a < 4 := hl 0
      clear hl hin hz z m hG
      interval_cases a <;> decide +kernel) ![0] (by
      clear hin hz z m hG
      intro k; fin_cases k; exact ⟨by decide +kernel, by decide +kernel⟩) m z hz hin
  refine ⟨y, h1, h2.trans (le_of_eq ?_)⟩
  norm_num

/-- A cubic can vary more than the table: `0 0 1 1` overshoots, so that a factor of 1 would be wrong
for it. -/
theorem C136_overshoot :
    let G : Axes ℚ 1 := .regular ![4] ![0] ![1]
    let vals : List ℚ := [0, 0, 1, 1]
    multicubicAt .flat false G vals false ![0] = .ok 0 ∧
      multicubicAt .flat false G vals false ![1 / 2] = .ok (-1 / 8) ∧
      multicubicAt .flat false G vals false ![5 / 2] = .ok (9 / 8) ∧
      multicubicAt .flat false G vals false ![3] = .ok 1 := by
  intro G vals
  decide +kernel

end Examples

end Interpn
