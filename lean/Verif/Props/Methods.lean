import Verif.Lemmas.Replace
import Verif.Props.Accuracy
import Verif.Props.MulticubicExact
import Verif.Lemmas.ExampleGrids
import Verif.Lemmas.RatOps
import Mathlib.Tactic.FinCases
import Mathlib.Tactic.IntervalCases
import Mathlib.Tactic.NormNum

/-! C135: how much the results of the three methods can differ. -/

set_option autoImplicit false
set_option linter.unusedSectionVars false

namespace Interpn

section
variable {K : Type} [Field K] [LinearOrder K] [IsStrictOrderedRing K] [FloorRing K] {N : Nat}

/-- C135: inside the grid, nearest-neighbor and multilinear results differ by at most half the sum
over the axes of the largest difference `D k` between neighbouring values along axis `k`. -/
theorem C135_nearest_multilinear (e : Evaluator) (he : e.Fits N) (fma fma' : Bool) (G : Axes K N)
    (vals : List K) (hG : G.Valid 2 vals) (g : (Fin N → Nat) → K) (hg : Samples G.size vals g)
    (D : Fin N → K)
    (hD : ∀ k, ∀ loc : Fin N → Nat, (∀ k, loc k < G.size k) → loc k + 1 < G.size k →
      |g (Function.update loc k (loc k + 1)) - g loc| ≤ D k)
    (x : Fin N → K) (hin : ∀ k, InRange (G.size k) (G.node k) (x k)) :
    ∃ y z, multilinearAt e fma G vals x = .ok y ∧ nearestAt fma' G vals x = .ok z ∧
      |z - y| ≤ ∑ k, D k / 2 := by
  obtain ⟨c, hc⟩ := hG.cells le_rfl x
  have hnear : ∀ k, ∃ i, IsNearest (G.size k) (G.node k) (x k) i := fun k =>
    exists_isNearest (hG.big k) (hG.incr k) (x k)
  choose i hi using hnear
  have hx : G.Representable x := hG.inRange_fits le_rfl hin _ (by decide)
  refine ⟨_, _, multilinearAt_eq e he fma G vals hG g hg x hx c hc,
    nearestAt_eq fma' G vals hG g hg x hx i hi, ?_⟩
  have key := axisByAxis_replace_all (Λ := (1 : K)) (by norm_num) (n := G.size)
    (fun k => by have := hG.big k; omega)
    (fun k f => linPiece (G.node k) f (c k) (x k)) (fun k f => f (i k))
    (I := fun k => {i : Nat // i + 1 < G.size k}) (fun k j => increment j.1) g (fun _ => 1 / 2) D
    (fun k => linPiece_linear (hc k).1)
    (fun k => ⟨fun f f' h => h _ (hi k).1, fun _ _ => rfl, fun _ _ => rfl⟩)
    (fun k j => increment_linear j.2)
    (fun k f ε hf => by
      rw [one_mul]
      refine ⟨?_, hf _ (hi k).1⟩
      obtain ⟨t0, t1⟩ := weight_mem (hG.incr k) (hc k) (hin k)
      have h1 := abs_le.1 (hf (c k) (by have := (hc k).1; omega))
      have h2 := abs_le.1 (hf (c k + 1) (hc k).1)
      rw [linPiece_weights, abs_le]
      have a1 := mul_le_mul_of_nonneg_left h1.1 (sub_nonneg.2 t1)
      have a2 := mul_le_mul_of_nonneg_left h1.2 (sub_nonneg.2 t1)
      have a3 := mul_le_mul_of_nonneg_left h2.1 t0
      have a4 := mul_le_mul_of_nonneg_left h2.2 t0
      constructor <;> linarith)
    (fun k f B hB => nearest_linPiece (hG.incr k) (hc k) (hin k) (hi k) hB)
    (fun k loc hl j => by
      have hj : ∀ k', Function.update loc k j.1 k' < G.size k' := by
        intro k'
        by_cases h : k' = k
        · subst h; rw [Function.update_self]; have := j.2; omega
        · rw [Function.update_of_ne h]; exact hl k'
      have := hD k (Function.update loc k j.1) hj (by rw [Function.update_self]; exact j.2)
      rwa [Function.update_self, Function.update_idem] at this)
  rw [one_pow, one_mul, axisByAxis_eval _ _ i fun _ _ => rfl] at key
  refine key.trans (le_of_eq (Finset.sum_congr rfl fun k _ => by ring))

/-- C135: inside the grid, multicubic and multilinear results differ by at most the sum over the
axes of `ρ/(4 (1 + ρ))` times the width `w k` of the cells times the largest change `J k` of slope
at a node along axis `k`, amplified by `1 + ρ²/(2 (1 + ρ))` for each axis but one. Here `ρ` bounds
the ratio of the widths of adjacent cells. -/
theorem C135_multicubic_multilinear (e e' : Evaluator) (he : e.Fits N) (he' : e'.Fits N)
    (fma fma' lin : Bool) (G : Axes K N) (vals : List K) (hG : G.Valid 4 vals)
    (g : (Fin N → Nat) → K) (hg : Samples G.size vals g) (ρ : K)
    (hρ : ∀ k, MeshRatio (G.size k) (G.node k) ρ) (w J : Fin N → K)
    (hw : ∀ k i, i + 1 < G.size k → G.node k (i + 1) - G.node k i ≤ w k)
    (hJ : ∀ k, ∀ loc : Fin N → Nat, (∀ k, loc k < G.size k) → loc k + 2 < G.size k →
      |(g (Function.update loc k (loc k + 2)) - g (Function.update loc k (loc k + 1))) /
          (G.node k (loc k + 2) - G.node k (loc k + 1)) -
        (g (Function.update loc k (loc k + 1)) - g loc) /
          (G.node k (loc k + 1) - G.node k (loc k))| ≤ J k)
    (x : Fin N → K) (hin : ∀ k, InRange (G.size k) (G.node k) (x k)) :
    ∃ y z, multilinearAt e fma G vals x = .ok y ∧ multicubicAt e' fma' G vals lin x = .ok z ∧
      |z - y| ≤ (1 + ρ ^ 2 / (2 * (1 + ρ))) ^ (N - 1) *
        ∑ k, ρ / (4 * (1 + ρ)) * w k * J k := by
  have hG2 : G.Valid 2 vals := ⟨hG.slice, hG.len, fun k => le_trans (by omega) (hG.big k),
    hG.increasing⟩
  obtain ⟨c, hc⟩ := hG2.cells le_rfl x
  have hρ0 : 0 < ρ := (hρ ⟨0, he.pos⟩).pos (hG.incr _) (hG.big _)
  refine ⟨_, _, multilinearAt_eq e he fma G vals hG2 g hg x (hG2.inRange_fits le_rfl hin _
    (by decide)) c hc, multicubicAt_eq e' he' fma' G vals lin hG g hg x (hG2.inRange_fits le_rfl hin _
    (by decide)) c hc, ?_⟩
  have hJ0 : ∀ k, 0 ≤ J k := fun k => (abs_nonneg _).trans (hJ k (fun _ => 0)
    (fun k => by have := hG.big k; omega) (by have := hG.big k; omega))
  have hΛ : 1 ≤ 1 + ρ ^ 2 / (2 * (1 + ρ)) := by
    have : 0 ≤ ρ ^ 2 / (2 * (1 + ρ)) := by positivity
    linarith
  have hρ4 : 0 ≤ ρ / (4 * (1 + ρ)) := by positivity
  have key := axisByAxis_replace_all (le_trans zero_le_one hΛ) (n := G.size)
    (fun k => by have := hG.big k; omega)
    (fun k f => linPiece (G.node k) f (c k) (x k))
    (fun k f => cubicPiece (G.size k) (G.node k) f lin (c k) (x k))
    (I := fun k => {i : Nat // i + 2 < G.size k}) (fun k j => slopeChange (G.node k) j.1) g
    (fun k => ρ / (4 * (1 + ρ)) * w k) J
    (fun k => linPiece_linear (hc k).1) (fun k => cubicPiece_linear (hG.big k) lin (hc k).1)
    (fun k j => slopeChange_linear j.2)
    (fun k f ε hf => by
      constructor
      · obtain ⟨t0, t1⟩ := weight_mem (hG.incr k) (hc k) (hin k)
        have h1 := abs_le.1 (hf (c k) (by have := (hc k).1; omega))
        have h2 := abs_le.1 (hf (c k + 1) (hc k).1)
        have hε : 0 ≤ ε := (abs_nonneg _).trans (hf _ (hc k).1)
        have : |linPiece (G.node k) f (c k) (x k)| ≤ ε := by
          rw [linPiece_weights, abs_le]
          have a1 := mul_le_mul_of_nonneg_left h1.1 (sub_nonneg.2 t1)
          have a2 := mul_le_mul_of_nonneg_left h1.2 (sub_nonneg.2 t1)
          have a3 := mul_le_mul_of_nonneg_left h2.1 t0
          have a4 := mul_le_mul_of_nonneg_left h2.2 t0
          constructor <;> linarith
        exact this.trans (le_mul_of_one_le_left hε hΛ)
      · have := cubicPiece_lip (hG.incr k) (hG.big k) lin (hc k) (hin k) (hρ k) (f := f)
          (f' := fun _ => 0) (ε := ε) (fun j h => by rw [sub_zero]; exact hf j h.1)
        rwa [(cubicPiece_linear (hG.big k) lin (hc k).1).zero, sub_zero] at this)
    (fun k f B hB => by
      refine (cubicPiece_linPiece (hG.incr k) (hG.big k) lin (hc k) (hin k) (hρ k) hB).trans ?_
      have hB0 : 0 ≤ B := (abs_nonneg _).trans (hB ⟨0, by have := hG.big k; omega⟩)
      rw [mul_comm (_ - _)]
      exact mul_le_mul_of_nonneg_right (mul_le_mul_of_nonneg_left (hw k _ (hc k).1) hρ4) hB0)
    (fun k loc hl j => by
      have hj : ∀ k', Function.update loc k j.1 k' < G.size k' := by
        intro k'
        by_cases h : k' = k
        · subst h; rw [Function.update_self]; have := j.2; omega
        · rw [Function.update_of_ne h]; exact hl k'
      have := hJ k (Function.update loc k j.1) hj (by rw [Function.update_self]; exact j.2)
      simp only [Function.update_self, Function.update_idem] at this
      exact this)
  exact key

/-- C135 on a regular grid: the bound is one eighth of the largest second difference `S k` along
each axis, amplified by `5/4` for each axis but one. -/
theorem C135_multicubic_multilinear_regular (e e' : Evaluator) (he : e.Fits N) (he' : e'.Fits N)
    (fma fma' lin : Bool) (dims : Fin N → Nat) (starts steps : Fin N → K) (vals : List K)
    (hG : (Axes.regular dims starts steps).Valid 4 vals) (g : (Fin N → Nat) → K)
    (hg : Samples dims vals g) (S : Fin N → K)
    (hS : ∀ k, ∀ loc : Fin N → Nat, (∀ k, loc k < dims k) → loc k + 2 < dims k →
      |g (Function.update loc k (loc k + 2)) - 2 * g (Function.update loc k (loc k + 1)) + g loc| ≤
        S k)
    (x : Fin N → K) (hin : ∀ k, InRange (dims k) (fun i => starts k + steps k * i) (x k)) :
    ∃ y z, multilinearAt e fma (.regular dims starts steps) vals x = .ok y ∧
      multicubicAt e' fma' (.regular dims starts steps) vals lin x = .ok z ∧
      |z - y| ≤ (5 / 4) ^ (N - 1) * ∑ k, S k / 8 := by
  have hs : ∀ k, 0 < steps k := fun k => hG.step_pos (by omega) k
  have hd : ∀ k (i : Nat), (Axes.regular dims starts steps).node k (i + 1) -
      (Axes.regular dims starts steps).node k i = steps k := fun k i => by
    simp only [Axes.node]; push_cast; ring
  obtain ⟨y, z, h1, h2, h3⟩ := C135_multicubic_multilinear e e' he he' fma fma' lin _ vals hG g hg 1
    (meshRatio_regular dims starts steps) steps (fun k => S k / steps k)
    (fun k i _ => (hd k i).le) (fun k loc hl hk => by
      rw [hd k (loc k), show (Axes.regular dims starts steps).node k (loc k + 2) -
        (Axes.regular dims starts steps).node k (loc k + 1) = steps k from hd k (loc k + 1),
        ← sub_div, abs_div, abs_of_pos (hs k)]
      refine div_le_div_of_nonneg_right ?_ (hs k).le
      have := hS k loc hl hk
      convert this using 2
      ring) x hin
  refine ⟨y, z, h1, h2, h3.trans (le_of_eq ?_)⟩
  congr 1
  · norm_num
  · refine Finset.sum_congr rfl fun k _ => ?_
    have := (hs k).ne'
    field_simp
    ring

end

section Examples

attribute [local instance] ratOps

/-- The table `0 1 3; 2 2 5` changes by at most 2 along the first axis and 3 along the second. -/
example (x : Fin 2 → ℚ)
    (hin : ∀ k, InRange (![2, 3] k) ((Axes.rectilinear ![[0, 1], [0, 1, 5]] : Axes ℚ 2).node k)
      (x k)) :
    let G : Axes ℚ 2 := .rectilinear ![[0, 1], [0, 1, 5]]
    let vals : List ℚ := [0, 1, 3, 2, 2, 5]
    ∃ y z, multilinearAt .flat false G vals x = .ok y ∧ nearestAt true G vals x = .ok z ∧
      |z - y| ≤ 5 / 2 := by
  intro G vals
  have hG : G.Valid 2 vals := valid_of_check (by decide +kernel)
  obtain ⟨y, z, h1, h2, h3⟩ := C135_nearest_multilinear .flat Nat.two_pos false true G vals hG
    (valAt 0 G.size vals) (samples_valAt 0 _ _ hG.len) ![2, 3] (by
      intro k loc hl hk
      obtain ⟨a, b, rfl⟩ : ∃ a b, loc = ![a, b] := ⟨loc 0, loc 1, by
        funext k; fin_cases k <;> rfl⟩
      have ha : a < 2 := hl 0
      have hb : b < 3 := hl 1
      clear hl hin x
      fin_cases k
      · replace hk : a + 1 < 2 := hk
        interval_cases a <;> interval_cases b <;> first | omega | decide +kernel
      · replace hk : b + 1 < 3 := hk
        interval_cases a <;> interval_cases b <;> first | omega | decide +kernel)
    x (by intro k; fin_cases k; exacts [hin 0, hin 1])
  refine ⟨y, z, h1, h2, h3.trans (le_of_eq ?_)⟩
  rw [Fin.sum_univ_two]
  norm_num

/-- A rectilinear axis with ratio 2 whose slopes `1, 1, 2` change by at most 1, cells at most 2
wide. -/
example (x : Fin 1 → ℚ)
    (hin : InRange 4 ((Axes.rectilinear ![[0, 1, 3, 4]] : Axes ℚ 1).node 0) (x 0)) :
    let G : Axes ℚ 1 := .rectilinear ![[0, 1, 3, 4]]
    let vals : List ℚ := [0, 1, 3, 5]
    ∃ y z, multilinearAt .flat false G vals x = .ok y ∧
      multicubicAt (.recursive 3) true G vals true x = .ok z ∧ |z - y| ≤ 1 / 3 := by
  intro G vals
  have hG : G.Valid 4 vals := valid_of_check (by decide +kernel)
  obtain ⟨y, z, h1, h2, h3⟩ := C135_multicubic_multilinear .flat (.recursive 3) Nat.one_pos
    (show 0 < 1 ∧ 1 ≤ 3 by decide) false true true G vals hG
    (valAt 0 G.size vals) (samples_valAt 0 _ _ hG.len) 2 (by
      intro k i hi
      replace hi : i + 2 < 4 := by fin_cases k; exact hi
      have : i < 2 := by omega
      clear hin x
      fin_cases k
      interval_cases i <;> constructor <;> decide +kernel) ![2] ![1] (by
      intro k i hi
      replace hi : i + 1 < 4 := by fin_cases k; exact hi
      have : i < 3 := by omega
      clear hin x
      fin_cases k
      interval_cases i <;> decide +kernel) (by
      intro k loc hl hk
      obtain ⟨a, rfl⟩ : ∃ a, loc = ![a] := ⟨loc 0, by funext k; fin_cases k; rfl⟩
      clear hl hin x
      fin_cases k
      replace hk : a + 2 < 4 := hk
      have : a < 2 := by omega
      interval_cases a <;> decide +kernel)
    x (by intro k; fin_cases k; exact hin)
  refine ⟨y, z, h1, h2, h3.trans (le_of_eq ?_)⟩
  rw [Fin.sum_univ_one]
  norm_num

/-- Second differences of `i² + 2 j²` are 2 and 4. -/
example (x : Fin 2 → ℚ)
    (hin : ∀ k, InRange (![4, 4] k) (fun i => ![0, 0] k + ![1, 1] k * (i : ℚ)) (x k)) :
    let vals : List ℚ := [0, 2, 8, 18, 1, 3, 9, 19, 4, 6, 12, 22, 9, 11, 17, 27]
    ∃ y z, multilinearAt .flat false (.regular ![4, 4] ![0, 0] ![1, 1]) vals x = .ok y ∧
      multicubicAt .flat true (.regular ![4, 4] ![0, 0] ![1, 1]) vals false x = .ok z ∧
      |z - y| ≤ 15 / 16 := by
  intro vals
  have hG : (Axes.regular ![4, 4] ![0, 0] ![1, 1] : Axes ℚ 2).Valid 4 vals :=
    valid_of_check (by decide +kernel)
  obtain ⟨y, z, h1, h2, h3⟩ := C135_multicubic_multilinear_regular .flat .flat Nat.two_pos
    Nat.two_pos false true false ![4, 4] ![0, 0] ![1, 1] vals hG (valAt 0 ![4, 4] vals)
    (samples_valAt 0 _ _ hG.len) ![2, 4] (by
      intro k loc hl hk
      obtain ⟨a, b, rfl⟩ : ∃ a b, loc = ![a, b] := ⟨loc 0, loc 1, by
        funext k; fin_cases k <;> rfl⟩
      have ha : a < 4 := hl 0
      have hb : b < 4 := hl 1
      clear hl hin x
      fin_cases k
      · replace hk : a + 2 < 4 := hk
        interval_cases a <;> interval_cases b <;> first | omega | decide +kernel
      · replace hk : b + 2 < 4 := hk
        interval_cases a <;> interval_cases b <;> first | omega | decide +kernel) x hin
  refine ⟨y, z, h1, h2, h3.trans (le_of_eq ?_)⟩
  rw [Fin.sum_univ_two]
  norm_num

/-- The bounds are attained: nearest and linear differ by half the increment in the middle of a cell,
cubic and linear by an eighth of the second difference. -/
theorem C135_sharp :
    let G : Axes ℚ 1 := .regular ![4] ![0] ![1]
    let vals : List ℚ := [0, 1, 1, 0]
    (multilinearAt .flat false G vals ![1 / 2] = .ok (1 / 2) ∧
      nearestAt false G vals ![1 / 2] = .ok 0) ∧
    (multilinearAt .flat false G vals ![3 / 2] = .ok 1 ∧
      multicubicAt .flat false G vals false ![3 / 2] = .ok (1 + 1 / 8)) := by
  intro G vals
  decide +kernel

end Examples

end Interpn
